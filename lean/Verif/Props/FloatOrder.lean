import Verif.Lemmas.FloatOrder
import Verif.Props.Accumulators
import Verif.Props.FloatArith

/-! # C125: the order statistics of floating point numbers -/

namespace Fern.FloatOrder

open Fern Fern.Domains Fern.Spec Fern.Casts Fern.Casts.Spec Fern.FloatArith Fern.FloatArith.Spec
open _root_.Fern.FloatOrder.Spec
open _root_.Fern.FloatSpread.Spec (Accumulated NotNegative)

/-! ### Maximum and minimum -/

/-- C125: however the values are added and merged, the maximum is the largest of the values that aren't NaN, if one of these
isn't minus infinity. -/
theorem C125_max (t : FltTy) (vs : List Flt) (s : Flt) (h : Accumulated (maxAcc t) vs s) (hv : ∀ v ∈ vs, IsValue t v)
    (hn : ∃ v ∈ vs, v ≠ .nan ∧ v ≠ .negInf) : ∃ m, (maxAcc t).result s = some m ∧ Largest vs m := by
  obtain ⟨v, hm, h1, h2⟩ := hn
  have he := maxAcc_extreme h
  exact ⟨s, rfl, he.one max_order hm h1 (lowest_le (hv v hm) h1 h2), he.not_nan, he.all⟩

/-- C125: the minimum, if one of the values that aren't NaN isn't infinity. -/
theorem C125_min (t : FltTy) (vs : List Flt) (s : Flt) (h : Accumulated (minAcc t) vs s) (hv : ∀ v ∈ vs, IsValue t v)
    (hn : ∃ v ∈ vs, v ≠ .nan ∧ v ≠ .inf) : ∃ m, (minAcc t).result s = some m ∧ Smallest vs m := by
  obtain ⟨v, hm, h1, h2⟩ := hn
  have he := minAcc_extreme h
  exact ⟨s, rfl, he.one min_order hm h1 (le_highest (hv v hm) h1 h2), he.not_nan, he.all⟩

/-- C125: otherwise the maximum is the smallest number of the type, which isn't one of the values. -/
theorem C125_max_none (t : FltTy) (vs : List Flt) (s : Flt) (h : Accumulated (maxAcc t) vs s)
    (hn : ∀ v ∈ vs, v = .nan ∨ v = .negInf) :
    ∃ q, LargestNumber t q ∧ (maxAcc t).result s = some (.fin (-q)) ∧ .fin (-q) ∉ vs := by
  refine ⟨_, largest_number t, ?_, fun hm => by rcases hn _ hm with e | e <;> simp at e⟩
  rw [(maxAcc_extreme h).none max_order fun v hm h1 => by rw [(hn v hm).resolve_left h1]; rfl]
  rfl

/-- C125: otherwise the minimum is the largest number of the type, which isn't one of the values. -/
theorem C125_min_none (t : FltTy) (vs : List Flt) (s : Flt) (h : Accumulated (minAcc t) vs s)
    (hn : ∀ v ∈ vs, v = .nan ∨ v = .inf) :
    ∃ q, LargestNumber t q ∧ (minAcc t).result s = some (.fin q) ∧ .fin q ∉ vs := by
  refine ⟨_, largest_number t, ?_, fun hm => by rcases hn _ hm with e | e <;> simp at e⟩
  rw [(minAcc_extreme h).none min_order fun v hm h1 => by rw [(hn v hm).resolve_left h1]; rfl]
  rfl

/-- C125: the order in which values are added, and in which accumulators are merged, doesn't matter. -/
theorem C125_order (t : FltTy) (vs vs' : List Flt) (hp : List.Perm vs vs') :
    (∀ s s', Accumulated (maxAcc t) vs s → Accumulated (maxAcc t) vs' s' → s = s') ∧
      (∀ s s', Accumulated (minAcc t) vs s → Accumulated (minAcc t) vs' s' → s = s') ∧
      (∀ s s', Accumulated (rangeAcc t) vs s → Accumulated (rangeAcc t) vs' s' → s = s') ∧
      (∀ s s', Accumulated (medianAcc t) vs s → Accumulated (medianAcc t) vs' s' → .nan ∉ vs →
        (medianAcc t).result s = (medianAcc t).result s') := by
  have hm : ∀ v, v ∈ vs ↔ v ∈ vs' := fun v => hp.mem_iff
  refine ⟨fun s s' h h' => (maxAcc_extreme h).unique max_order hm (maxAcc_extreme h'),
    fun s s' h h' => (minAcc_extreme h).unique min_order hm (minAcc_extreme h'), fun s s' h h' => ?_, fun s s' h h' hn => ?_⟩
  · obtain ⟨h1, h2⟩ := rangeAcc_parts h
    obtain ⟨h1', h2'⟩ := rangeAcc_parts h'
    exact Prod.ext ((minAcc_extreme h1).unique min_order hm (minAcc_extreme h1'))
      ((maxAcc_extreme h2).unique max_order hm (maxAcc_extreme h2'))
  · rw [medianAcc_state h, medianAcc_state h']
    have hs := mergeSort_sorted hn
    have e : vs = [] ↔ vs' = [] := ⟨fun e => by subst e; exact hp.nil_eq.symm, fun e => by subst e; exact hp.eq_nil⟩
    have hn' : .nan ∉ vs' := fun e => hn ((hm _).2 e)
    simp only [medianAcc, medianResult, sortValues_eq hn hs, sortValues_eq hn' (sorted_perm hp hs), e]

/-- C125: values can always be added, one by one. -/
theorem C125_total (t : FltTy) (vs : List Flt) :
    (∃ s, Accumulated (maxAcc t) vs s) ∧ (∃ s, Accumulated (minAcc t) vs s) ∧ (∃ s, Accumulated (rangeAcc t) vs s) ∧
      ∃ s, Accumulated (medianAcc t) vs s := by
  induction vs using List.reverseRecOn with
  | nil => exact ⟨⟨_, .init⟩, ⟨_, .init⟩, ⟨_, .init⟩, ⟨_, .init⟩⟩
  | append_singleton vs v ih =>
    obtain ⟨⟨s1, h1⟩, ⟨s2, h2⟩, ⟨s3, h3⟩, s4, h4⟩ := ih
    exact ⟨⟨_, .add _ _ _ _ true h1 rfl⟩, ⟨_, .add _ _ _ _ true h2 rfl⟩, ⟨_, .add _ _ _ _ true h3 rfl⟩, ⟨_, .add _ _ _ _ true h4 rfl⟩⟩

private theorem pure_seq {S : Type} {A : Accumulator S Flt Flt} {P : S → Prop}
    {f : S → Flt → S} {m : S → S → S} (hA : PureAccumulator A P (fun _ => True) f m) (vs : List Flt)
    (outp : OutPolicy Flt) (c : Cell Flt) :
    (aggregated A vs).bind (fun a => storeAggregate A outp a c) =
      if vs = [] then some (outp.mark c) else (resultOf A vs).map (fun x => ⟨x, c.masked⟩) := by
  rw [hA.aggregated vs fun _ _ => trivial, Option.bind_some, resultOf, hA.addAllTo vs fun _ _ => trivial, Option.bind_some]
  cases vs <;> simp [storeAggregate]

/-- C125: the maximum of an array is the largest of the valid values that aren't NaN, provided that one of these isn't minus
infinity. It is marked as no-data if there is no valid value. -/
theorem C125_max_array (t : FltTy) (p : InPolicy Flt) (vals : List Flt) (hp : PolicyFor p vals.length)
    (hv : ∀ v ∈ vals, IsValue t v) (outp : OutPolicy Flt) (c : Cell Flt) :
    ∃ c', aggregateSeq1d (maxAcc t) p vals outp c = some c' ∧
      ((∃ v ∈ validList p vals, v ≠ .nan ∧ v ≠ .negInf) → ∃ m, Largest (validList p vals) m ∧ Assigned m c c') ∧
      (validList p vals ≠ [] → (∀ v ∈ validList p vals, v = .nan ∨ v = .negInf) →
        ∃ q, LargestNumber t q ∧ Assigned (.fin (-q)) c c') ∧
      (validList p vals = [] → Marked outp c c') := by
  have hv' : ∀ v ∈ validList p vals, IsValue t v := fun v h => hv v (mem_of_mem_valuesAt h)
  have hs := (maxAcc_pure t).addAllTo (validList p vals) fun _ _ => trivial
  have ha := Accumulated.addAllTo hs
  rw [aggregateSeq1d_eq _ hp, pure_seq (maxAcc_pure t), resultOf, hs, Option.bind_some]
  by_cases hne : validList p vals = []
  · exact ⟨_, by rw [if_pos hne], by simp [hne], by simp [hne], fun _ => mark_spec _ _⟩
  · refine ⟨_, by rw [if_neg hne]; rfl, fun hn => ?_, fun _ hn => ?_, fun h => absurd h hne⟩
    · obtain ⟨m, h1, h2⟩ := C125_max t _ _ ha hv' hn
      exact ⟨m, h2, Option.some.inj h1, rfl⟩
    · obtain ⟨q, h1, h2, -⟩ := C125_max_none t _ _ ha hn
      exact ⟨q, h1, Option.some.inj h2, rfl⟩

example : aggregateSeq1d (maxAcc .single) (.detect (· = .fin 9)) [.fin 9, .nan, .fin (1/2), .negInf] (.markValue (.fin 9))
    ⟨.fin 0, false⟩ = some ⟨.fin (1/2), false⟩ := by decide +kernel

/-- C125: the minimum of an array. -/
theorem C125_min_array (t : FltTy) (p : InPolicy Flt) (vals : List Flt) (hp : PolicyFor p vals.length)
    (hv : ∀ v ∈ vals, IsValue t v) (outp : OutPolicy Flt) (c : Cell Flt) :
    ∃ c', aggregateSeq1d (minAcc t) p vals outp c = some c' ∧
      ((∃ v ∈ validList p vals, v ≠ .nan ∧ v ≠ .inf) → ∃ m, Smallest (validList p vals) m ∧ Assigned m c c') ∧
      (validList p vals ≠ [] → (∀ v ∈ validList p vals, v = .nan ∨ v = .inf) →
        ∃ q, LargestNumber t q ∧ Assigned (.fin q) c c') ∧
      (validList p vals = [] → Marked outp c c') := by
  have hv' : ∀ v ∈ validList p vals, IsValue t v := fun v h => hv v (mem_of_mem_valuesAt h)
  have hs := (minAcc_pure t).addAllTo (validList p vals) fun _ _ => trivial
  have ha := Accumulated.addAllTo hs
  rw [aggregateSeq1d_eq _ hp, pure_seq (minAcc_pure t), resultOf, hs, Option.bind_some]
  by_cases hne : validList p vals = []
  · exact ⟨_, by rw [if_pos hne], by simp [hne], by simp [hne], fun _ => mark_spec _ _⟩
  · refine ⟨_, by rw [if_neg hne]; rfl, fun hn => ?_, fun _ hn => ?_, fun h => absurd h hne⟩
    · obtain ⟨m, h1, h2⟩ := C125_min t _ _ ha hv' hn
      exact ⟨m, h2, Option.some.inj h1, rfl⟩
    · obtain ⟨q, h1, h2, -⟩ := C125_min_none t _ _ ha hn
      exact ⟨q, h1, Option.some.inj h2, rfl⟩

example : aggregateSeq1d (minAcc .single) (.detect (· = .fin 9)) [.fin 9, .nan, .fin (1/2), .inf] (.markValue (.fin 9))
    ⟨.fin 0, false⟩ = some ⟨.fin (1/2), false⟩ := by decide +kernel

/-- C125: a 2D array has the maximum and minimum of its elements, and the parallel operations give what the sequential ones give,
for every number of threads, whatever the values. -/
theorem C125_parallel (t : FltTy) (p : InPolicy Flt) (n1 n2 : Nat) (vals : List Flt)
    (hn : vals.length = n1 * n2) (hp : PolicyFor p vals.length) (nrThreads : Nat) (ht : 1 ≤ nrThreads) (outp : OutPolicy Flt)
    (c : Cell Flt) :
    (aggregateSeq2d (maxAcc t) p vals n1 n2 outp c = aggregateSeq1d (maxAcc t) p vals outp c ∧
      aggregatePar1d (maxAcc t) p vals nrThreads outp c = aggregateSeq1d (maxAcc t) p vals outp c ∧
      aggregatePar2d (maxAcc t) p vals nrThreads n1 n2 outp c = aggregateSeq1d (maxAcc t) p vals outp c) ∧
    (aggregateSeq2d (minAcc t) p vals n1 n2 outp c = aggregateSeq1d (minAcc t) p vals outp c ∧
      aggregatePar1d (minAcc t) p vals nrThreads outp c = aggregateSeq1d (minAcc t) p vals outp c ∧
      aggregatePar2d (minAcc t) p vals nrThreads n1 n2 outp c = aggregateSeq1d (minAcc t) p vals outp c) := by
  have h1 : aggregateSeq2d (maxAcc t) p vals n1 n2 outp c = aggregateSeq1d (maxAcc t) p vals outp c := by
    rw [aggregateSeq2d_eq _ hn ((maxAcc_pure t).firstInRange vals fun _ _ => trivial) hp, aggregateSeq1d_eq _ hp]
  have h2 : aggregateSeq2d (minAcc t) p vals n1 n2 outp c = aggregateSeq1d (minAcc t) p vals outp c := by
    rw [aggregateSeq2d_eq _ hn ((minAcc_pure t).firstInRange vals fun _ _ => trivial) hp, aggregateSeq1d_eq _ hp]
  exact ⟨⟨h1, C36_parallel_1d _ _ _ _ _ (maxAcc_pure t) p vals (fun _ _ => trivial) hp nrThreads ht outp c,
      (C36_parallel_2d _ _ _ _ _ (maxAcc_pure t) p n1 n2 vals hn (fun _ _ => trivial) hp nrThreads ht outp c).trans h1⟩,
    ⟨h2, C36_parallel_1d _ _ _ _ _ (minAcc_pure t) p vals (fun _ _ => trivial) hp nrThreads ht outp c,
      (C36_parallel_2d _ _ _ _ _ (minAcc_pure t) p n1 n2 vals hn (fun _ _ => trivial) hp nrThreads ht outp c).trans h2⟩⟩

example : aggregatePar2d (maxAcc .double) .skip [.nan, .fin 3, .fin 5, .negInf] 2 2 2 .dontMark ⟨.fin 0, false⟩ =
    some ⟨.fin 5, false⟩ := by decide +kernel

/-- C125: the maximum of an array of minus infinity isn't minus infinity, and the one of an array of NaN isn't NaN. -/
theorem C125_infinite_false :
    ∃ q, LargestNumber .single q ∧
      aggregateSeq1d (maxAcc .single) .skip [.negInf, .negInf] .dontMark ⟨.fin 0, false⟩ = some ⟨.fin (-q), false⟩ ∧
      aggregateSeq1d (maxAcc .single) .skip [.nan] .dontMark ⟨.fin 0, false⟩ = some ⟨.fin (-q), false⟩ ∧
      aggregateSeq1d (minAcc .single) .skip [.inf] .dontMark ⟨.fin 0, false⟩ = some ⟨.fin q, false⟩ :=
  ⟨_, largest_number .single, by decide +kernel, by decide +kernel, by decide +kernel⟩

/-! ### Range -/

/-- C125: the range of finite values is the rounded difference of the largest and the smallest one. It isn't negative, and zero
only if all values are equal. -/
theorem C125_range (t : FltTy) (vs : List Flt) (s : Flt × Flt) (h : Accumulated (rangeAcc t) vs s) (hne : vs ≠ [])
    (hv : FiniteValues t vs) :
    ∃ a b f, Smallest vs (.fin a) ∧ Largest vs (.fin b) ∧ (rangeAcc t).result s = some f ∧ Rounded t (b - a) f ∧ NotNegative f ∧
      (f = .fin 0 ↔ ∀ v ∈ vs, ∀ w ∈ vs, v = w) := by
  obtain ⟨v, vs', rfl⟩ := List.exists_cons_of_ne_nil hne
  set vs := v :: vs'
  have hiv : ∀ v ∈ vs, IsValue t v := fun v hm q e => by
    obtain ⟨q', e', hr⟩ := hv v hm
    rwa [Flt.fin.inj (e.symm.trans e')]
  have hw : ∃ v ∈ vs, v ≠ .nan ∧ v ≠ .inf ∧ v ≠ .negInf := by
    obtain ⟨q, e, -⟩ := hv v (List.mem_cons_self ..)
    exact ⟨v, List.mem_cons_self .., by simp [e], by simp [e], by simp [e]⟩
  obtain ⟨w, hwm, hw1, hw2, hw3⟩ := hw
  obtain ⟨h1, h2⟩ := rangeAcc_parts h
  obtain ⟨m, hm, hmin⟩ := C125_min t vs s.1 h1 hiv ⟨w, hwm, hw1, hw2⟩
  obtain ⟨n, hn, hmax⟩ := C125_max t vs s.2 h2 hiv ⟨w, hwm, hw1, hw3⟩
  obtain ⟨a, rfl, ha⟩ := hv m hmin.1
  obtain ⟨b, rfl, hb⟩ := hv n hmax.1
  have hab : a ≤ b := by simpa [Flt.le] using hmin.2.2 _ hmax.1 (by simp)
  refine ⟨a, b, t.round (b - a), hmin, hmax, ?_, round_rounded t _, FloatSpread.round_not_negative t (by linarith), ?_⟩
  · rw [rangeAcc_result, show s.1 = .fin a from Option.some.inj hm, show s.2 = .fin b from Option.some.inj hn, minus_fin]
  · have hz := sum_zero hb (represents_neg ha)
    rw [← sub_eq_add_neg] at hz
    rw [hz]
    constructor
    · intro e
      have key : ∀ v ∈ vs, v = .fin a := fun v hm => by
        obtain ⟨q, rfl, -⟩ := hv v hm
        have h3 : a ≤ q := by simpa [Flt.le] using hmin.2.2 _ hm (by simp)
        have h4 : q ≤ b := by simpa [Flt.le] using hmax.2.2 _ hm (by simp)
        rw [show q = a by linarith]
      exact fun v hm w hm' => (key v hm).trans (key w hm').symm
    · intro e
      have := Flt.fin.inj (e _ hmax.1 _ hmin.1)
      linarith

example : FiniteValues .single [.fin 3, .fin (-1/2)] ∧ resultOf (rangeAcc .single) [.fin 3, .fin (-1/2)] = some (.fin (7/2)) := by
  refine ⟨fun v hv => ?_, by decide +kernel⟩
  rcases List.mem_cons.1 hv with rfl | hv
  · exact ⟨3, rfl, by simpa using represents_small .single (i := 3) (by decide)⟩
  · rw [List.mem_singleton.1 hv]
    refine ⟨_, rfl, ?_⟩
    rw [represents_num, floatValue_iff]
    exact ⟨-1, -1, by decide, by decide, by decide, by norm_num⟩

/-- C125: the range of finite values may be infinite. -/
theorem C125_range_overflow (t : FltTy) : ∃ q, LargestNumber t q ∧ resultOf (rangeAcc t) [.fin q, .fin (-q)] = some .inf :=
  ⟨_, largest_number t, by cases t <;> decide +kernel⟩

/-- C125: if no value is finite or infinite then the range is minus infinity. -/
theorem C125_range_none (t : FltTy) (vs : List Flt) (s : Flt × Flt) (h : Accumulated (rangeAcc t) vs s) (hn : ∀ v ∈ vs, v = .nan) :
    (rangeAcc t).result s = some .negInf := by
  obtain ⟨h1, h2⟩ := rangeAcc_parts h
  have e1 := (minAcc_extreme h1).none min_order fun v hm h => absurd (hn v hm) h
  have e2 := (maxAcc_extreme h2).none max_order fun v hm h => absurd (hn v hm) h
  rw [rangeAcc_result, e1, e2]
  cases t <;> decide +kernel

example : resultOf (rangeAcc .double) [.nan, .nan] = some .negInf := by decide +kernel

/-- C125: the range of infinite values that are all the same is infinite. -/
theorem C125_range_infinite (t : FltTy) (vs : List Flt) (s : Flt × Flt) (h : Accumulated (rangeAcc t) vs s) (hne : vs ≠ [])
    (hv : (∀ v ∈ vs, v = .inf) ∨ ∀ v ∈ vs, v = .negInf) : (rangeAcc t).result s = some .inf := by
  obtain ⟨v, vs', rfl⟩ := List.exists_cons_of_ne_nil hne
  set vs := v :: vs'
  obtain ⟨h1, h2⟩ := rangeAcc_parts h
  have h1 := minAcc_extreme h1
  have h2 := maxAcc_extreme h2
  rcases hv with hv | hv
  · have e1 := h1.none min_order fun v hm h => by rw [hv v hm]; rfl
    have e2 : s.2 = .inf := hv _ (h2.one max_order (List.mem_cons_self ..) (by rw [hv v (List.mem_cons_self ..)]; simp)
      (by rw [hv v (List.mem_cons_self ..)]; rfl))
    rw [rangeAcc_result, e1, e2]; rfl
  · have e2 := h2.none max_order fun v hm h => by rw [hv v hm]; rfl
    have e1 : s.1 = .negInf := hv _ (h1.one min_order (List.mem_cons_self ..) (by rw [hv v (List.mem_cons_self ..)]; simp)
      (by rw [hv v (List.mem_cons_self ..)]; rfl))
    rw [rangeAcc_result, e1, e2]; rfl

example : resultOf (rangeAcc .double) [.inf] = some .inf := by decide +kernel

/-! ### Median -/

private theorem median_eq {t : FltTy} {vs l : List Flt} (hne : vs ≠ []) (hn : .nan ∉ vs) (hs : SortedValues vs l) :
    medianResult t vs = if l.length % 2 = 1 then l[l.length / 2]? else
      l[l.length / 2 - 1]?.bind fun x => l[l.length / 2]?.bind fun y => over t (plus t x y) (.fin 2) := by
  rw [medianResult, if_neg hne, sortValues_eq hn hs]
  rfl

/-- C125: there is no median of no values: asking for it fails an assertion. -/
theorem C125_median_none (t : FltTy) (s : List Flt) (h : Accumulated (medianAcc t) [] s) : (medianAcc t).result s = none := by
  rw [medianAcc_state h]
  rfl

example : Accumulated (medianAcc .double) [] [] := .init

/-- C125: the median of an odd number of values, none of which is NaN, is the middle one. -/
theorem C125_median_odd (t : FltTy) (vs l : List Flt) (s : List Flt) (h : Accumulated (medianAcc t) vs s) (hn : .nan ∉ vs)
    (hs : SortedValues vs l) (k : Nat) (hk : vs.length = 2 * k + 1) :
    ∃ m, l[k]? = some m ∧ (medianAcc t).result s = some m := by
  have hl : l.length = 2 * k + 1 := hs.1.length_eq.trans hk
  have hne : vs ≠ [] := by rintro rfl; simp at hk
  have h1 : l[k]? = some l[k] := List.getElem?_eq_getElem (by omega)
  refine ⟨_, h1, ?_⟩
  rw [medianAcc_state h]
  show medianResult t vs = _
  rw [median_eq hne hn hs, if_pos (by omega), show l.length / 2 = k by omega, h1]

/-- C125: the median of an even number of values, none of which is NaN. If the sum of the two middle values isn't too large then
it is between them, and near to half of the sum; otherwise it is infinite. -/
theorem C125_median_even (t : FltTy) (vs l : List Flt) (s : List Flt) (h : Accumulated (medianAcc t) vs s) (hn : .nan ∉ vs)
    (hs : SortedValues vs l) (k : Nat) (hk : vs.length = 2 * (k + 1)) (a b : Rat) (ha : l[k]? = some (.fin a))
    (hb : l[k + 1]? = some (.fin b)) (hra : Represents t.num a) (hrb : Represents t.num b) :
    (¬ TooLarge t (a + b) → ∃ r, (medianAcc t).result s = some (.fin r) ∧ a ≤ r ∧ r ≤ b ∧
      |(a + b) / 2 - r| ≤ unit t * |(a + b) / 2| + tiny t) ∧
    (TooLarge t (a + b) → (medianAcc t).result s = some (if 0 < a + b then .inf else .negInf)) := by
  have hl : l.length = 2 * (k + 1) := hs.1.length_eq.trans hk
  have hne : vs ≠ [] := by rintro rfl; simp at hk
  have hres : (medianAcc t).result s = over t (t.round (a + b)) (.fin 2) := by
    rw [medianAcc_state h]
    show medianResult t vs = _
    rw [median_eq hne hn hs, if_neg (by omega), show l.length / 2 = k + 1 by omega, show k + 1 - 1 = k by omega, ha, hb]
    rfl
  have hab : a ≤ b := by
    obtain ⟨h1, e1⟩ := List.getElem?_eq_some_iff.1 ha
    obtain ⟨h2, e2⟩ := List.getElem?_eq_some_iff.1 hb
    have := List.pairwise_iff_getElem.1 hs.2 k (k + 1) h1 h2 (by omega)
    rw [e1, e2] at this
    simpa [Flt.le] using this
  constructor
  · intro hsm
    obtain ⟨x, hx, hnx, -⟩ := (round_rounded t (a + b)).2 hsm
    have hxr := hnx.1
    -- Twice the values are before and after the rounded sum.
    have hlow : 2 * a ≤ x := by
      by_cases hta : TooLarge t (2 * a)
      · by_cases h0 : 0 ≤ a
        · exfalso
          apply hsm
          rw [TooLarge] at *
          rw [abs_of_nonneg (by linarith)] at *
          linarith
        · have h1 := (abs_le.1 (abs_le_largest hxr)).1
          have h2 := largest_lt_limit t
          rw [TooLarge, abs_of_nonpos (by linarith)] at hta
          linarith
      · have := round_mono t (show 2 * a ≤ a + b by linarith)
        rw [hx, round_exact t (represents_twice hra hta)] at this
        simpa [Flt.le] using this
    have hhigh : x ≤ 2 * b := by
      by_cases hta : TooLarge t (2 * b)
      · by_cases h0 : b ≤ 0
        · exfalso
          apply hsm
          rw [TooLarge] at *
          rw [abs_of_nonpos (by linarith)] at *
          linarith
        · have h1 := (abs_le.1 (abs_le_largest hxr)).2
          have h2 := largest_lt_limit t
          rw [TooLarge, abs_of_nonneg (by linarith)] at hta
          linarith
      · have := round_mono t (show a + b ≤ 2 * b by linarith)
        rw [hx, round_exact t (represents_twice hrb hta)] at this
        simpa [Flt.le] using this
    have h2 : ¬ TooLarge t (x / 2) := by
      rw [TooLarge, not_le, abs_div, abs_of_pos (by norm_num : (0 : Rat) < 2)]
      have h1 := abs_le_largest hxr
      have h2 := largest_lt_limit t
      have h3 := abs_nonneg x
      linarith
    obtain ⟨r, hr, hnr, -⟩ := (round_rounded t (x / 2)).2 h2
    refine ⟨r, by rw [hres, hx]; simp [over, hr], ?_, ?_, ?_⟩
    · have := round_mono t (show a ≤ x / 2 by linarith)
      rw [hr, round_exact t hra] at this
      simpa [Flt.le] using this
    · have := round_mono t (show x / 2 ≤ b by linarith)
      rw [hr, round_exact t hrb] at this
      simpa [Flt.le] using this
    · have h3 := half_near hxr hr
      have h4 := sum_error hra hrb hx
      rw [show (a + b) / 2 - r = (a + b - x) / 2 + (x / 2 - r) by ring]
      refine (abs_add_le _ _).trans (add_le_add ?_ h3)
      rw [abs_div, abs_div, abs_of_pos (by norm_num : (0 : Rat) < 2)]
      linarith
  · intro hla
    rw [hres, (round_rounded t (a + b)).1 hla]
    split <;> simp [over, infinite]

/-- C125: the median of values that are all NaN is NaN. If some are then the behaviour is undefined, or which value is the middle
one isn't specified. -/
theorem C125_median_nan (t : FltTy) (vs s : List Flt) (h : Accumulated (medianAcc t) vs s) (hn : .nan ∈ vs) :
    ((∀ v ∈ vs, v = .nan) → (medianAcc t).result s = some .nan) ∧
      ((∃ v ∈ vs, v ≠ .nan) → (medianAcc t).result s = none) := by
  rw [medianAcc_state h]
  have hne : vs ≠ [] := by rintro rfl; simp at hn
  show (_ → medianResult t vs = _) ∧ (_ → medianResult t vs = _)
  rw [medianResult, if_neg hne, sortValues, if_pos hn]
  constructor
  · intro ha
    rw [if_pos ha]
    have key : ∀ i, i < vs.length → vs[i]? = some .nan := fun i hi => by
      rw [List.getElem?_eq_getElem hi, ha _ (List.getElem_mem hi)]
    have hp : 0 < vs.length := List.length_pos_iff.2 hne
    simp only [Option.bind_eq_bind, Option.bind_some]
    rw [key _ (by omega), key _ (by omega)]
    split
    · rfl
    · rfl
  · rintro ⟨v, hv, h1⟩
    rw [if_neg fun ha => h1 (ha v hv)]
    rfl

/-- C125: the median of large finite values is infinite, and the one of opposite infinities is NaN. -/
theorem C125_median_overflow (t : FltTy) :
    ∃ q, LargestNumber t q ∧ medianResult t [.fin q, .fin q] = some .inf ∧ medianResult t [.inf, .negInf] = some .nan := by
  have h1 : SortedValues [.fin (largest t), .fin (largest t)] [.fin (largest t), .fin (largest t)] :=
    ⟨List.Perm.refl _, by simp [Flt.le]⟩
  have h2 : SortedValues [.inf, .negInf] [.negInf, .inf] := ⟨List.Perm.swap _ _ _, by simp [Flt.le]⟩
  refine ⟨_, largest_number t, ?_, ?_⟩
  · rw [median_eq (by simp) (by simp) h1]
    cases t <;> decide +kernel
  · rw [median_eq (by simp) (by simp) h2]
    cases t <;> decide +kernel

example : medianResult .single [.fin 3, .fin 1, .inf, .fin 2] = some (.fin (5/2)) := by
  rw [median_eq (l := [.fin 1, .fin 2, .fin 3, .inf]) (by simp) (by simp)
    ⟨by decide, by simp [Flt.le]; norm_num⟩]
  decide +kernel

example : medianResult .single [.fin 3, .negInf, .fin 2] = some (.fin 2) := by
  rw [median_eq (l := [.negInf, .fin 2, .fin 3]) (by simp) (by simp) ⟨by decide, by simp [Flt.le]; norm_num⟩]
  decide +kernel

end Fern.FloatOrder
