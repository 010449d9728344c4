import Verif.Lemmas.FloatSum
import Verif.Props.FloatArith

/-!
# C96: sums and means of floating point numbers
-/

namespace Fern.FloatArith

open Fern Fern.Domains Fern.Spec Fern.Casts Fern.Casts.Spec Fern.FloatArith.Spec

/-! ### Any way of adding -/

section

variable {S : Type} {A : Accumulator S Flt Flt} {q : SumPolicy} {t : FltTy} {Rel : S → Flt → Nat → Prop}
  {Inv : List Flt → Rat → Prop} {Ok : List Flt → Prop}

/-- What the result of an accumulator must do with the sum. -/
structure Results (A : Accumulator S Flt Flt) (Rel : S → Flt → Nat → Prop) (Inv : List Flt → Rat → Prop) (vs : List Flt)
    (P : Rat → Prop) : Prop where
  finite : ∀ s r, Rel s (.fin r) vs.length → Inv vs r → ∃ m, A.result s = some (.fin m) ∧ P m
  other : ∀ s x, Rel s x vs.length → x.isFinite = false → ∃ f, A.result s = some f ∧ (f = .inf ∨ f = .negInf ∨ f = .nan)

theorem FinalGood.store {vs : List Flt} {b : Aggregated S} (h : FinalGood q Rel Inv Ok vs b) {P : Rat → Prop}
    (hr : vs ≠ [] → Results A Rel Inv vs P) (outp : OutPolicy Flt) (c : Cell Flt) :
    ∃ c', storeAggregate A outp b c = some c' ∧ Stored q vs outp c c' P (¬ Ok vs) := by
  by_cases hv : vs = []
  · refine ⟨outp.mark c, by rw [storeAggregate, h.1 hv]; rfl, fun _ => mark_spec _ _, fun e => absurd hv e⟩
  · rcases h.2 hv with ⟨h1, x, h2, h3⟩ | ⟨h1, h2, h3⟩
    · rw [storeAggregate, h1, if_pos rfl]
      cases hx : x.isFinite with
      | true =>
        cases x with
        | fin r =>
          obtain ⟨m, e1, e2⟩ := (hr hv).finite _ r h2 (h3.1 r rfl)
          exact ⟨⟨.fin m, c.masked⟩, by rw [e1]; rfl, fun e => absurd e hv, fun _ => Or.inl ⟨m, ⟨rfl, rfl⟩, e2⟩⟩
        | _ => cases hx
      | false =>
        obtain ⟨f, e1, e2⟩ := (hr hv).other _ x h2 hx
        refine ⟨⟨f, c.masked⟩, by rw [e1]; rfl, fun e => absurd e hv, fun _ => Or.inr ⟨fun ho => ?_, ?_⟩⟩
        · rw [h3.2.1 ho] at hx; cases hx
        · cases q with
          | detect => rw [h3.2.2 rfl] at hx; cases hx
          | discard => exact ⟨f, e2, rfl, rfl⟩
    · refine ⟨outp.mark c, by rw [storeAggregate, h1]; rfl, fun e => absurd e hv, fun _ => Or.inr ⟨h3, ?_⟩⟩
      subst h2
      exact mark_spec _ _

/-- What is stored does not depend on the way the values are added, as far as the invariant tells. -/
theorem stored_sequential (hA : Sums A q t Rel) (hI : SumInv t Inv Ok) {vs : List Flt} (hv : FiniteValues t vs)
    {P : Rat → Prop} (hr : vs ≠ [] → Results A Rel Inv vs P) (outp : OutPolicy Flt) (c : Cell Flt) :
    ∃ c', ((aggregated A vs).bind fun a => storeAggregate A outp a c) = some c' ∧ Stored q vs outp c c' P (¬ Ok vs) := by
  obtain ⟨b, e1, e2⟩ := aggregated_sums hA hI vs hv
  rw [e1, Option.bind_some]
  exact e2.final.store hr outp c

theorem stored_parallel (hA : Sums A q t Rel) (hI : SumInv t Inv Ok) {vss : List (List Flt)} {vs : List Flt}
    (hf : vss.flatten = vs) (hv : FiniteValues t vs)
    {P : Rat → Prop} (hr : vs ≠ [] → Results A Rel Inv vs P) (outp : OutPolicy Flt) (c : Cell Flt) :
    ∃ c', ((vss.mapM (aggregated A)).bind fun bs =>
        (mergeBlocks A bs ⟨false, false, A.init⟩).bind fun a => storeAggregate A outp a c) = some c' ∧
      Stored q vs outp c c' P (¬ Ok vs) := by
  subst hf
  obtain ⟨b, e1, e2⟩ := parallel_sums hA hI vss hv
  rw [← Option.bind_assoc, e1, Option.bind_some]
  exact e2.store hr outp c

end

theorem sum_results (q : SumPolicy) (t : FltTy) (Inv : List Flt → Rat → Prop) (vs : List Flt) :
    Results (sumFlt q t) (fun s x _ => s = x) Inv vs (Inv vs) where
  finite := by
    rintro s r rfl h
    exact ⟨r, rfl, h⟩
  other := by
    rintro s x rfl h
    refine ⟨s, rfl, ?_⟩
    cases s <;> simp_all [Flt.isFinite]

theorem not_bounded (t : FltTy) (vs : List Flt) :
    (¬ Bounded t vs) = (limit t ≤ (1 + unit t) ^ (vs.length - 1) * magnitude vs) := by
  rw [Bounded, not_lt]

theorem mean_results (q : SumPolicy) (t : FltTy) (vs : List Flt) (hn : (vs.length : Int) ≤ small t) (he : vs ≠ []) :
    Results (meanFlt q t) (fun s x n => s = (x, n)) (Near t) vs (fun r => Represents t.num r ∧
      |r - total vs / vs.length| ≤ ((1 + unit t) ^ vs.length - 1) * (magnitude vs / vs.length) + tiny t) := by
  have hpos : 0 < vs.length := List.length_pos_iff.2 he
  have hq : (0 : Rat) < vs.length := by exact_mod_cast hpos
  have h1 : (1 : Rat) ≤ vs.length := by exact_mod_cast hpos
  have hc : t.round (vs.length : Rat) = .fin vs.length := by
    refine round_exact t ?_
    have := represents_small t (i := (vs.length : Int)) (by rw [abs_of_nonneg (by positivity)]; exact hn)
    simpa using this
  refine ⟨?_, ?_⟩
  · rintro s r rfl h
    have hl : ¬ TooLarge t (r / vs.length) := by
      have := not_large_of_represents h.1
      rw [TooLarge, not_le] at this ⊢
      refine lt_of_le_of_lt ?_ this
      rw [abs_div, abs_of_pos hq]
      exact div_le_self (abs_nonneg r) h1
    obtain ⟨m, hm⟩ : ∃ m, t.round (r / vs.length) = .fin m := by
      have := (round_finite t (r / vs.length)).2 hl
      cases hr : t.round (r / vs.length) with
      | fin m => exact ⟨m, rfl⟩
      | _ => rw [hr] at this; cases this
    refine ⟨m, ?_, (represents_num t m).2 (C91_round_nearest t.bits_pos t.lo_le_hi _ _ hm).1, ?_⟩
    · show (if 0 < vs.length then over t (.fin r) (t.round vs.length) else none) = _
      rw [if_pos hpos, hc]
      show (if (vs.length : Rat) = 0 then none else some (t.round (r / vs.length))) = _
      rw [if_neg hq.ne', hm]
    · have e := round_error hm
      have e : |r / vs.length - m| ≤ unit t * |r / vs.length| + tiny t :=
        e.trans (max_le (by have := tiny_pos t; linarith)
          (by have := mul_nonneg (unit_pos t).le (abs_nonneg (r / (vs.length : Rat))); linarith))
      have hle := h.le
      have hnear := h.2
      rw [sumError] at hnear
      have s1 : |m - total vs / vs.length| ≤ |r / vs.length - m| + |r - total vs| / vs.length := by
        have : m - total vs / vs.length = -(r / vs.length - m) + (r - total vs) / vs.length := by ring
        rw [this]
        refine (abs_add_le _ _).trans (le_of_eq ?_)
        rw [abs_neg, abs_div, abs_of_pos hq]
      have s2 : |r / vs.length| ≤ (1 + unit t) ^ (vs.length - 1) * (magnitude vs / vs.length) := by
        rw [abs_div, abs_of_pos hq, ← mul_div_assoc]
        exact div_le_div_of_nonneg_right hle hq.le
      have s3 : |r - total vs| / vs.length ≤ ((1 + unit t) ^ (vs.length - 1) - 1) * (magnitude vs / vs.length) := by
        rw [← mul_div_assoc]
        exact div_le_div_of_nonneg_right hnear hq.le
      have s4 := mul_le_mul_of_nonneg_left s2 (unit_pos t).le
      have hpow : (1 + unit t) ^ vs.length = (1 + unit t) ^ (vs.length - 1) * (1 + unit t) := by
        rw [← pow_succ]; congr 1; omega
      rw [hpow]
      linarith
  · rintro s x rfl h
    cases x with
    | fin r => cases h
    | nan => exact ⟨.nan, by simp [meanFlt, hpos, hc, over], by simp⟩
    | inf =>
      refine ⟨infinite vs.length, by simp [meanFlt, hpos, hc, over, he], ?_⟩
      unfold infinite
      split <;> simp
    | negInf =>
      refine ⟨infinite (-vs.length), by simp [meanFlt, hpos, hc, over, he], ?_⟩
      unfold infinite
      split
      · exact Or.inl rfl
      · split
        · exact Or.inr (Or.inl rfl)
        · exact Or.inr (Or.inr rfl)

/-! ### Sums -/

/-- The sum of a one-dimensional array. -/
theorem C96_sum_1d (q : SumPolicy) (t : FltTy) (p : InPolicy Flt) (vals : List Flt) (hp : PolicyFor p vals.length)
    (hv : FiniteValues t (validList p vals)) (outp : OutPolicy Flt) (c : Cell Flt) :
    ∃ c', aggregateSeq1d (sumFlt q t) p vals outp c = some c' ∧ SumStored q t (validList p vals) outp c c' := by
  rw [aggregateSeq1d_eq _ hp]
  have := stored_sequential (sumFlt_sums q t) (near_inv t) hv (fun _ => sum_results q t (Near t) _) outp c
  rwa [not_bounded] at this

/-- The sum of a raster. -/
theorem C96_sum_2d (q : SumPolicy) (t : FltTy) (p : InPolicy Flt) (n1 n2 : Nat) (vals : List Flt)
    (hn : vals.length = n1 * n2) (hp : PolicyFor p vals.length)
    (hv : FiniteValues t (validList p vals)) (outp : OutPolicy Flt) (c : Cell Flt) :
    ∃ c', aggregateSeq2d (sumFlt q t) p vals n1 n2 outp c = some c' ∧ SumStored q t (validList p vals) outp c c' := by
  rw [aggregateSeq2d_valid _ hn (sums_firstInRange (sumFlt_sums q t) _ hv) hp]
  have := stored_sequential (sumFlt_sums q t) (near_inv t) hv (fun _ => sum_results q t (Near t) _) outp c
  rwa [not_bounded] at this

/-- Adding in parallel obeys the same bound, whatever the number of threads. -/
theorem C96_sum_parallel_1d (q : SumPolicy) (t : FltTy) (p : InPolicy Flt) (vals : List Flt) (hp : PolicyFor p vals.length)
    (hv : FiniteValues t (validList p vals)) (threads : Nat) (ht : 1 ≤ threads) (outp : OutPolicy Flt) (c : Cell Flt) :
    ∃ c', aggregatePar1d (sumFlt q t) p vals threads outp c = some c' ∧ SumStored q t (validList p vals) outp c c' := by
  obtain ⟨vss, hf, h⟩ := aggregatePar1d_eq (sumFlt q t) hp ht
  rw [h]
  have := stored_parallel (sumFlt_sums q t) (near_inv t) hf hv (fun _ => sum_results q t (Near t) _) outp c
  rwa [not_bounded] at this

theorem C96_sum_parallel_2d (q : SumPolicy) (t : FltTy) (p : InPolicy Flt) (n1 n2 : Nat) (vals : List Flt)
    (hn : vals.length = n1 * n2) (hp : PolicyFor p vals.length)
    (hv : FiniteValues t (validList p vals)) (threads : Nat) (ht : 1 ≤ threads) (outp : OutPolicy Flt) (c : Cell Flt) :
    ∃ c', aggregatePar2d (sumFlt q t) p vals threads n1 n2 outp c = some c' ∧
      SumStored q t (validList p vals) outp c c' := by
  obtain ⟨vss, hf, h⟩ := aggregatePar2d_valid (sumFlt q t) hn (sums_firstInRange (sumFlt_sums q t) _ hv) hp ht
  rw [h]
  have := stored_parallel (sumFlt_sums q t) (near_inv t) hf hv (fun _ => sum_results q t (Near t) _) outp c
  rwa [not_bounded] at this

example : aggregateSeq1d (sumFlt .detect .single) (.detect (· == .fin (-9999)))
      [.fin 16777216, .fin (-9999), .fin 1, .fin (1 / 2)] (.markValue (.fin (-9999))) ⟨.fin 7, false⟩ =
    some ⟨.fin 16777216, false⟩ := by decide +kernel

example : FiniteValues .single (validList (.detect (· == .fin (-9999)))
    [.fin 16777216, .fin (-9999), .fin 1, .fin (1 / 2)]) := by
  have : validList (V := Flt) (.detect (· == .fin (-9999))) [.fin 16777216, .fin (-9999), .fin 1, .fin (1 / 2)] =
      [.fin 16777216, .fin 1, .fin (1 / 2)] := by decide +kernel
  rw [this]
  intro v hv
  simp only [List.mem_cons, List.not_mem_nil, or_false] at hv
  rcases hv with rfl | rfl | rfl
  · exact ⟨_, rfl, by simpa using represents_small .single (i := 16777216) (by decide)⟩
  · exact ⟨_, rfl, by simpa using represents_small .single (i := 1) (by decide)⟩
  · refine ⟨_, rfl, ?_⟩
    rw [represents_num, floatValue_iff]
    exact ⟨1, -1, by decide, by decide, by decide, by norm_num⟩

/-- Two sums of the same values, however added, are near each other. -/
theorem C96_near (q : SumPolicy) (t : FltTy) (vs : List Flt) (outp : OutPolicy Flt) (c c1 c2 : Cell Flt) (x y : Rat)
    (h : (1 + unit t) ^ (vs.length - 1) * magnitude vs < limit t) (hv : vs ≠ [])
    (h1 : SumStored q t vs outp c c1) (h2 : SumStored q t vs outp c c2) (hx : c1.val = .fin x) (hy : c2.val = .fin y) :
    |x - y| ≤ 2 * sumError t vs.length (magnitude vs) := by
  rcases h1.2 hv with ⟨r, ⟨a1, -⟩, -, a2⟩ | ⟨a1, -⟩
  · rcases h2.2 hv with ⟨s, ⟨b1, -⟩, -, b2⟩ | ⟨b1, -⟩
    · rw [hx] at a1
      rw [hy] at b1
      cases a1
      cases b1
      have : x - y = (x - total vs) - (y - total vs) := by ring
      rw [this]
      exact (abs_sub _ _).trans (by linarith)
    · exact absurd h (not_lt.2 b1)
  · exact absurd h (not_lt.2 a1)

/-! ### Sequential sums -/

theorem runs_addAll (t : FltTy) (vs : List Flt) (hv : FiniteValues t vs) (x : Rat) :
    (∃ r, addAll (sumFlt .detect t) vs (.fin x) = some (true, .fin r) ∧ RunsTo t x vs r) ∨
    (∃ s, addAll (sumFlt .detect t) vs (.fin x) = some (false, s) ∧ ∀ r, ¬ RunsTo t x vs r) := by
  induction vs generalizing x with
  | nil => exact Or.inl ⟨x, rfl, .nil x⟩
  | cons v vs ih =>
    obtain ⟨u, rfl, hu⟩ := hv v (by simp)
    obtain ⟨s', e1, rfl⟩ := (sumFlt_sums .detect t).add (.fin x) (.fin x) 0 (.fin u) rfl
    rw [addAll, e1, Option.bind_some]
    cases hp : t.round (x + u) with
    | fin y =>
      have hr : plus t (.fin x) (.fin u) = .fin y := hp
      have hR : Rounded t (x + u) (.fin y) := hp ▸ round_rounded t (x + u)
      rw [hr]
      rcases ih (fun w hw => hv w (by simp [hw])) y with ⟨r, h1, h2⟩ | ⟨s, h1, h2⟩
      · exact Or.inl ⟨r, by simpa [inRange, Flt.isFinite] using h1, .cons _ _ _ _ _ hR h2⟩
      · refine Or.inr ⟨s, by simpa [inRange, Flt.isFinite] using h1, fun r h => ?_⟩
        cases h with
        | cons _ _ y' _ _ h3 h4 =>
          have := C95_determined t _ _ _ hR h3
          cases this
          exact h2 r h4
    | _ =>
      refine Or.inr ⟨plus t (.fin x) (.fin u), ?_, fun r h => ?_⟩
      · have hr : plus t (.fin x) (.fin u) = t.round (x + u) := rfl
        rw [hr, hp]
        rfl
      · cases h with
        | cons _ _ y' _ _ h3 h4 =>
          have := C95_determined t _ _ _ (round_rounded t (x + u)) h3
          rw [hp] at this
          cases this

theorem sequential_stored (t : FltTy) (vs : List Flt) (hv : FiniteValues t vs) (outp : OutPolicy Flt) (c : Cell Flt) :
    ∃ c', (aggregated (sumFlt .detect t) vs).bind (fun a => storeAggregate (sumFlt .detect t) outp a c) = some c' ∧
      (∀ r, vs ≠ [] → RunsTo t 0 vs r → Assigned (.fin r) c c') ∧
      (vs = [] ∨ (∀ r, ¬ RunsTo t 0 vs r) → Marked outp c c') := by
  cases vs with
  | nil => exact ⟨outp.mark c, rfl, fun r h => absurd rfl h, fun _ => mark_spec _ _⟩
  | cons v vs =>
    have huniq : ∀ (vs : List Flt) (x r s : Rat), RunsTo t x vs r → RunsTo t x vs s → r = s := by
      intro vs x r s h
      induction h with
      | nil x => intro h'; cases h'; rfl
      | cons x q y r vs h1 h2 ih =>
        intro h'
        cases h' with
        | cons _ _ y' _ _ h3 h4 =>
          have := C95_determined t _ _ _ h1 h3
          cases this
          exact ih h4
    rcases runs_addAll t (v :: vs) hv 0 with ⟨r, h1, h2⟩ | ⟨s, h1, h2⟩
    · refine ⟨⟨.fin r, c.masked⟩, ?_, fun r' _ h => ?_, ?_⟩
      · have : aggregated (sumFlt .detect t) (v :: vs) = some ⟨true, true, .fin r⟩ := by
          rw [aggregated, show (sumFlt .detect t).init = .fin 0 from rfl, h1]; rfl
        rw [this]; rfl
      · rw [huniq _ _ _ _ h h2]; exact ⟨rfl, rfl⟩
      · rintro (h | h)
        · cases h
        · exact absurd h2 (h r)
    · refine ⟨outp.mark c, ?_, fun r _ h => absurd h (h2 r), fun _ => mark_spec _ _⟩
      have : aggregated (sumFlt .detect t) (v :: vs) = some ⟨true, false, s⟩ := by
        rw [aggregated, show (sumFlt .detect t).init = .fin 0 from rfl, h1]; rfl
      rw [this]; rfl

/-- Without threads the values are added from the first to the last, rounding each time, and the result is marked if and
only if one of these sums is too large. -/
theorem C96_sequential (t : FltTy) (p : InPolicy Flt) (vals : List Flt) (hp : PolicyFor p vals.length)
    (hv : FiniteValues t (validList p vals)) (outp : OutPolicy Flt) (c : Cell Flt) :
    ∃ c', aggregateSeq1d (sumFlt .detect t) p vals outp c = some c' ∧
      (∀ r, validList p vals ≠ [] → RunsTo t 0 (validList p vals) r → Assigned (.fin r) c c') ∧
      (validList p vals = [] ∨ (∀ r, ¬ RunsTo t 0 (validList p vals) r) → Marked outp c c') := by
  rw [aggregateSeq1d_eq _ hp]
  exact sequential_stored t _ hv outp c

theorem C96_sequential_2d (t : FltTy) (p : InPolicy Flt) (n1 n2 : Nat) (vals : List Flt) (hn : vals.length = n1 * n2)
    (hp : PolicyFor p vals.length) (hv : FiniteValues t (validList p vals)) (outp : OutPolicy Flt) (c : Cell Flt) :
    ∃ c', aggregateSeq2d (sumFlt .detect t) p vals n1 n2 outp c = some c' ∧
      (∀ r, validList p vals ≠ [] → RunsTo t 0 (validList p vals) r → Assigned (.fin r) c c') ∧
      (validList p vals = [] ∨ (∀ r, ¬ RunsTo t 0 (validList p vals) r) → Marked outp c c') := by
  rw [aggregateSeq2d_valid _ hn (sums_firstInRange (sumFlt_sums .detect t) _ hv) hp]
  exact sequential_stored t _ hv outp c

/-- Whether the sum is accepted depends on the order of the values. -/
theorem C96_order_false : let m : Rat := (2 ^ 24 - 1) * 2 ^ 104
    aggregateSeq1d (sumFlt .detect .single) .skip [.fin m, .fin m, .fin (-m)] .markMask ⟨.fin 0, false⟩ =
      some ⟨.fin 0, true⟩ ∧
    aggregateSeq1d (sumFlt .detect .single) .skip [.fin m, .fin (-m), .fin m] .markMask ⟨.fin 0, false⟩ =
      some ⟨.fin m, false⟩ := by decide +kernel

/-- Sums depend on the number of threads. -/
theorem C96_threads_false :
    aggregatePar1d (sumFlt .detect .single) .skip [.fin (2 ^ 24), .fin 0, .fin 1, .fin 1] 1 .markMask ⟨.fin 0, false⟩ =
      some ⟨.fin (2 ^ 24), false⟩ ∧
    aggregatePar1d (sumFlt .detect .single) .skip [.fin (2 ^ 24), .fin 0, .fin 1, .fin 1] 2 .markMask ⟨.fin 0, false⟩ =
      some ⟨.fin (2 ^ 24 + 2), false⟩ := by decide +kernel

/-! ### Exact sums -/

theorem stored_exact {q : SumPolicy} {t : FltTy} {e : Int} {vs : List Flt} (hm : ∀ v ∈ vs, ∃ k : Int, v = .fin (k * 2 ^ e))
    (hs : magnitude vs ≤ 2 ^ t.bits * 2 ^ e) (hn : vs ≠ []) {outp : OutPolicy Flt} {c c' : Cell Flt}
    (h : Stored q vs outp c c' (Exact t e vs) (¬ (Multiples e vs ∧ magnitude vs ≤ 2 ^ t.bits * 2 ^ e))) :
    Assigned (.fin (total vs)) c c' := by
  rcases h.2 hn with ⟨r, h1, -, h2⟩ | ⟨h1, -⟩
  · rw [← h2 hm hs]; exact h1
  · exact absurd ⟨hm, hs⟩ h1

/-- Sums are exact, and do not depend on the number of threads, if the values are multiples of the same power of two and
their magnitudes sum up to at most `2 ^ 24` (or `2 ^ 53`) times this power. -/
theorem C96_exact_1d (q : SumPolicy) (t : FltTy) (e : Int) (he1 : t.lo ≤ e) (he2 : e < t.hi) (p : InPolicy Flt)
    (vals : List Flt) (hp : PolicyFor p vals.length)
    (hv : FiniteValues t (validList p vals)) (hm : ∀ v ∈ validList p vals, ∃ k : Int, v = .fin (k * 2 ^ e))
    (hs : magnitude (validList p vals) ≤ small t * 2 ^ e) (hn : validList p vals ≠ []) (outp : OutPolicy Flt) (c : Cell Flt) :
    (∃ c', aggregateSeq1d (sumFlt q t) p vals outp c = some c' ∧ Assigned (.fin (total (validList p vals))) c c') ∧
    ∀ threads, 1 ≤ threads →
      ∃ c', aggregatePar1d (sumFlt q t) p vals threads outp c = some c' ∧
        Assigned (.fin (total (validList p vals))) c c' := by
  have hs : magnitude (validList p vals) ≤ 2 ^ t.bits * 2 ^ e := by cases t <;> exact_mod_cast hs
  refine ⟨?_, fun threads ht => ?_⟩
  · rw [aggregateSeq1d_eq _ hp]
    obtain ⟨c', h1, h2⟩ := stored_sequential (sumFlt_sums q t) (exact_inv t e he1 he2) hv
      (fun _ => sum_results q t (Exact t e) _) outp c
    exact ⟨c', h1, stored_exact hm hs hn h2⟩
  · obtain ⟨vss, hf, h⟩ := aggregatePar1d_eq (sumFlt q t) hp ht
    rw [h]
    obtain ⟨c', h1, h2⟩ := stored_parallel (sumFlt_sums q t) (exact_inv t e he1 he2) hf hv
      (fun _ => sum_results q t (Exact t e) _) outp c
    exact ⟨c', h1, stored_exact hm hs hn h2⟩

theorem C96_exact_2d (q : SumPolicy) (t : FltTy) (e : Int) (he1 : t.lo ≤ e) (he2 : e < t.hi) (p : InPolicy Flt)
    (n1 n2 : Nat) (vals : List Flt) (hl : vals.length = n1 * n2) (hp : PolicyFor p vals.length)
    (hv : FiniteValues t (validList p vals)) (hm : ∀ v ∈ validList p vals, ∃ k : Int, v = .fin (k * 2 ^ e))
    (hs : magnitude (validList p vals) ≤ small t * 2 ^ e) (hn : validList p vals ≠ []) (outp : OutPolicy Flt) (c : Cell Flt) :
    (∃ c', aggregateSeq2d (sumFlt q t) p vals n1 n2 outp c = some c' ∧ Assigned (.fin (total (validList p vals))) c c') ∧
    ∀ threads, 1 ≤ threads →
      ∃ c', aggregatePar2d (sumFlt q t) p vals threads n1 n2 outp c = some c' ∧
        Assigned (.fin (total (validList p vals))) c c' := by
  have hs : magnitude (validList p vals) ≤ 2 ^ t.bits * 2 ^ e := by cases t <;> exact_mod_cast hs
  have hfr := sums_firstInRange (sumFlt_sums q t) _ hv
  refine ⟨?_, fun threads ht => ?_⟩
  · rw [aggregateSeq2d_valid _ hl hfr hp]
    obtain ⟨c', h1, h2⟩ := stored_sequential (sumFlt_sums q t) (exact_inv t e he1 he2) hv
      (fun _ => sum_results q t (Exact t e) _) outp c
    exact ⟨c', h1, stored_exact hm hs hn h2⟩
  · obtain ⟨vss, hf, h⟩ := aggregatePar2d_valid (sumFlt q t) hl hfr hp ht
    rw [h]
    obtain ⟨c', h1, h2⟩ := stored_parallel (sumFlt_sums q t) (exact_inv t e he1 he2) hf hv
      (fun _ => sum_results q t (Exact t e) _) outp c
    exact ⟨c', h1, stored_exact hm hs hn h2⟩

example : aggregateSeq2d (sumFlt .detect .single) (.byMask [0, 1, 0, 0] 1) [.fin 3, .nan, .fin (-5), .fin 16777208] 2 2 .markMask
      ⟨.fin 0, false⟩ = some ⟨.fin 16777206, false⟩ ∧
    aggregatePar2d (sumFlt .detect .single) (.byMask [0, 1, 0, 0] 1) [.fin 3, .nan, .fin (-5), .fin 16777208] 3 2 2 .markMask
      ⟨.fin 0, false⟩ = some ⟨.fin 16777206, false⟩ ∧
    magnitude [.fin 3, .fin (-5), .fin 16777208] ≤ small .single * 2 ^ (0 : Int) := by
  refine ⟨by decide +kernel, by decide +kernel, ?_⟩
  simp [magnitude, number, small]
  norm_num

/-! ### Means -/

theorem C96_mean_1d (q : SumPolicy) (t : FltTy) (p : InPolicy Flt) (vals : List Flt) (hp : PolicyFor p vals.length)
    (hv : FiniteValues t (validList p vals)) (hs : ((validList p vals).length : Int) ≤ small t)
    (outp : OutPolicy Flt) (c : Cell Flt) :
    ∃ c', aggregateSeq1d (meanFlt q t) p vals outp c = some c' ∧ MeanStored q t (validList p vals) outp c c' := by
  rw [aggregateSeq1d_eq _ hp]
  have := stored_sequential (meanFlt_sums q t) (near_inv t) hv (mean_results q t _ hs) outp c
  rwa [not_bounded] at this

theorem C96_mean_2d (q : SumPolicy) (t : FltTy) (p : InPolicy Flt) (n1 n2 : Nat) (vals : List Flt)
    (hn : vals.length = n1 * n2) (hp : PolicyFor p vals.length)
    (hv : FiniteValues t (validList p vals)) (hs : ((validList p vals).length : Int) ≤ small t)
    (outp : OutPolicy Flt) (c : Cell Flt) :
    ∃ c', aggregateSeq2d (meanFlt q t) p vals n1 n2 outp c = some c' ∧ MeanStored q t (validList p vals) outp c c' := by
  rw [aggregateSeq2d_valid _ hn (sums_firstInRange (meanFlt_sums q t) _ hv) hp]
  have := stored_sequential (meanFlt_sums q t) (near_inv t) hv (mean_results q t _ hs) outp c
  rwa [not_bounded] at this

theorem C96_mean_parallel_1d (q : SumPolicy) (t : FltTy) (p : InPolicy Flt) (vals : List Flt)
    (hp : PolicyFor p vals.length)
    (hv : FiniteValues t (validList p vals)) (hs : ((validList p vals).length : Int) ≤ small t)
    (threads : Nat) (ht : 1 ≤ threads) (outp : OutPolicy Flt) (c : Cell Flt) :
    ∃ c', aggregatePar1d (meanFlt q t) p vals threads outp c = some c' ∧ MeanStored q t (validList p vals) outp c c' := by
  obtain ⟨vss, hf, h⟩ := aggregatePar1d_eq (meanFlt q t) hp ht
  rw [h]
  have := stored_parallel (meanFlt_sums q t) (near_inv t) hf hv (mean_results q t _ hs) outp c
  rwa [not_bounded] at this

theorem C96_mean_parallel_2d (q : SumPolicy) (t : FltTy) (p : InPolicy Flt) (n1 n2 : Nat) (vals : List Flt)
    (hn : vals.length = n1 * n2) (hp : PolicyFor p vals.length)
    (hv : FiniteValues t (validList p vals)) (hs : ((validList p vals).length : Int) ≤ small t)
    (threads : Nat) (ht : 1 ≤ threads) (outp : OutPolicy Flt) (c : Cell Flt) :
    ∃ c', aggregatePar2d (meanFlt q t) p vals threads n1 n2 outp c = some c' ∧
      MeanStored q t (validList p vals) outp c c' := by
  obtain ⟨vss, hf, h⟩ := aggregatePar2d_valid (meanFlt q t) hn (sums_firstInRange (meanFlt_sums q t) _ hv) hp ht
  rw [h]
  have := stored_parallel (meanFlt_sums q t) (near_inv t) hf hv (mean_results q t _ hs) outp c
  rwa [not_bounded] at this

example : aggregateSeq1d (meanFlt .detect .single) (.detect (· == .fin (-9999)))
      [.fin 1, .fin (-9999), .fin 2, .fin 2] (.markValue (.fin (-9999))) ⟨.fin 7, false⟩ =
    some ⟨.fin (13981013 / 8388608), false⟩ := by decide +kernel

end Fern.FloatArith
