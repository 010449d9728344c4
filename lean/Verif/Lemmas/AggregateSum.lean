import Verif.Lemmas.Aggregate
import Verif.Lemmas.Arith
import Mathlib.Algebra.BigOperators.Group.List.Basic
import Mathlib.Algebra.Order.BigOperators.Group.List
/-
Sequential and parallel aggregates in terms of the valid values, and the sum accumulator.
-/
namespace Fern

open Spec IntTy

section

variable {S V R : Type}

/-- The 1D operation on the whole array. -/
theorem aggregateSeq1d_eq (A : Accumulator S V R) {p : InPolicy V} {vals : List V}
    (hp : PolicyFor p vals.length) (outp : OutPolicy R) (c : Cell R) :
    aggregateSeq1d A p vals outp c =
      (aggregated A (validList p vals)).bind (fun a => storeAggregate A outp a c) := by
  simp only [aggregateSeq1d, aggregate1d_eq A hp ⟨0, vals.length⟩ le_rfl, Option.bind_eq_bind]
  simp [IndexRange.indices, validList, List.range_eq_range']

theorem inBounds_rows {vals : List V} {n1 n2 : Nat} (hv : vals.length = n1 * n2) (r : IndexRange)
    (hr : r.e ≤ n1) : InBounds vals n2 ⟨0, n2⟩ (r.e - r.b) r.b := by
  intro a ha j hj
  simp only [linearIndex, hv] at *
  have : (r.b + a + 1) * n2 ≤ n1 * n2 := Nat.mul_le_mul_right _ (by omega)
  rw [Nat.add_mul, Nat.one_mul] at this
  omega

theorem FirstInRange.sub {A : Accumulator S V R} {vs vs' : List V} (h : FirstInRange A vs)
    (hs : ∀ v ∈ vs', v ∈ vs) : FirstInRange A vs' := fun v hv => h v (hs v hv)

theorem mem_valuesAt {p : InPolicy V} {vals : List V} {l : List Nat} {v : V} :
    v ∈ valuesAt p vals l ↔ ∃ i ∈ l, ¬ NoDataAt p vals i ∧ vals[i]? = some v := by
  simp only [valuesAt, List.mem_filterMap]
  constructor
  · rintro ⟨i, hi, h⟩
    split at h
    · simp at h
    · exact ⟨i, hi, by assumption, h⟩
  · rintro ⟨i, hi, h1, h2⟩
    exact ⟨i, hi, by simp [h1, h2]⟩

theorem mem_of_mem_valuesAt {p : InPolicy V} {vals : List V} {l : List Nat} {v : V}
    (h : v ∈ valuesAt p vals l) : v ∈ vals := by
  obtain ⟨i, -, -, h⟩ := mem_valuesAt.1 h
  exact List.mem_of_getElem? h

theorem mem_validList_of_mem_valuesAt {p : InPolicy V} {vals : List V} {l : List Nat} {v : V}
    (h : v ∈ valuesAt p vals l) : v ∈ validList p vals := by
  obtain ⟨i, -, h1, h2⟩ := mem_valuesAt.1 h
  exact mem_valuesAt.2 ⟨i, List.mem_range.2 (List.getElem?_eq_some_iff.1 h2).1, h1, h2⟩

/-- The 2D operation on the whole array. -/
theorem aggregateSeq2d_valid (A : Accumulator S V R) {p : InPolicy V} {vals : List V} {n1 n2 : Nat}
    (hv : vals.length = n1 * n2) (hA : FirstInRange A (validList p vals))
    (hp : PolicyFor p vals.length) (outp : OutPolicy R) (c : Cell R) :
    aggregateSeq2d A p vals n1 n2 outp c =
      (aggregated A (validList p vals)).bind (fun a => storeAggregate A outp a c) := by
  simp only [aggregateSeq2d]
  rw [aggregate2d_eq A hp n2 ⟨⟨0, n1⟩, ⟨0, n2⟩⟩ (Nat.zero_le _)
    (inBounds_rows hv ⟨0, n1⟩ le_rfl) (hA.sub fun v hv => mem_validList_of_mem_valuesAt hv)]
  rw [cells2d_all, validList, hv]
  rfl

theorem aggregateSeq2d_eq (A : Accumulator S V R) {p : InPolicy V} {vals : List V} {n1 n2 : Nat}
    (hv : vals.length = n1 * n2) (hA : FirstInRange A vals)
    (hp : PolicyFor p vals.length) (outp : OutPolicy R) (c : Cell R) :
    aggregateSeq2d A p vals n1 n2 outp c =
      (aggregated A (validList p vals)).bind (fun a => storeAggregate A outp a c) :=
  aggregateSeq2d_valid A hv (hA.sub fun _ hv => mem_of_mem_valuesAt hv) hp outp c

/-- The valid values per block. -/
def blockValues (p : InPolicy V) (vals : List V) (blocks : List (List Nat)) : List (List V) :=
  blocks.map (valuesAt p vals)

theorem blockValues_flatten (p : InPolicy V) (vals : List V) (blocks : List (List Nat))
    (h : blocks.flatten = List.range vals.length) :
    (blockValues p vals blocks).flatten = validList p vals := by
  rw [validList, ← h, blockValues]
  clear h
  induction blocks with
  | nil => rfl
  | cons b bs ih => simp [valuesAt_append, ih]

theorem range_le_of_indexRanges {t n : Nat} {l : List IndexRange} (ht : 1 ≤ t)
    (h : indexRanges t n = some l) {r : IndexRange} (hr : r ∈ l) : r.b ≤ r.e ∧ r.e ≤ n := by
  obtain ⟨l', hl', hc⟩ := indexRanges_consecutive ht n
  rw [h] at hl'
  obtain rfl := Option.some.inj hl'
  obtain ⟨k, hk, rfl⟩ := List.getElem_of_mem hr
  have := hc.bounds k hk
  omega

/-- The parallel 1D operation, in terms of the valid values of each block. -/
theorem aggregatePar1d_eq (A : Accumulator S V R) {p : InPolicy V} {vals : List V}
    (hp : PolicyFor p vals.length) {t : Nat} (ht : 1 ≤ t) :
    ∃ vss : List (List V), vss.flatten = validList p vals ∧
      ∀ (outp : OutPolicy R) (c : Cell R), aggregatePar1d A p vals t outp c =
        (vss.mapM (aggregated A)).bind (fun bs =>
          (mergeBlocks A bs ⟨false, false, A.init⟩).bind (fun a => storeAggregate A outp a c)) := by
  obtain ⟨l, hl, -⟩ := indexRanges_consecutive ht vals.length
  refine ⟨blockValues p vals (l.map IndexRange.indices), blockValues_flatten _ _ _ ?_, ?_⟩
  · rw [← indexRanges_flatten hl, List.flatMap_def]
  · intro outp c
    simp only [aggregatePar1d, hl, Option.bind_eq_bind, Option.bind_some, blockValues,
      List.map_map]
    congr 1
    rw [List.mapM_map]
    have : ∀ l' : List IndexRange, (∀ r ∈ l', r ∈ l) →
        l'.mapM (aggregate1d A p vals) =
          l'.mapM (aggregated A ∘ (valuesAt p vals ∘ IndexRange.indices)) := by
      intro l' hl'
      induction l' with
      | nil => rfl
      | cons r l' ih =>
        rw [List.mapM_cons, List.mapM_cons, ih (fun r hr => hl' r (by simp [hr])),
          aggregate1d_eq A hp r (range_le_of_indexRanges ht hl (hl' r (by simp))).2]
        rfl
    exact this l (fun _ h => h)

/-- The parallel 2D operation, in terms of the valid values of each block. -/
theorem aggregatePar2d_valid (A : Accumulator S V R) {p : InPolicy V} {vals : List V} {n1 n2 : Nat}
    (hv : vals.length = n1 * n2) (hA : FirstInRange A (validList p vals))
    (hp : PolicyFor p vals.length) {t : Nat} (ht : 1 ≤ t) :
    ∃ vss : List (List V), vss.flatten = validList p vals ∧
      ∀ (outp : OutPolicy R) (c : Cell R), aggregatePar2d A p vals t n1 n2 outp c =
        (vss.mapM (aggregated A)).bind (fun bs =>
          (mergeBlocks A bs ⟨false, false, A.init⟩).bind (fun a => storeAggregate A outp a c)) := by
  obtain ⟨l, hl, -⟩ := indexRanges_consecutive ht n1
  have hl2 : indexRanges2 t n1 n2 = some (l.map (fun r => ⟨r, ⟨0, n2⟩⟩)) := by
    rw [indexRanges2_eq, hl]; rfl
  refine ⟨blockValues p vals ((l.map (fun r => IndexRanges2.mk r ⟨0, n2⟩)).map (cells2d n2)),
    blockValues_flatten _ _ _ ?_, ?_⟩
  · rw [← List.flatMap_def, indexRanges2_flatten hl2, hv]
  · intro outp c
    simp only [aggregatePar2d, hl2, Option.bind_eq_bind, Option.bind_some, blockValues,
      List.map_map]
    congr 1
    rw [List.mapM_map, List.mapM_map]
    have : ∀ l' : List IndexRange, (∀ r ∈ l', r ∈ l) →
        l'.mapM (aggregate2d A p vals n2 ∘ fun r => IndexRanges2.mk r ⟨0, n2⟩) =
          l'.mapM (aggregated A ∘ (valuesAt p vals ∘ cells2d n2 ∘
            fun r => IndexRanges2.mk r ⟨0, n2⟩)) := by
      intro l' hl'
      induction l' with
      | nil => rfl
      | cons r l' ih =>
        have hr := range_le_of_indexRanges ht hl (hl' r (by simp))
        rw [List.mapM_cons, List.mapM_cons, ih (fun r hr => hl' r (by simp [hr])),
          Function.comp_apply, aggregate2d_eq A hp n2 ⟨r, ⟨0, n2⟩⟩ hr.1
            (inBounds_rows hv r hr.2) (hA.sub fun v hv => mem_validList_of_mem_valuesAt hv)]
        rfl
    exact this l (fun _ h => h)

theorem aggregatePar2d_eq (A : Accumulator S V R) {p : InPolicy V} {vals : List V} {n1 n2 : Nat}
    (hv : vals.length = n1 * n2) (hA : FirstInRange A vals)
    (hp : PolicyFor p vals.length) {t : Nat} (ht : 1 ≤ t) :
    ∃ vss : List (List V), vss.flatten = validList p vals ∧
      ∀ (outp : OutPolicy R) (c : Cell R), aggregatePar2d A p vals t n1 n2 outp c =
        (vss.mapM (aggregated A)).bind (fun bs =>
          (mergeBlocks A bs ⟨false, false, A.init⟩).bind (fun a => storeAggregate A outp a c)) :=
  aggregatePar2d_valid A hv (hA.sub fun _ hv => mem_of_mem_valuesAt hv) hp ht

/-! Accumulators that are always within range. -/

variable {A : Accumulator S V R} {P : S → Prop} {Q : V → Prop} {f : S → V → S} {m : S → S → S}

theorem Spec.PureAccumulator.foldl (h : PureAccumulator A P Q f m) (vs : List V) (hvs : ∀ v ∈ vs, Q v)
    (s : S) (hs : P s) : P (vs.foldl f s) := by
  induction vs generalizing s with
  | nil => exact hs
  | cons v vs ih =>
    exact ih (fun w hw => hvs w (by simp [hw])) _ (h.step s v hs (hvs v (by simp)))

theorem Spec.PureAccumulator.addAll (h : PureAccumulator A P Q f m) (vs : List V) (hvs : ∀ v ∈ vs, Q v)
    (s : S) (hs : P s) : addAll A vs s = some (true, vs.foldl f s) := by
  induction vs generalizing s with
  | nil => rfl
  | cons v vs ih =>
    have hv := hvs v (by simp)
    simp [Fern.addAll, h.add s v hs hv, ih (fun w hw => hvs w (by simp [hw])) _ (h.step s v hs hv)]

theorem Spec.PureAccumulator.firstInRange (h : PureAccumulator A P Q f m) (vs : List V)
    (hvs : ∀ v ∈ vs, Q v) : FirstInRange A vs := by
  intro v hv s ok ha
  rw [h.add _ _ h.init (hvs v hv)] at ha
  simp_all

theorem Spec.PureAccumulator.aggregated (h : PureAccumulator A P Q f m) (vs : List V)
    (hvs : ∀ v ∈ vs, Q v) :
    aggregated A vs = some ⟨!vs.isEmpty, true, vs.foldl f A.init⟩ := by
  cases vs with
  | nil => rfl
  | cons v vs => simp [Fern.aggregated, h.addAll (v :: vs) hvs A.init h.init]

theorem Spec.PureAccumulator.mergeBlocks (h : PureAccumulator A P Q f m) (vss : List (List V))
    (hvs : ∀ vs ∈ vss, ∀ v ∈ vs, Q v) (a : Aggregated S) (ha : P a.acc) :
    mergeBlocks A (vss.map (fun vs => ⟨!vs.isEmpty, true, vs.foldl f A.init⟩)) a =
      some ⟨a.initialized || !vss.flatten.isEmpty, a.withinRange || !vss.flatten.isEmpty,
        vss.flatten.foldl f a.acc⟩ := by
  induction vss generalizing a with
  | nil => simp [Fern.mergeBlocks]
  | cons vs vss ih =>
    have ih := ih (fun l hl => hvs l (by simp [hl]))
    have hq := hvs vs (by simp)
    simp only [List.map_cons, Fern.mergeBlocks]
    cases hvl : vs with
    | nil => simpa using ih a ha
    | cons v vs' =>
      rw [← hvl, show vs.isEmpty = false by simp [hvl]]
      simp only [Bool.not_false, if_true, h.merge _ _ ha (h.foldl vs hq _ h.init),
        Option.bind_eq_bind, Option.bind_some, h.hom _ _ ha hq]
      rw [ih _ (h.foldl vs hq _ ha)]
      simp [hvl]

/-- Parallel and sequential operation store the same. -/
theorem Spec.PureAccumulator.store (h : PureAccumulator A P Q f m) (vss : List (List V))
    (hvs : ∀ v ∈ vss.flatten, Q v) (outp : OutPolicy R) (c : Cell R) :
    ((vss.mapM (Fern.aggregated A)).bind (fun bs =>
      (Fern.mergeBlocks A bs ⟨false, false, A.init⟩).bind (fun a => storeAggregate A outp a c))) =
    (Fern.aggregated A vss.flatten).bind (fun a => storeAggregate A outp a c) := by
  have hvs' : ∀ vs ∈ vss, ∀ v ∈ vs, Q v := fun l hl v hv =>
    hvs v (List.mem_flatten.2 ⟨l, hl, hv⟩)
  rw [mapM_some_of (g := fun vs => ⟨!vs.isEmpty, true, vs.foldl f A.init⟩)
    (fun vs hvm => h.aggregated vs (hvs' vs hvm))]
  simp only [Option.bind_some, h.mergeBlocks vss hvs' ⟨false, false, A.init⟩ h.init,
    h.aggregated _ hvs]
  simp only [storeAggregate, Bool.false_or, Bool.and_true, Bool.and_self]

end

/-! The sum. -/

/-- Types in which an addition never is undefined behaviour: it wraps, or is done in `int`. -/
def Wraps (t : IntTy) : Prop := Unsigned t ∨ Narrow t

theorem cAdd_map {t : IntTy} {s v : Int} (hs : Fits t s) (hv : Fits t v) :
    (cAdd t t s v).map t.wrap = addCompute t s v := by
  rw [addCompute, wrap_fits hs, wrap_fits hv]

theorem addCompute_wraps {t : IntTy} (ht : Wraps t) {s v : Int} (hs : Fits t s) (hv : Fits t v) :
    addCompute t s v = some (t.wrap (s + v)) := by
  rw [addCompute_eq hs hv, if_neg]
  rintro ⟨h1, h2⟩
  rcases ht with (rfl | rfl | rfl | rfl) | (rfl | rfl | rfl | rfl) <;>
    simp [promote, bits, signed] at h1 <;> simp only [Fits, promote, bits] at * <;>
    simp at h2 <;> omega

theorem addRange_self {t : IntTy} (ht : Wraps t) {s v : Int} (hs : Fits t s) (hv : Fits t v) :
    addRange t t t s v (t.wrap (s + v)) = decide (Fits t (s + v)) := by
  cases hsg : t.signed
  · rw [addRange_uu hsg hsg hsg (fits_wrap _ _) hs]
    rw [← decide_not, decide_eq_decide]
    cases t <;> simp [signed] at hsg <;> simp only [Fits] at hs hv ⊢ <;>
      simp only [wrap_u8, wrap_u16, wrap_u32, wrap_u64] <;> omega
  · rw [addRange_ss hsg hsg hsg (fits_wrap _ _) hs hv]
    rcases ht with (rfl | rfl | rfl | rfl) | (rfl | rfl | rfl | rfl) <;> simp [signed] at hsg <;>
      split <;> rw [← decide_not, decide_eq_decide] <;>
      simp only [Fits] at hs hv ⊢ <;> simp only [wrap_i8, wrap_i16] <;> omega

/-- Adding to the sum, with range detection. -/
theorem sumAdd_detect {t : IntTy} (ht : Wraps t) {s v : Int} (hs : Fits t s) (hv : Fits t v) :
    (sumAcc .detect t).add s v = some (t.wrap (s + v), decide (Fits t (s + v))) := by
  simp only [sumAcc, cAdd_map hs hv, addCompute_wraps ht hs hv, Option.bind_eq_bind,
    Option.bind_some, SumPolicy.withinRange, addRange_self ht hs hv]

/-- Adding to the sum without range detection. -/
theorem sumAdd_discard {t : IntTy} (ht : Wraps t) {s v : Int} (hs : Fits t s) (hv : Fits t v) :
    (sumAcc .discard t).add s v = some (t.wrap (s + v), true) := by
  simp only [sumAcc, cAdd_map hs hv, addCompute_wraps ht hs hv, Option.bind_eq_bind,
    Option.bind_some, SumPolicy.withinRange]

/-- Adding to the sum in `int32_t` and `int64_t`. -/
theorem sumAdd_wide (q : SumPolicy) {t : IntTy} (ht : ¬ Wraps t) {s v : Int} (hs : Fits t s)
    (hv : Fits t v) :
    (sumAcc q t).add s v = if Fits t (s + v) then some (s + v, true) else none := by
  have hsg : t.signed = true := by cases t <;> simp [Wraps, Unsigned, Narrow] at ht <;> rfl
  have hp : t.promote = t := by cases t <;> simp [Wraps, Unsigned, Narrow] at ht <;> rfl
  simp only [sumAcc, cAdd_map hs hv, addCompute_eq hs hv, hp, hsg, true_and]
  by_cases hf : Fits t (s + v)
  · simp only [hf, not_true, if_false, if_true, Option.bind_eq_bind, Option.bind_some, wrap_fits hf]
    cases q
    · rfl
    · simp only [SumPolicy.withinRange]
      rw [addRange_ss hsg hsg hsg hf hs hv]
      congr 2
      split <;> simp <;> omega
  · simp [hf]

theorem sumMerge_eq (q : SumPolicy) (t : IntTy) : (sumAcc q t).merge = (sumAcc q t).add := rfl

/-- Some running sum, starting at `s`, is not a value of the type. -/
theorem sum_addAll_detect {t : IntTy} (ht : Wraps t) (vs : List Int) (hv : ∀ v ∈ vs, Fits t v)
    {s : Int} (hs : Fits t s) :
    ∃ ok x, addAll (sumAcc .detect t) vs s = some (ok, x) ∧
      (ok = true ↔ ∀ k, Fits t (s + (vs.take k).sum)) ∧ (ok = true → x = s + vs.sum) := by
  induction vs generalizing s with
  | nil => exact ⟨true, s, rfl, by simp [hs], by simp⟩
  | cons v vs ih =>
    have hv1 := hv v (by simp)
    simp only [addAll, sumAdd_detect ht hs hv1, Option.bind_some]
    by_cases hf : Fits t (s + v)
    · simp only [hf, decide_true, if_true, wrap_fits hf]
      obtain ⟨ok, x, h1, h2, h3⟩ := ih (fun w hw => hv w (by simp [hw])) hf
      refine ⟨ok, x, h1, ?_, fun h => by rw [h3 h]; simp [Int.add_assoc]⟩
      rw [h2]
      constructor
      · intro h k
        cases k with
        | zero => simpa using hs
        | succ k => simpa [Int.add_assoc] using h k
      · intro h k
        simpa [Int.add_assoc] using h (k + 1)
    · refine ⟨false, t.wrap (s + v), by simp [hf], ?_, by simp⟩
      simp only [Bool.false_eq_true, false_iff, not_forall]
      exact ⟨1, by simpa using hf⟩

theorem sum_addAll_discard {t : IntTy} (ht : Wraps t) (vs : List Int) (hv : ∀ v ∈ vs, Fits t v)
    {s : Int} (hs : Fits t s) :
    addAll (sumAcc .discard t) vs s = some (true, t.wrap (s + vs.sum)) := by
  induction vs generalizing s with
  | nil => simp [addAll, wrap_fits hs]
  | cons v vs ih =>
    have hv1 := hv v (by simp)
    simp only [addAll, sumAdd_discard ht hs hv1, Option.bind_some, if_true]
    rw [ih (fun w hw => hv w (by simp [hw])) (fits_wrap _ _)]
    congr 2
    simp only [List.sum_cons]
    generalize vs.sum = z
    cases t <;>
      simp only [wrap_u8, wrap_u16, wrap_u32, wrap_u64, wrap_i8, wrap_i16, wrap_i32, wrap_i64] <;>
      omega

theorem sum_addAll_wide (q : SumPolicy) {t : IntTy} (ht : ¬ Wraps t) (vs : List Int)
    (hv : ∀ v ∈ vs, Fits t v) {s : Int} (hs : Fits t s) :
    ((∀ k, Fits t (s + (vs.take k).sum)) → addAll (sumAcc q t) vs s = some (true, s + vs.sum)) ∧
    ((¬ ∀ k, Fits t (s + (vs.take k).sum)) → addAll (sumAcc q t) vs s = none) := by
  induction vs generalizing s with
  | nil => exact ⟨by simp [addAll], by simp [hs]⟩
  | cons v vs ih =>
    have hv1 := hv v (by simp)
    simp only [addAll, sumAdd_wide q ht hs hv1]
    by_cases hf : Fits t (s + v)
    · simp only [hf, if_true, Option.bind_some]
      obtain ⟨h1, h2⟩ := ih (fun w hw => hv w (by simp [hw])) hf
      have e : (∀ k, Fits t (s + ((v :: vs).take k).sum)) ↔ ∀ k, Fits t (s + v + (vs.take k).sum) := by
        constructor
        · intro h k
          simpa [Int.add_assoc] using h (k + 1)
        · intro h k
          cases k with
          | zero => simpa using hs
          | succ k => simpa [Int.add_assoc] using h k
      rw [e]
      refine ⟨fun h => by rw [h1 h]; simp [Int.add_assoc], h2⟩
    · refine ⟨fun h => absurd (by simpa using h 1) hf, fun _ => by simp [hf]⟩

theorem sum_firstInRange (q : SumPolicy) (t : IntTy) (vs : List Int) (hv : ∀ v ∈ vs, Fits t v) :
    FirstInRange (sumAcc q t) vs := by
  intro v hvm s ok h
  have hv1 := hv v hvm
  by_cases ht : Wraps t
  · cases q
    · rw [show (sumAcc .discard t).init = 0 from rfl, sumAdd_discard ht (fits_zero t) hv1] at h
      simp_all
    · rw [show (sumAcc .detect t).init = 0 from rfl, sumAdd_detect ht (fits_zero t) hv1] at h
      simp_all
  · rw [show (sumAcc q t).init = 0 from rfl, sumAdd_wide q ht (fits_zero t) hv1] at h
    simp_all

/-- Sums of values of an unsigned type only grow. -/
theorem sum_nonneg_of_fits {t : IntTy} (ht : t.signed = false) {vs : List Int}
    (hv : ∀ v ∈ vs, Fits t v) : 0 ≤ vs.sum :=
  List.sum_nonneg (fun v h => fits_nonneg ht (hv v h))

theorem partialSumsFit_unsigned {t : IntTy} (ht : t.signed = false) {vs : List Int}
    (hv : ∀ v ∈ vs, Fits t v) : PartialSumsFit t vs ↔ Fits t vs.sum := by
  constructor
  · intro h; simpa using h vs.length
  · intro h k
    have h1 : vs.sum = (vs.take k).sum + (vs.drop k).sum := by
      rw [← List.sum_append, List.take_append_drop]
    have h2 := sum_nonneg_of_fits ht (vs := vs.take k) (fun v h => hv v (List.mem_of_mem_take h))
    have h3 := sum_nonneg_of_fits ht (vs := vs.drop k) (fun v h => hv v (List.mem_of_mem_drop h))
    exact fits_mono (fits_zero t) h h2 (by omega)

/-- Block results of an unsigned sum with range detection. -/
def SumBlock (t : IntTy) (vs : List Int) (b : Aggregated Int) : Prop :=
  b.initialized = !vs.isEmpty ∧ (b.withinRange = true ↔ Fits t vs.sum) ∧
    (b.withinRange = true → b.acc = vs.sum)

theorem sum_aggregated {t : IntTy} (ht : t.signed = false) (vs : List Int)
    (hv : ∀ v ∈ vs, Fits t v) :
    ∃ b, aggregated (sumAcc .detect t) vs = some b ∧ SumBlock t vs b := by
  cases vs with
  | nil => exact ⟨_, rfl, rfl, by simp [fits_zero], by simp [sumAcc]⟩
  | cons v vs =>
    obtain ⟨ok, x, h1, h2, h3⟩ := sum_addAll_detect (.inl ((unsigned_iff t).2 ht)) (v :: vs) hv
      (fits_zero t)
    refine ⟨⟨true, ok, x⟩, by simp [aggregated, show (sumAcc .detect t).init = 0 from rfl, h1], rfl,
      ?_, fun h => by simpa using h3 h⟩
    rw [h2]
    simp only [Int.zero_add]
    exact partialSumsFit_unsigned ht hv

theorem sum_mergeBlocks {t : IntTy} (ht : t.signed = false) (vss : List (List Int))
    (hv : ∀ vs ∈ vss, ∀ v ∈ vs, Fits t v) (bs : List (Aggregated Int))
    (hb : List.Forall₂ (SumBlock t) vss bs) (a : Aggregated Int) (ha : Fits t a.acc) :
    ∃ r, mergeBlocks (sumAcc .detect t) bs a = some r ∧
      (Fits t (a.acc + vss.flatten.sum) → r = ⟨a.initialized || !vss.flatten.isEmpty,
        a.withinRange || !vss.flatten.isEmpty, a.acc + vss.flatten.sum⟩) ∧
      (¬ Fits t (a.acc + vss.flatten.sum) → r.withinRange = false) := by
  induction hb generalizing a with
  | nil => exact ⟨a, rfl, by simp, by simp [ha]⟩
  | @cons vs b vss bs hab hrest ih =>
    have ih := ih (fun vs h => hv vs (by simp [h]))
    have hvs := hv vs (by simp)
    have n1 := sum_nonneg_of_fits ht hvs
    have n2 : 0 ≤ vss.flatten.sum := sum_nonneg_of_fits ht (fun v h => by
      obtain ⟨l, hl, h⟩ := List.mem_flatten.1 h
      exact hv l (by simp [hl]) v h)
    have n3 := fits_nonneg ht ha
    obtain ⟨hi, hw, hx⟩ := hab
    simp only [List.flatten_cons, List.sum_append]
    cases hvl : vs with
    | nil =>
      subst hvl
      simp only [List.isEmpty_nil, Bool.not_true] at hi
      obtain ⟨r, h1, h2, h3⟩ := ih a ha
      refine ⟨r, by simp [mergeBlocks, hi, h1], ?_, ?_⟩
      · simpa using h2
      · simpa using h3
    | cons v vs' =>
      rw [← hvl]
      have hne : vs.isEmpty = false := by simp [hvl]
      rw [hne] at hi
      by_cases hf : Fits t vs.sum
      · have hw' := hw.2 hf
        have hx' := hx hw'
        simp only [mergeBlocks, hi, hw', hx', Bool.not_false, if_true, sumMerge_eq,
          sumAdd_detect (.inl ((unsigned_iff t).2 ht)) ha hf, Option.bind_eq_bind, Option.bind_some]
        by_cases hf2 : Fits t (a.acc + vs.sum)
        · simp only [hf2, decide_true, if_true, wrap_fits hf2]
          obtain ⟨r, h1, h2, h3⟩ := ih ⟨true, true, a.acc + vs.sum⟩ hf2
          refine ⟨r, h1, ?_, ?_⟩
          · intro h
            rw [h2 (by simpa [Int.add_assoc] using h)]
            simp [hvl, Int.add_assoc]
          · intro h
            exact h3 (by simpa [Int.add_assoc] using h)
        · refine ⟨_, by simp [hf2]; rfl, ?_, by simp⟩
          intro h
          exact absurd (fits_mono (fits_zero t) h (by omega) (by omega)) hf2
      · have hw' : b.withinRange = false := by
          cases h : b.withinRange
          · rfl
          · exact absurd (hw.1 h) hf
        refine ⟨_, by simp [mergeBlocks, hi, hw']; rfl, ?_, by simp⟩
        intro h
        exact absurd (fits_mono (fits_zero t) h (by omega) (by omega)) hf

end Fern
