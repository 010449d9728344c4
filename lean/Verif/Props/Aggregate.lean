import Verif.Lemmas.Count
/-
C35: the sum aggregate. C36: parallel aggregates. C37: count.
-/
namespace Fern

open Spec IntTy

/-! ### C35 -/

/-- What a sum with range detection makes of the result, given the valid values. -/
private theorem sum_store {t : IntTy} (ht : Unsigned t ∨ Narrow t) (vs : List Int)
    (hv : ∀ v ∈ vs, Fits t v) (outp : OutPolicy Int) (c : Cell Int) :
    ∃ c', ((aggregated (sumAcc .detect t) vs).bind
        (fun a => storeAggregate (sumAcc .detect t) outp a c)) = some c' ∧
      (vs ≠ [] → PartialSumsFit t vs → Assigned vs.sum c c') ∧
      (vs = [] ∨ ¬ PartialSumsFit t vs → Marked outp c c') := by
  cases vs with
  | nil => exact ⟨_, rfl, by simp, fun _ => mark_spec _ _⟩
  | cons v vs =>
    obtain ⟨ok, x, h1, h2, h3⟩ := sum_addAll_detect ht (v :: vs) hv (fits_zero t)
    simp only [Int.zero_add] at h2 h3
    simp only [aggregated, show (sumAcc .detect t).init = 0 from rfl, h1, Option.map_some,
      Option.bind_some, storeAggregate, Bool.true_and]
    cases ok
    · refine ⟨_, rfl, fun _ h => absurd (h2.2 h) (by simp), fun _ => mark_spec _ _⟩
    · refine ⟨_, rfl, fun _ _ => ⟨h3 rfl, rfl⟩, ?_⟩
      rintro (h | h)
      · simp at h
      · exact absurd (h2.1 rfl) h

private theorem fits_valid {t : IntTy} {p : InPolicy Int} {vals : List Int}
    (hv : ∀ v ∈ vals, Fits t v) : ∀ v ∈ validList p vals, Fits t v :=
  fun v h => hv v (mem_of_mem_valuesAt h)

/-- C35: the sum of a 1D array of unsigned integers, or of integers smaller than `int`, with range
detection, is the sum of the valid values if there is one and all running sums are values of the type.
Otherwise the result is marked as no-data. -/
theorem C35_sum_1d (t : IntTy) (ht : Unsigned t ∨ Narrow t) (p : InPolicy Int) (vals : List Int)
    (hp : PolicyFor p vals.length) (hv : ∀ v ∈ vals, Fits t v) (outp : OutPolicy Int)
    (c : Cell Int) :
    ∃ c', aggregateSeq1d (sumAcc .detect t) p vals outp c = some c' ∧
      (validList p vals ≠ [] → PartialSumsFit t (validList p vals) →
        Assigned (validList p vals).sum c c') ∧
      (validList p vals = [] ∨ ¬ PartialSumsFit t (validList p vals) → Marked outp c c') := by
  rw [aggregateSeq1d_eq _ hp]
  exact sum_store ht _ (fits_valid hv) outp c

example : aggregateSeq1d (sumAcc .detect i8) (.detect (· == -128)) [-128, 100, -128, -30, 57]
      (.markValue (-128)) ⟨0, false⟩ = some ⟨127, false⟩ ∧
    aggregateSeq1d (sumAcc .detect i8) (.detect (· == -128)) [-128, 100, -128, 57, -30]
      (.markValue (-128)) ⟨0, false⟩ = some ⟨-128, false⟩ ∧
    aggregateSeq1d (sumAcc .detect i8) (.detect (· == -128)) [-128, -128]
      (.markValue (-128)) ⟨0, false⟩ = some ⟨-128, false⟩ := by decide

/-- C35: the sum of a 2D array, as `C35_sum_1d`, for every position of the valid elements. -/
theorem C35_sum_2d (t : IntTy) (ht : Unsigned t ∨ Narrow t) (p : InPolicy Int) (n1 n2 : Nat)
    (vals : List Int) (hn : vals.length = n1 * n2) (hp : PolicyFor p vals.length)
    (hv : ∀ v ∈ vals, Fits t v) (outp : OutPolicy Int) (c : Cell Int) :
    ∃ c', aggregateSeq2d (sumAcc .detect t) p vals n1 n2 outp c = some c' ∧
      (validList p vals ≠ [] → PartialSumsFit t (validList p vals) →
        Assigned (validList p vals).sum c c') ∧
      (validList p vals = [] ∨ ¬ PartialSumsFit t (validList p vals) → Marked outp c c') := by
  rw [aggregateSeq2d_eq _ hn (sum_firstInRange _ _ _ hv) hp]
  exact sum_store ht _ (fits_valid hv) outp c

example : aggregateSeq2d (sumAcc .detect u8) (.byMask [1, 1, 1, 0, 0, 1] 1) [9, 9, 9, 200, 55, 9] 3 2
      .markMask ⟨0, false⟩ = some ⟨255, false⟩ ∧
    aggregateSeq2d (sumAcc .detect u8) (.byMask [1, 1, 1, 0, 0, 0] 1) [9, 9, 9, 200, 55, 1] 3 2
      .markMask ⟨0, false⟩ = some ⟨0, true⟩ := by decide

/-- C35, unsigned types: only the sum itself matters, not the order of the values. -/
theorem C35_sum_unsigned (t : IntTy) (ht : Unsigned t) (p : InPolicy Int) (vals : List Int)
    (hp : PolicyFor p vals.length) (hv : ∀ v ∈ vals, Fits t v) (outp : OutPolicy Int)
    (c : Cell Int) :
    ∃ c', aggregateSeq1d (sumAcc .detect t) p vals outp c = some c' ∧
      (validList p vals ≠ [] → Fits t (validList p vals).sum →
        Assigned (validList p vals).sum c c') ∧
      (validList p vals = [] ∨ ¬ Fits t (validList p vals).sum → Marked outp c c') := by
  obtain ⟨c', h1, h2, h3⟩ := C35_sum_1d t (.inl ht) p vals hp hv outp c
  rw [partialSumsFit_unsigned ((unsigned_iff t).1 ht) (fits_valid hv)] at h2 h3
  exact ⟨c', h1, h2, h3⟩

example : aggregateSeq1d (sumAcc .detect u8) .skip [200, 56, 7] (.markValue 255) ⟨0, false⟩ =
    some ⟨255, false⟩ := by decide

/-- C35, 2D version of `C35_sum_unsigned`. -/
theorem C35_sum_unsigned_2d (t : IntTy) (ht : Unsigned t) (p : InPolicy Int) (n1 n2 : Nat)
    (vals : List Int) (hn : vals.length = n1 * n2) (hp : PolicyFor p vals.length)
    (hv : ∀ v ∈ vals, Fits t v) (outp : OutPolicy Int) (c : Cell Int) :
    ∃ c', aggregateSeq2d (sumAcc .detect t) p vals n1 n2 outp c = some c' ∧
      (validList p vals ≠ [] → Fits t (validList p vals).sum →
        Assigned (validList p vals).sum c c') ∧
      (validList p vals = [] ∨ ¬ Fits t (validList p vals).sum → Marked outp c c') := by
  obtain ⟨c', h1, h2, h3⟩ := C35_sum_2d t (.inl ht) p n1 n2 vals hn hp hv outp c
  rw [partialSumsFit_unsigned ((unsigned_iff t).1 ht) (fits_valid hv)] at h2 h3
  exact ⟨c', h1, h2, h3⟩

/-- C35, 0D: the sum of a single valid value is that value. -/
theorem C35_sum_0d (q : SumPolicy) (t : IntTy) (p : InPolicy Int) (v : Int)
    (hp : PolicyFor p 1) (hv : Fits t v) (outp : OutPolicy Int) (c : Cell Int) :
    ∃ c', aggregateSeq0d (sumAcc q t) p outp v c = some c' ∧
      (¬ NoDataAt p [v] 0 → Assigned v c c') ∧ (NoDataAt p [v] 0 → Marked outp c c') := by
  obtain ⟨b, hb, h⟩ := isNoData0_spec (v := v) hp
  simp only [aggregateSeq0d, aggregate0d, hb, Option.bind_eq_bind, Option.bind_some]
  cases b
  · have hn : ¬ NoDataAt p [v] 0 := fun hn => by simpa using h.2 hn
    have ha : (sumAcc q t).add (sumAcc q t).init v = some (v, true) := by
      rw [show (sumAcc q t).init = 0 from rfl]
      by_cases ht : Wraps t
      · cases q
        · rw [sumAdd_discard ht (fits_zero t) hv]; simp [wrap_fits hv]
        · rw [sumAdd_detect ht (fits_zero t) hv]; simp [wrap_fits hv, hv]
      · rw [sumAdd_wide q ht (fits_zero t) hv]; simp [hv]
    simp only [Bool.false_eq_true, if_false, ha, Option.bind_some]
    exact ⟨⟨v, c.masked⟩, rfl, fun _ => ⟨rfl, rfl⟩, fun h => absurd h hn⟩
  · exact ⟨_, rfl, fun hn => absurd (h.1 rfl) hn, fun _ => mark_spec _ _⟩

example : aggregateSeq0d (sumAcc .detect u8) (.detect (· == 255)) (.markValue 255) 7 ⟨0, false⟩ =
    some ⟨7, false⟩ := by decide

/-- What a sum in `int32_t` or `int64_t` makes of the result, given the valid values. -/
private theorem sum_store_wide (q : SumPolicy) {t : IntTy} (ht : ¬ (Unsigned t ∨ Narrow t))
    (vs : List Int) (hv : ∀ v ∈ vs, Fits t v) (outp : OutPolicy Int) (c : Cell Int) :
    (PartialSumsFit t vs → ∃ c', ((aggregated (sumAcc q t) vs).bind
        (fun a => storeAggregate (sumAcc q t) outp a c)) = some c' ∧
      (vs ≠ [] → Assigned vs.sum c c') ∧ (vs = [] → Marked outp c c')) ∧
    (¬ PartialSumsFit t vs → ((aggregated (sumAcc q t) vs).bind
        (fun a => storeAggregate (sumAcc q t) outp a c)) = none) := by
  cases vs with
  | nil => exact ⟨fun _ => ⟨_, rfl, by simp, fun _ => mark_spec _ _⟩,
      fun h => absurd (fun k => by simpa using fits_zero t) h⟩
  | cons v vs =>
    obtain ⟨h1, h2⟩ := sum_addAll_wide q ht (v :: vs) hv (fits_zero t)
    simp only [Int.zero_add] at h1 h2
    simp only [aggregated, show (sumAcc q t).init = 0 from rfl]
    refine ⟨fun h => ?_, fun h => by rw [h2 h]; rfl⟩
    rw [h1 h]
    exact ⟨_, rfl, fun _ => ⟨rfl, rfl⟩, by simp⟩

/-- C35, `int32_t` and `int64_t` (whether or not range errors are detected): the sum of the valid
values when all running sums are values of the type, undefined behaviour otherwise. The range policy is
asked too late. -/
theorem C35_sum_signed_wide_1d (q : SumPolicy) (t : IntTy) (ht : Signed t) (hw : ¬ Narrow t)
    (p : InPolicy Int) (vals : List Int)
    (hp : PolicyFor p vals.length) (hv : ∀ v ∈ vals, Fits t v) (outp : OutPolicy Int)
    (c : Cell Int) :
    (PartialSumsFit t (validList p vals) →
      ∃ c', aggregateSeq1d (sumAcc q t) p vals outp c = some c' ∧
      (validList p vals ≠ [] → Assigned (validList p vals).sum c c') ∧
      (validList p vals = [] → Marked outp c c')) ∧
    (¬ PartialSumsFit t (validList p vals) →
      aggregateSeq1d (sumAcc q t) p vals outp c = none) := by
  rw [aggregateSeq1d_eq _ hp]
  exact sum_store_wide q (by rintro (h | h)
                             · rw [unsigned_iff] at h; rw [signed_iff] at ht; simp [h] at ht
                             · exact hw h) _ (fits_valid hv) outp c

example : aggregateSeq1d (sumAcc .detect i32) .skip [2147483647, -5, 5] (.markValue (-2147483648))
      ⟨0, false⟩ = some ⟨2147483647, false⟩ ∧
    aggregateSeq1d (sumAcc .detect i32) .skip [2147483647, 5, -5] (.markValue (-2147483648))
      ⟨0, false⟩ = none := by decide

/-- C35, 2D version of `C35_sum_signed_wide_1d`. -/
theorem C35_sum_signed_wide_2d (q : SumPolicy) (t : IntTy) (ht : Signed t) (hw : ¬ Narrow t)
    (p : InPolicy Int) (n1 n2 : Nat) (vals : List Int) (hn : vals.length = n1 * n2)
    (hp : PolicyFor p vals.length) (hv : ∀ v ∈ vals, Fits t v) (outp : OutPolicy Int)
    (c : Cell Int) :
    (PartialSumsFit t (validList p vals) →
      ∃ c', aggregateSeq2d (sumAcc q t) p vals n1 n2 outp c = some c' ∧
      (validList p vals ≠ [] → Assigned (validList p vals).sum c c') ∧
      (validList p vals = [] → Marked outp c c')) ∧
    (¬ PartialSumsFit t (validList p vals) →
      aggregateSeq2d (sumAcc q t) p vals n1 n2 outp c = none) := by
  rw [aggregateSeq2d_eq _ hn (sum_firstInRange _ _ _ hv) hp]
  exact sum_store_wide q (by rintro (h | h)
                             · rw [unsigned_iff] at h; rw [signed_iff] at ht; simp [h] at ht
                             · exact hw h) _ (fits_valid hv) outp c

example : aggregateSeq2d (sumAcc .detect i64) (.detect (· == -9)) [-9, -9, 4, 5] 2 2
      (.markValue (-9)) ⟨0, false⟩ = some ⟨9, false⟩ := by decide

private theorem moduloOf_wrap (t : IntTy) (n : Int) : ModuloOf t n (t.wrap n) := by
  refine ⟨fits_wrap t n, ?_⟩
  cases t <;>
    simp only [wrap_u8, wrap_u16, wrap_u32, wrap_u64, wrap_i8, wrap_i16, wrap_i32, wrap_i64, bits]
  · exact ⟨-(n / 256), by omega⟩
  · exact ⟨-((n + 128) / 256), by omega⟩
  · exact ⟨-(n / 65536), by omega⟩
  · exact ⟨-((n + 32768) / 65536), by omega⟩
  · exact ⟨-(n / 4294967296), by omega⟩
  · exact ⟨-((n + 2147483648) / 4294967296), by omega⟩
  · exact ⟨-(n / 18446744073709551616), by omega⟩
  · exact ⟨-((n + 9223372036854775808) / 18446744073709551616), by omega⟩

private theorem sum_store_discard {t : IntTy} (ht : Unsigned t ∨ Narrow t) (vs : List Int)
    (hv : ∀ v ∈ vs, Fits t v) (outp : OutPolicy Int) (c : Cell Int) :
    ∃ c', ((aggregated (sumAcc .discard t) vs).bind
        (fun a => storeAggregate (sumAcc .discard t) outp a c)) = some c' ∧
      (vs ≠ [] → c'.masked = c.masked ∧ ModuloOf t vs.sum c'.val) ∧
      (vs = [] → Marked outp c c') := by
  cases vs with
  | nil => exact ⟨_, rfl, by simp, fun _ => mark_spec _ _⟩
  | cons v vs =>
    have h1 := sum_addAll_discard ht (v :: vs) hv (fits_zero t)
    simp only [Int.zero_add] at h1
    simp only [aggregated, show (sumAcc .discard t).init = 0 from rfl, h1, Option.map_some,
      Option.bind_some, storeAggregate, Bool.and_self, if_true]
    exact ⟨_, rfl, fun _ => ⟨rfl, moduloOf_wrap _ _⟩, by simp⟩

/-- C35, range errors discarded: the sum modulo the number of values of the type; no-data iff there is
no valid value. -/
theorem C35_sum_discard_1d (t : IntTy) (ht : Unsigned t ∨ Narrow t) (p : InPolicy Int)
    (vals : List Int) (hp : PolicyFor p vals.length) (hv : ∀ v ∈ vals, Fits t v)
    (outp : OutPolicy Int) (c : Cell Int) :
    ∃ c', aggregateSeq1d (sumAcc .discard t) p vals outp c = some c' ∧
      (validList p vals ≠ [] →
        c'.masked = c.masked ∧ ModuloOf t (validList p vals).sum c'.val) ∧
      (validList p vals = [] → Marked outp c c') := by
  rw [aggregateSeq1d_eq _ hp]
  exact sum_store_discard ht _ (fits_valid hv) outp c

example : aggregateSeq1d (sumAcc .discard u8) .skip [200, 100, 1] .dontMark ⟨0, false⟩ =
    some ⟨45, false⟩ := by decide

/-- C35, 2D version of `C35_sum_discard_1d`. -/
theorem C35_sum_discard_2d (t : IntTy) (ht : Unsigned t ∨ Narrow t) (p : InPolicy Int) (n1 n2 : Nat)
    (vals : List Int) (hn : vals.length = n1 * n2) (hp : PolicyFor p vals.length)
    (hv : ∀ v ∈ vals, Fits t v) (outp : OutPolicy Int) (c : Cell Int) :
    ∃ c', aggregateSeq2d (sumAcc .discard t) p vals n1 n2 outp c = some c' ∧
      (validList p vals ≠ [] →
        c'.masked = c.masked ∧ ModuloOf t (validList p vals).sum c'.val) ∧
      (validList p vals = [] → Marked outp c c') := by
  rw [aggregateSeq2d_eq _ hn (sum_firstInRange _ _ _ hv) hp]
  exact sum_store_discard ht _ (fits_valid hv) outp c

example : aggregateSeq2d (sumAcc .discard u8) (.detect (· == 255)) [255, 255, 200, 100] 2 2 .dontMark
    ⟨0, false⟩ = some ⟨44, false⟩ := by decide

/-! ### C36 -/

/-- C36: for an accumulator that is always within range, and for which merging amounts to adding the
other's values, the parallel 1D operation gives the result of the sequential one, for every number of
threads. -/
theorem C36_parallel_1d {S V R : Type} (A : Accumulator S V R) (P : S → Prop) (Q : V → Prop)
    (f : S → V → S) (m : S → S → S) (hA : PureAccumulator A P Q f m) (p : InPolicy V)
    (vals : List V) (hv : ∀ v ∈ vals, Q v) (hp : PolicyFor p vals.length) (t : Nat) (ht : 1 ≤ t)
    (outp : OutPolicy R) (c : Cell R) :
    aggregatePar1d A p vals t outp c = aggregateSeq1d A p vals outp c := by
  obtain ⟨vss, hf, h⟩ := aggregatePar1d_eq A hp ht
  rw [h, hA.store vss, hf, aggregateSeq1d_eq A hp]
  intro v hvm
  rw [hf] at hvm
  exact hv v (mem_of_mem_valuesAt hvm)

/-- C36, 2D. -/
theorem C36_parallel_2d {S V R : Type} (A : Accumulator S V R) (P : S → Prop) (Q : V → Prop)
    (f : S → V → S) (m : S → S → S) (hA : PureAccumulator A P Q f m) (p : InPolicy V) (n1 n2 : Nat)
    (vals : List V) (hn : vals.length = n1 * n2) (hv : ∀ v ∈ vals, Q v)
    (hp : PolicyFor p vals.length) (t : Nat) (ht : 1 ≤ t) (outp : OutPolicy R) (c : Cell R) :
    aggregatePar2d A p vals t n1 n2 outp c = aggregateSeq2d A p vals n1 n2 outp c := by
  have hfr := hA.firstInRange vals hv
  obtain ⟨vss, hf, h⟩ := aggregatePar2d_eq A hn hfr hp ht
  rw [h, hA.store vss, hf, aggregateSeq2d_eq A hn hfr hp]
  intro v hvm
  rw [hf] at hvm
  exact hv v (mem_of_mem_valuesAt hvm)

private theorem sum_foldl {t : IntTy} (vs : List Int) {s : Int} (hs : Fits t s) :
    vs.foldl (fun s v => t.wrap (s + v)) s = t.wrap (s + vs.sum) := by
  induction vs generalizing s with
  | nil => simp [wrap_fits hs]
  | cons v vs ih =>
    rw [List.foldl_cons, ih (fits_wrap _ _), List.sum_cons]
    generalize vs.sum = z
    cases t <;>
      simp only [wrap_u8, wrap_u16, wrap_u32, wrap_u64, wrap_i8, wrap_i16, wrap_i32, wrap_i64] <;>
      omega

/-- The sum with discarded range errors is such an accumulator. -/
theorem C36_sum_discard (t : IntTy) (ht : Unsigned t ∨ Narrow t) :
    PureAccumulator (sumAcc .discard t) (Fits t) (Fits t) (fun s v => t.wrap (s + v))
      (fun s s' => t.wrap (s + s')) where
  init := fits_zero t
  step _ _ _ _ := fits_wrap _ _
  add _ _ hs hv := sumAdd_discard ht hs hv
  merge _ _ hs hs' := sumAdd_discard ht hs hs'
  hom s vs hs hvs := by
    rw [sum_foldl vs hs, show (sumAcc .discard t).init = 0 from rfl, sum_foldl vs (fits_zero t),
      Int.zero_add]
    generalize vs.sum = z
    cases t <;>
      simp only [wrap_u8, wrap_u16, wrap_u32, wrap_u64, wrap_i8, wrap_i16, wrap_i32, wrap_i64] <;>
      omega

example : aggregatePar1d (sumAcc .discard u8) (.detect (· == 255)) [255, 255, 200, 100, 1] 2
      (.markValue 255) ⟨0, false⟩ = some ⟨45, false⟩ ∧
    aggregatePar2d (sumAcc .discard u8) (.detect (· == 255)) [255, 255, 200, 100, 1, 255] 4 3 2
      (.markValue 255) ⟨0, false⟩ = some ⟨45, false⟩ := by decide

private theorem sum_store_unsigned {t : IntTy} (ht : Unsigned t) (vss : List (List Int))
    (hv : ∀ v ∈ vss.flatten, Fits t v) (outp : OutPolicy Int) (c : Cell Int) :
    ((vss.mapM (aggregated (sumAcc .detect t))).bind (fun bs =>
      (mergeBlocks (sumAcc .detect t) bs ⟨false, false, (sumAcc .detect t).init⟩).bind
        (fun a => storeAggregate (sumAcc .detect t) outp a c))) =
    (aggregated (sumAcc .detect t) vss.flatten).bind
      (fun a => storeAggregate (sumAcc .detect t) outp a c) := by
  have hs := (unsigned_iff t).1 ht
  have hv' : ∀ vs ∈ vss, ∀ v ∈ vs, Fits t v := fun l hl v h =>
    hv v (List.mem_flatten.2 ⟨l, hl, h⟩)
  obtain ⟨bs, hbs, hfa⟩ := mapM_exists (l := vss) (P := SumBlock t)
    (fun vs hvs => sum_aggregated hs vs (hv' vs hvs))
  obtain ⟨r, h1, h2, h3⟩ := sum_mergeBlocks hs vss hv' bs hfa
    ⟨false, false, (sumAcc .detect t).init⟩ (fits_zero t)
  obtain ⟨b, hb1, hb2, hb3, hb4⟩ := sum_aggregated hs vss.flatten hv
  rw [hbs, hb1]
  simp only [Option.bind_some, h1]
  simp only [show (sumAcc .detect t).init = 0 from rfl, Int.zero_add] at h2 h3
  by_cases hf : Fits t vss.flatten.sum
  · rw [h2 hf]
    simp only [storeAggregate, hb2, hb3.2 hf, hb4 (hb3.2 hf), Bool.false_or, Bool.and_self,
      Bool.and_true]
  · have : b.withinRange = false := by
      cases h : b.withinRange
      · rfl
      · exact absurd (hb3.1 h) hf
    simp [storeAggregate, h3 hf, this]

/-- C36, unsigned sums: also with range detection the parallel result is the sequential one. -/
theorem C36_sum_unsigned_1d (t : IntTy) (ht : Unsigned t) (p : InPolicy Int) (vals : List Int)
    (hp : PolicyFor p vals.length) (hv : ∀ v ∈ vals, Fits t v) (nt : Nat) (hnt : 1 ≤ nt)
    (outp : OutPolicy Int) (c : Cell Int) :
    aggregatePar1d (sumAcc .detect t) p vals nt outp c =
      aggregateSeq1d (sumAcc .detect t) p vals outp c := by
  obtain ⟨vss, hf, h⟩ := aggregatePar1d_eq (sumAcc .detect t) hp hnt
  rw [h, sum_store_unsigned ht vss (by rw [hf]; exact fits_valid hv), hf, aggregateSeq1d_eq _ hp]

/-- C36, unsigned sums of 2D arrays. -/
theorem C36_sum_unsigned_2d (t : IntTy) (ht : Unsigned t) (p : InPolicy Int) (n1 n2 : Nat)
    (vals : List Int) (hn : vals.length = n1 * n2) (hp : PolicyFor p vals.length)
    (hv : ∀ v ∈ vals, Fits t v) (nt : Nat) (hnt : 1 ≤ nt) (outp : OutPolicy Int) (c : Cell Int) :
    aggregatePar2d (sumAcc .detect t) p vals nt n1 n2 outp c =
      aggregateSeq2d (sumAcc .detect t) p vals n1 n2 outp c := by
  have hfr := sum_firstInRange .detect t vals hv
  obtain ⟨vss, hf, h⟩ := aggregatePar2d_eq (sumAcc .detect t) hn hfr hp hnt
  rw [h, sum_store_unsigned ht vss (by rw [hf]; exact fits_valid hv), hf,
    aggregateSeq2d_eq _ hn hfr hp]

example : aggregatePar1d (sumAcc .detect u8) (.detect (· == 255)) [255, 255, 200, 50, 1] 2
      (.markValue 255) ⟨0, false⟩ = some ⟨251, false⟩ ∧
    aggregatePar1d (sumAcc .detect u8) (.detect (· == 254)) [254, 254, 200, 50, 7] 2
      (.markValue 254) ⟨0, false⟩ = some ⟨254, false⟩ := by decide

/-- C36: with range detection and signed values the two may differ. The sequential sum of
`-100, -20, 100, 100` is 80; the second of two blocks adds `100 + 100`, which is out of range. And the
other way round for `100, 20, 10, -20` in blocks `100, 20` and `10, -20`. -/
theorem C36_sum_signed_false :
    ∃ (vals vals' : List Int), (∀ v ∈ vals ++ vals', Fits i8 v) ∧
      aggregateSeq1d (sumAcc .detect i8) .skip vals .markMask ⟨0, false⟩ = some ⟨80, false⟩ ∧
      aggregatePar1d (sumAcc .detect i8) .skip vals 2 .markMask ⟨0, false⟩ = some ⟨0, true⟩ ∧
      aggregateSeq1d (sumAcc .detect i8) .skip vals' .markMask ⟨0, false⟩ = some ⟨0, true⟩ ∧
      aggregatePar1d (sumAcc .detect i8) .skip vals' 2 .markMask ⟨0, false⟩ = some ⟨110, false⟩ :=
  ⟨[-100, -20, 100, 100], [100, 20, 10, -20], by decide, by decide, by decide, by decide, by decide⟩

/-! ### C37 -/

section

variable {V : Type} [DecidableEq V]

private theorem fits_count {r : IntTy} {n : Nat} (hr : Fits r n) {vs : List V} (h : vs.length ≤ n)
    (v : V) : Fits r (vs.count v : Nat) :=
  fits_between (fits_zero r) hr (by omega) (by have := List.count_le_length (a := v) (l := vs); omega)

/-- C37: in 1D, `count` is the number of valid elements equal to the value; no-data iff there is no
valid element. The number of elements must be a value of the result type. -/
theorem C37_count_1d (r : IntTy) (p : InPolicy V) (vals : List V) (v : V)
    (hp : PolicyFor p vals.length) (hr : Fits r vals.length) (outp : OutPolicy Int) (c : Cell Int) :
    ∃ c', binarySeq1d (countAgg r) p vals v outp c = some c' ∧
      (validList p vals ≠ [] → Assigned (((validList p vals).count v : Nat) : Int) c c') ∧
      (validList p vals = [] → Marked outp c c') := by
  have hlen := valuesAt_length_le p vals (List.range vals.length)
  have e : (⟨0, vals.length⟩ : IndexRange).indices = List.range vals.length := by
    simp [IndexRange.indices, List.range_eq_range']
  have h := count_binary1d (r := r) (value := v) hp ⟨0, vals.length⟩ le_rfl
    (by rw [e]; exact fits_count hr (by simpa using hlen) v) c.val
  rw [e] at h
  simp only [binarySeq1d, h]
  by_cases hv : validList p vals = []
  · refine ⟨outp.mark c, ?_, fun h => absurd hv h, fun _ => mark_spec _ _⟩
    rw [validList] at hv
    simp [hv, BinaryResult.store]
  · refine ⟨⟨((validList p vals).count v : Nat), c.masked⟩, ?_, fun _ => ⟨rfl, rfl⟩,
      fun h => absurd h hv⟩
    rw [validList] at hv
    simp [hv, BinaryResult.store, validList]

example : binarySeq1d (countAgg (V := Int) u64) (.detect (· == -9)) [-9, 3, 5, -9, 3] 3 .markMask
    ⟨7, false⟩ = some ⟨2, false⟩ := by decide

private theorem count_seq2d (r : IntTy) (p : InPolicy V) (n1 n2 : Nat) (vals : List V) (v : V)
    (hn : vals.length = n1 * n2) (hp : PolicyFor p vals.length) (hr : Fits r vals.length)
    (outp : OutPolicy Int) (c : Cell Int) :
    binarySeq2d (countAgg r) p vals v n1 n2 outp c =
      some (if valuesAt p vals (List.range (min 1 n1 * n2)) = [] then outp.mark c
        else ⟨((validList p vals).count v : Nat), c.masked⟩) := by
  have hlen := valuesAt_length_le p vals (List.range vals.length)
  have h := count_binary2d (r := r) (value := v) hp n2 ⟨⟨0, n1⟩, ⟨0, n2⟩⟩ (Nat.zero_le _)
    (inBounds_rows hn ⟨0, n1⟩ le_rfl)
    (by rw [cells2d_all, ← hn]; exact fits_count hr (by simpa using hlen) v) c.val
  simp only [Nat.zero_add] at h
  rw [cells2d_all, cells2d_all, ← hn] at h
  simp only [binarySeq2d, h, validList]
  split <;> simp [BinaryResult.store]

/-- C37: in 2D, the same holds if the first row has a valid element. -/
theorem C37_count_2d (r : IntTy) (p : InPolicy V) (n1 n2 : Nat) (vals : List V) (v : V)
    (hn : vals.length = n1 * n2) (hp : PolicyFor p vals.length) (hr : Fits r vals.length)
    (hfirst : ∃ j, j < n2 ∧ 0 < n1 ∧ ¬ NoDataAt p vals j) (outp : OutPolicy Int) (c : Cell Int) :
    ∃ c', binarySeq2d (countAgg r) p vals v n1 n2 outp c = some c' ∧
      Assigned (((validList p vals).count v : Nat) : Int) c c' := by
  obtain ⟨j, hj, h1, hnd⟩ := hfirst
  rw [count_seq2d r p n1 n2 vals v hn hp hr]
  have hlen : j < vals.length := by
    rw [hn]; exact lt_of_lt_of_le hj (Nat.le_mul_of_pos_left n2 h1)
  have : valuesAt p vals (List.range (min 1 n1 * n2)) ≠ [] := by
    have hm : vals[j] ∈ valuesAt p vals (List.range (min 1 n1 * n2)) :=
      mem_valuesAt.2 ⟨j, by simp [show min 1 n1 = 1 by omega, hj], hnd, by simp [hlen]⟩
    intro h0; rw [h0] at hm; simp at hm
  rw [if_neg this]
  exact ⟨_, rfl, rfl, rfl⟩

example : binarySeq2d (countAgg (V := Int) u64) (.detect (· == -9)) [-9, 3, -9, -9, 5, 3] 3 3 2 .markMask
    ⟨7, false⟩ = some ⟨2, false⟩ := by decide

/-- C37: in 2D, when the first row has no valid element, the result is marked as no-data, whatever is
in the other rows. -/
theorem C37_count_2d_first_row (r : IntTy) (p : InPolicy V) (n1 n2 : Nat) (vals : List V) (v : V)
    (hn : vals.length = n1 * n2) (hp : PolicyFor p vals.length) (hr : Fits r vals.length)
    (hfirst : ∀ j, j < n2 → 0 < n1 → NoDataAt p vals j) (outp : OutPolicy Int) (c : Cell Int) :
    ∃ c', binarySeq2d (countAgg r) p vals v n1 n2 outp c = some c' ∧ Marked outp c c' := by
  rw [count_seq2d r p n1 n2 vals v hn hp hr, if_pos]
  · exact ⟨_, rfl, mark_spec _ _⟩
  · rw [List.eq_nil_iff_forall_not_mem]
    intro a ha
    obtain ⟨i, hi, hnd, -⟩ := mem_valuesAt.1 ha
    have hi : i < min 1 n1 * n2 := by simpa using hi
    have h1 : 0 < n1 := by
      rcases Nat.eq_zero_or_pos n1 with rfl | h
      · simp at hi
      · exact h
    rw [show min 1 n1 = 1 by omega, Nat.one_mul] at hi
    exact hnd (hfirst i hi h1)

/-- C37 does not hold in 2D: in `[[no-data, no-data], [3, 5]]` there is one 3, but the result is
marked as no-data. -/
theorem C37_count_2d_false :
    ∃ (vals : List Int), vals.length = 2 * 2 ∧
      (validList (.detect (· == -9)) vals).count 3 = 1 ∧
      binarySeq2d (countAgg u64) (.detect (· == -9)) vals 3 2 2 .markMask ⟨7, false⟩ =
        some ⟨7, true⟩ :=
  ⟨[-9, -9, 3, 5], rfl, by decide, by decide⟩

private theorem filterMap_range {α : Type} (vals : List α) :
    List.filterMap (fun i => vals[i]?) (List.range vals.length) = vals := by
  induction vals using List.reverseRecOn with
  | nil => simp
  | append_singleton l a ih =>
    have : List.filterMap (fun i => (l ++ [a])[i]?) (List.range l.length) =
        List.filterMap (fun i => l[i]?) (List.range l.length) := by
      apply List.filterMap_congr
      intro j hj
      rw [List.getElem?_append_left (by simpa using hj)]
    rw [List.length_append, List.length_singleton, List.range_succ, List.filterMap_append, this, ih]
    simp

private theorem validValues_all {α : Type} {p : InPolicy α} {vals : List α}
    (h : ∀ i < vals.length, ¬ NoDataAt p vals i) : validList p vals = vals := by
  conv_rhs => rw [← filterMap_range vals]
  apply List.filterMap_congr
  intro i hi
  rw [if_neg (h i (by simpa using hi))]

private theorem validValues_skip {α : Type} (vals : List α) : validList .skip vals = vals :=
  validValues_all (fun _ _ h => h)

private theorem marks_foldl (outp : OutPolicy Int) (bs : List (BinaryResult Int)) (c : Cell Int) :
    bs.foldl (fun c b => if b.marked then outp.mark c else c) c =
      if ∃ b ∈ bs, b.marked = true then outp.mark c else c := by
  have hm : ∀ c, outp.mark (outp.mark c) = outp.mark c := fun c => by cases outp <;> rfl
  induction bs generalizing c with
  | nil => simp
  | cons b bs ih =>
    rw [List.foldl_cons, ih]
    by_cases hb : b.marked = true
    · by_cases h : ∃ b ∈ bs, b.marked = true <;> simp [hb, h, hm]
    · simp [hb]

/-- Summing the counts of the blocks. -/
private theorem sum_counts (r : IntTy) (ns : List Int) (h0 : ∀ n ∈ ns, 0 ≤ n) (hr : Fits r ns.sum)
    (hne : ns ≠ []) (outp : OutPolicy Int) (c : Cell Int) :
    aggregateSeq1d (sumAcc .discard r) .skip ns outp c = some ⟨ns.sum, c.masked⟩ := by
  have hsub : ∀ l : List Int, (∀ n ∈ l, n ∈ ns) → 0 ≤ l.sum := fun l hl =>
    List.sum_nonneg (fun n hn => h0 n (hl n hn))
  have hpart : ∀ k, Fits r (0 + (ns.take k).sum) := fun k => by
    have h1 : ns.sum = (ns.take k).sum + (ns.drop k).sum := by
      rw [← List.sum_append, List.take_append_drop]
    have h2 := hsub (ns.take k) (fun n hn => List.mem_of_mem_take hn)
    have h3 := hsub (ns.drop k) (fun n hn => List.mem_of_mem_drop hn)
    exact fits_between (fits_zero r) hr (by omega) (by omega)
  have hfit : ∀ n ∈ ns, Fits r n := fun n hn => by
    obtain ⟨k, hk, rfl⟩ := List.getElem_of_mem hn
    have h1 : ns.sum = (ns.take k).sum + ns[k] + (ns.drop (k + 1)).sum := by
      have e : ns = ns.take k ++ ns[k] :: ns.drop (k + 1) := by
        rw [← List.drop_eq_getElem_cons hk, List.take_append_drop]
      have := congrArg List.sum e
      rw [List.sum_append, List.sum_cons] at this
      omega
    have h2 := hsub (ns.take k) (fun n hn => List.mem_of_mem_take hn)
    have h3 := hsub (ns.drop (k + 1)) (fun n hn => List.mem_of_mem_drop hn)
    exact fits_between (fits_zero r) hr (h0 _ hn) (by omega)
  have hall : addAll (sumAcc .discard r) ns 0 = some (true, ns.sum) := by
    by_cases hw : Wraps r
    · rw [sum_addAll_discard hw ns hfit (fits_zero r), Int.zero_add, wrap_fits hr]
    · rw [(sum_addAll_wide .discard hw ns hfit (fits_zero r)).1 hpart, Int.zero_add]
  rw [aggregateSeq1d_eq _ (by trivial), validValues_skip]
  cases ns with
  | nil => exact absurd rfl hne
  | cons n ns =>
    simp only [aggregated, show (sumAcc .discard r).init = 0 from rfl, hall]
    rfl

private theorem count_flatten (vss : List (List V)) (v : V) :
    (vss.map (fun vs => ((vs.count v : Nat) : Int))).sum = (vss.flatten.count v : Nat) := by
  induction vss with
  | nil => rfl
  | cons vs vss ih => simp [ih]

/-- C37: the parallel 1D operation. The value is the number of valid elements equal to `v`, and the
result is not marked, if each of the blocks in which the array is divided has a valid element. -/
theorem C37_count_par_1d (r : IntTy) (p : InPolicy V) (vals : List V) (v : V)
    (hp : PolicyFor p vals.length) (hr : Fits r vals.length) (h0 : 0 < vals.length) (t : Nat)
    (ht : 1 ≤ t) (hblocks : ∀ l, indexRanges t vals.length = some l → ∀ rg ∈ l,
      ∃ i, InRange i rg ∧ ¬ NoDataAt p vals i) (outp : OutPolicy Int) (c : Cell Int) :
    ∃ c', binaryPar1d (countAgg r) p vals v (sumAcc .discard r) 0 t outp c = some c' ∧
      Assigned (((validList p vals).count v : Nat) : Int) c c' := by
  obtain ⟨l, hl, hc⟩ := indexRanges_consecutive ht vals.length
  have hflat : (l.map (fun rg => valuesAt p vals rg.indices)).flatten = validList p vals := by
    have := blockValues_flatten p vals (l.map IndexRange.indices)
      (by rw [← indexRanges_flatten hl, List.flatMap_def])
    simpa [blockValues, Function.comp_def] using this
  have hcnt : Fits r ((validList p vals).count v : Nat) :=
    fits_count hr (by simpa [validList] using valuesAt_length_le p vals (List.range vals.length)) v
  have hb : ∀ rg ∈ l, binary1d (countAgg r) p vals v rg 0 =
      some ⟨((valuesAt p vals rg.indices).count v : Nat), false⟩ := by
    intro rg hrg
    have hle := range_le_of_indexRanges ht hl hrg
    obtain ⟨i, hi, hnd⟩ := hblocks l hl rg hrg
    have hi2 : i < vals.length := lt_of_lt_of_le hi.2 hle.2
    have hne : valuesAt p vals rg.indices ≠ [] := by
      have hm : vals[i] ∈ valuesAt p vals rg.indices :=
        mem_valuesAt.2 ⟨i, by simp only [IndexRange.indices, List.mem_range'_1];
                              have := hi.1; have := hi.2; omega, hnd, by simp [hi2]⟩
      intro h; rw [h] at hm; simp at hm
    have hlen := valuesAt_length_le p vals rg.indices
    rw [count_binary1d hp rg hle.2 (fits_count hr (by
      simp only [IndexRange.indices, List.length_range'] at hlen ⊢; omega) v), if_neg hne]
  have hne : l ≠ [] := by
    rintro rfl
    simp only [Consecutive] at hc
    omega
  refine ⟨⟨((validList p vals).count v : Nat), c.masked⟩, ?_, rfl, rfl⟩
  simp only [binaryPar1d, hl, Option.bind_eq_bind, Option.bind_some, mapM_some_of hb, binaryPar,
    marks_foldl]
  rw [if_neg (by simp)]
  rw [List.map_map]
  have hsum : (List.map (BinaryResult.result ∘ fun rg : IndexRange =>
      ⟨(((valuesAt p vals rg.indices).count v : Nat) : Int), false⟩) l).sum =
      (((validList p vals).count v : Nat) : Int) := by
    rw [← hflat, ← count_flatten, List.map_map]
    rfl
  rw [sum_counts r _ (by simp) (by rw [hsum]; exact hcnt) (by simpa using hne), hsum]

example : binaryPar1d (countAgg (V := Int) u64) (.detect (· == -9)) [3, -9, 5, 3] 3 (sumAcc .discard u64)
    0 2 .markMask ⟨7, false⟩ = some ⟨2, false⟩ := by decide

/-- C37: the parallel 1D operation, whatever the no-data elements are. The value is always the number of
valid elements equal to `v`. The mask is set iff some block has no valid element; if no-data is marked
otherwise, no trace of that is left. -/
theorem C37_count_par_1d_blocks (r : IntTy) (p : InPolicy V) (vals : List V) (v : V)
    (hp : PolicyFor p vals.length) (hr : Fits r vals.length) (h0 : 0 < vals.length) (t : Nat)
    (ht : 1 ≤ t) (l : List IndexRange) (hl : indexRanges t vals.length = some l)
    (outp : OutPolicy Int) (c : Cell Int) :
    ∃ c', binaryPar1d (countAgg r) p vals v (sumAcc .discard r) 0 t outp c = some c' ∧
      c'.val = (((validList p vals).count v : Nat) : Int) ∧
      (c'.masked = true ↔ c.masked = true ∨
        outp = .markMask ∧ ∃ rg ∈ l, ∀ i, InRange i rg → NoDataAt p vals i) := by
  obtain ⟨l', hl', hc⟩ := indexRanges_consecutive ht vals.length
  rw [hl] at hl'
  obtain rfl := Option.some.inj hl'
  have hflat : (l.map (fun rg => valuesAt p vals rg.indices)).flatten = validList p vals := by
    have := blockValues_flatten p vals (l.map IndexRange.indices)
      (by rw [← indexRanges_flatten hl, List.flatMap_def])
    simpa [blockValues, Function.comp_def] using this
  have hcnt : Fits r ((validList p vals).count v : Nat) :=
    fits_count hr (by simpa [validList] using valuesAt_length_le p vals (List.range vals.length)) v
  have hb : ∀ rg ∈ l, binary1d (countAgg r) p vals v rg 0 =
      some ⟨((valuesAt p vals rg.indices).count v : Nat),
        decide (valuesAt p vals rg.indices = [])⟩ := by
    intro rg hrg
    have hle := range_le_of_indexRanges ht hl hrg
    have hlen := valuesAt_length_le p vals rg.indices
    rw [count_binary1d hp rg hle.2 (fits_count hr (by
      simp only [IndexRange.indices, List.length_range'] at hlen ⊢; omega) v)]
    split_ifs with h
    · simp [h]
    · simp [h]
  have hempty : ∀ rg ∈ l, valuesAt p vals rg.indices = [] ↔ ∀ i, InRange i rg → NoDataAt p vals i := by
    intro rg hrg
    have hle := range_le_of_indexRanges ht hl hrg
    constructor
    · intro h i hi
      by_contra hnd
      have hi2 : i < vals.length := lt_of_lt_of_le hi.2 hle.2
      have hm : vals[i] ∈ valuesAt p vals rg.indices :=
        mem_valuesAt.2 ⟨i, by simp only [IndexRange.indices, List.mem_range'_1];
                              have := hi.1; have := hi.2; omega, hnd, by simp [hi2]⟩
      rw [h] at hm
      simp at hm
    · intro h
      refine List.eq_nil_iff_forall_not_mem.mpr (fun x hx => ?_)
      obtain ⟨i, hi, hnd, -⟩ := mem_valuesAt.1 hx
      simp only [IndexRange.indices, List.mem_range'_1] at hi
      exact hnd (h i ⟨hi.1, by omega⟩)
  have hne : l ≠ [] := by
    rintro rfl
    simp only [Consecutive] at hc
    omega
  have hsum : (List.map (BinaryResult.result ∘ fun rg : IndexRange =>
      ⟨(((valuesAt p vals rg.indices).count v : Nat) : Int),
        decide (valuesAt p vals rg.indices = [])⟩) l).sum =
      (((validList p vals).count v : Nat) : Int) := by
    rw [← hflat, ← count_flatten, List.map_map]
    rfl
  have hex : (∃ b ∈ l.map (fun rg : IndexRange => (⟨((valuesAt p vals rg.indices).count v : Nat),
      decide (valuesAt p vals rg.indices = [])⟩ : BinaryResult Int)), b.marked = true) ↔
      ∃ rg ∈ l, ∀ i, InRange i rg → NoDataAt p vals i := by
    constructor
    · rintro ⟨b, hb, hm⟩
      obtain ⟨rg, hrg, rfl⟩ := List.mem_map.1 hb
      exact ⟨rg, hrg, (hempty rg hrg).1 (by simpa using hm)⟩
    · rintro ⟨rg, hrg, h⟩
      exact ⟨_, List.mem_map.2 ⟨rg, hrg, rfl⟩, by simpa using (hempty rg hrg).2 h⟩
  classical
  refine ⟨⟨((validList p vals).count v : Nat),
    (if ∃ rg ∈ l, ∀ i, InRange i rg → NoDataAt p vals i then outp.mark c else c).masked⟩, ?_, rfl, ?_⟩
  · simp only [binaryPar1d, hl, Option.bind_eq_bind, Option.bind_some, mapM_some_of hb, binaryPar,
      marks_foldl, hex]
    rw [List.map_map, sum_counts r _ (by simp) (by rw [hsum]; exact hcnt) (by simpa using hne), hsum]
  · by_cases h : ∃ rg ∈ l, ∀ i, InRange i rg → NoDataAt p vals i
    · simp only [if_pos h, h, and_true]
      cases outp <;> simp [OutPolicy.mark]
    · simp [if_neg h, h]

/-- C37: without no-data elements the parallel 1D operation is right. -/
theorem C37_count_par_1d_no_no_data (r : IntTy) (p : InPolicy V) (vals : List V) (v : V)
    (hp : PolicyFor p vals.length) (hr : Fits r vals.length) (h0 : 0 < vals.length) (t : Nat)
    (ht : 1 ≤ t) (hnd : ∀ i < vals.length, ¬ NoDataAt p vals i) (outp : OutPolicy Int)
    (c : Cell Int) :
    ∃ c', binaryPar1d (countAgg r) p vals v (sumAcc .discard r) 0 t outp c = some c' ∧
      Assigned ((vals.count v : Nat) : Int) c c' := by
  have hvv : validList p vals = vals := validValues_all hnd
  have := C37_count_par_1d r p vals v hp hr h0 t ht (fun l hl rg hrg => by
    obtain ⟨l', hl', hc⟩ := indexRanges_consecutive ht vals.length
    rw [hl] at hl'
    obtain rfl := Option.some.inj hl'
    obtain ⟨k, hk, rfl⟩ := List.getElem_of_mem hrg
    have := hc.bounds k hk
    exact ⟨l[k].b, ⟨le_rfl, this.2.1⟩, hnd _ (by omega)⟩) outp c
  rwa [hvv] at this

/-- C37 does not hold for the parallel operation: when a block has no valid element the result is
masked, although `[no-data, no-data, 3, 5]` contains a 3; and when the result is marked by its value
instead, an array without valid elements gives 0 instead of no-data. -/
theorem C37_count_par_1d_false :
    binaryPar1d (countAgg (V := Int) u64) (.detect (· == -9)) [-9, -9, 3, 5] 3 (sumAcc .discard u64)
      0 2 .markMask ⟨7, false⟩ = some ⟨1, true⟩ ∧
    binaryPar1d (countAgg (V := Int) u64) (.detect (· == -9)) [-9, -9] 3 (sumAcc .discard u64)
      0 2 (.markValue 255) ⟨7, false⟩ = some ⟨0, false⟩ := by decide

/-- C37: the parallel 2D operation, if the first row of each band of rows has a valid element. -/
theorem C37_count_par_2d (r : IntTy) (p : InPolicy V) (n1 n2 : Nat) (vals : List V) (v : V)
    (hn : vals.length = n1 * n2) (hp : PolicyFor p vals.length) (hr : Fits r vals.length)
    (h0 : 0 < n1) (t : Nat) (ht : 1 ≤ t)
    (hblocks : ∀ l, indexRanges t n1 = some l → ∀ rg ∈ l,
      ∃ j, j < n2 ∧ ¬ NoDataAt p vals (rg.b * n2 + j)) (outp : OutPolicy Int) (c : Cell Int) :
    ∃ c', binaryPar2d (countAgg r) p vals v (sumAcc .discard r) 0 t n1 n2 outp c = some c' ∧
      Assigned (((validList p vals).count v : Nat) : Int) c c' := by
  obtain ⟨l, hl, hc⟩ := indexRanges_consecutive ht n1
  have hl2 : indexRanges2 t n1 n2 = some (l.map (fun r => ⟨r, ⟨0, n2⟩⟩)) := by
    rw [indexRanges2_eq, hl]; rfl
  have hflat : (l.map (fun rg => valuesAt p vals (cells2d n2 ⟨rg, ⟨0, n2⟩⟩))).flatten =
      validList p vals := by
    have := blockValues_flatten p vals ((l.map (fun r => IndexRanges2.mk r ⟨0, n2⟩)).map (cells2d n2))
      (by rw [← List.flatMap_def, indexRanges2_flatten hl2, hn])
    simpa [blockValues, Function.comp_def] using this
  have hcnt : Fits r ((validList p vals).count v : Nat) :=
    fits_count hr (by simpa [validList] using valuesAt_length_le p vals (List.range vals.length)) v
  have hb : ∀ rg ∈ l, binary2d (countAgg r) p vals v n2 ⟨rg, ⟨0, n2⟩⟩ 0 =
      some ⟨((valuesAt p vals (cells2d n2 ⟨rg, ⟨0, n2⟩⟩)).count v : Nat), false⟩ := by
    intro rg hrg
    have hle := range_le_of_indexRanges ht hl hrg
    obtain ⟨k, hk, hkk⟩ := List.getElem_of_mem hrg
    have hbd := hc.bounds k hk
    rw [hkk] at hbd
    obtain ⟨j, hj, hnd⟩ := hblocks l hl rg hrg
    have hi2 : rg.b * n2 + j < vals.length := by
      have : (rg.b + 1) * n2 ≤ n1 * n2 := Nat.mul_le_mul_right _ (by omega)
      rw [Nat.add_mul, Nat.one_mul] at this
      omega
    have hne : valuesAt p vals (cells2d n2 ⟨⟨rg.b, min (rg.b + 1) rg.e⟩, ⟨0, n2⟩⟩) ≠ [] := by
      have hm : vals[rg.b * n2 + j] ∈
          valuesAt p vals (cells2d n2 ⟨⟨rg.b, min (rg.b + 1) rg.e⟩, ⟨0, n2⟩⟩) := by
        refine mem_valuesAt.2 ⟨rg.b * n2 + j, ?_, hnd, by simp [hi2]⟩
        rw [show min (rg.b + 1) rg.e = rg.b + 1 by omega, cells2d_band]
        simp only [List.mem_range'_1, show rg.b + 1 - rg.b = 1 by omega]
        omega
      intro h; rw [h] at hm; simp at hm
    have hlen := valuesAt_length_le p vals (cells2d n2 ⟨rg, ⟨0, n2⟩⟩)
    have hlen2 : (cells2d n2 ⟨rg, ⟨0, n2⟩⟩).length ≤ vals.length := by
      rw [cells2d_band, List.length_range', hn]
      exact Nat.mul_le_mul_right _ (by omega)
    rw [count_binary2d hp n2 ⟨rg, ⟨0, n2⟩⟩ hle.1 (inBounds_rows hn rg hle.2)
      (fits_count hr (hlen.trans hlen2) v)]
    simp only
    rw [if_neg hne]
  have hne : l ≠ [] := by
    rintro rfl
    simp only [Consecutive] at hc
    omega
  refine ⟨⟨((validList p vals).count v : Nat), c.masked⟩, ?_, rfl, rfl⟩
  have hb2 : ∀ rg ∈ l.map (fun r => IndexRanges2.mk r ⟨0, n2⟩),
      binary2d (countAgg r) p vals v n2 rg 0 =
        some ⟨((valuesAt p vals (cells2d n2 rg)).count v : Nat), false⟩ := by
    intro rg hrg
    obtain ⟨rg', h', rfl⟩ := List.mem_map.1 hrg
    exact hb rg' h'
  simp only [binaryPar2d, hl2, Option.bind_eq_bind, Option.bind_some, mapM_some_of hb2, binaryPar,
    marks_foldl]
  rw [if_neg (by simp)]
  rw [List.map_map, List.map_map]
  have hsum : (List.map ((BinaryResult.result ∘ fun rg : IndexRanges2 =>
      ⟨(((valuesAt p vals (cells2d n2 rg)).count v : Nat) : Int), false⟩) ∘
        fun r => IndexRanges2.mk r ⟨0, n2⟩) l).sum =
      (((validList p vals).count v : Nat) : Int) := by
    rw [← hflat, ← count_flatten, List.map_map]
    rfl
  rw [sum_counts r _ (by simp) (by rw [hsum]; exact hcnt) (by simpa using hne), hsum]

example : binaryPar2d (countAgg (V := Int) u64) (.detect (· == -9)) [3, -9, 5, 3, -9, 3, -9, -9] 3
    (sumAcc .discard u64) 0 2 4 2 .markMask ⟨7, false⟩ = some ⟨3, false⟩ := by decide

/-- C37: the parallel 2D operation, whatever the no-data elements are. Only the bands of rows count whose first row has a valid
element. The mask is set iff there is another band; if no-data is marked otherwise, no trace of that is left. -/
theorem C37_count_par_2d_bands (r : IntTy) (p : InPolicy V) (n1 n2 : Nat) (vals : List V) (v : V)
    (hn : vals.length = n1 * n2) (hp : PolicyFor p vals.length) (hr : Fits r vals.length)
    (h0 : 0 < n1) (t : Nat) (ht : 1 ≤ t) (l : List IndexRange) (hl : indexRanges t n1 = some l)
    (outp : OutPolicy Int) (c : Cell Int) :
    ∃ c', binaryPar2d (countAgg r) p vals v (sumAcc .discard r) 0 t n1 n2 outp c = some c' ∧
      (open Classical in c'.val = (((l.flatMap fun rg => if ∀ j < n2, NoDataAt p vals (rg.b * n2 + j) then [] else
        valuesAt p vals (List.range' (rg.b * n2) ((rg.e - rg.b) * n2))).count v : Nat) : Int)) ∧
      (c'.masked = true ↔ c.masked = true ∨
        outp = .markMask ∧ ∃ rg ∈ l, ∀ j < n2, NoDataAt p vals (rg.b * n2 + j)) := by
  classical
  obtain ⟨l', hl', hc⟩ := indexRanges_consecutive ht n1
  rw [hl] at hl'
  obtain rfl := Option.some.inj hl'
  have hl2 : indexRanges2 t n1 n2 = some (l.map (fun r => ⟨r, ⟨0, n2⟩⟩)) := by
    rw [indexRanges2_eq, hl]; rfl
  have hflat : (l.map (fun rg => valuesAt p vals (cells2d n2 ⟨rg, ⟨0, n2⟩⟩))).flatten =
      validList p vals := by
    have := blockValues_flatten p vals ((l.map (fun r => IndexRanges2.mk r ⟨0, n2⟩)).map (cells2d n2))
      (by rw [← List.flatMap_def, indexRanges2_flatten hl2, hn])
    simpa [blockValues, Function.comp_def] using this
  have hempty : ∀ rg ∈ l, valuesAt p vals (cells2d n2 ⟨⟨rg.b, min (rg.b + 1) rg.e⟩, ⟨0, n2⟩⟩) = [] ↔
      ∀ j < n2, NoDataAt p vals (rg.b * n2 + j) := by
    intro rg hrg
    have hle := range_le_of_indexRanges ht hl hrg
    obtain ⟨k, hk, hkk⟩ := List.getElem_of_mem hrg
    have hbd := hc.bounds k hk
    rw [hkk] at hbd
    rw [show min (rg.b + 1) rg.e = rg.b + 1 by omega, cells2d_band, show rg.b + 1 - rg.b = 1 by omega, Nat.one_mul]
    constructor
    · intro h j hj
      by_contra hnd
      have hi2 : rg.b * n2 + j < vals.length := by
        have : (rg.b + 1) * n2 ≤ n1 * n2 := Nat.mul_le_mul_right _ (by omega)
        rw [Nat.add_mul, Nat.one_mul] at this
        omega
      have hm : vals[rg.b * n2 + j] ∈ valuesAt p vals (List.range' (rg.b * n2) n2) :=
        mem_valuesAt.2 ⟨rg.b * n2 + j, by simp only [List.mem_range'_1]; omega, hnd, by simp [hi2]⟩
      rw [h] at hm
      simp at hm
    · intro h
      refine List.eq_nil_iff_forall_not_mem.mpr (fun x hx => ?_)
      obtain ⟨i, hi, hnd, -⟩ := mem_valuesAt.1 hx
      simp only [List.mem_range'_1] at hi
      have := h (i - rg.b * n2) (by omega)
      rw [show rg.b * n2 + (i - rg.b * n2) = i by omega] at this
      exact hnd this
  have hcells : ∀ rg : IndexRange, cells2d n2 ⟨rg, ⟨0, n2⟩⟩ = List.range' (rg.b * n2) ((rg.e - rg.b) * n2) :=
    fun rg => cells2d_band n2 rg
  let chosen : IndexRange → List V := fun rg => if ∀ j < n2, NoDataAt p vals (rg.b * n2 + j) then [] else
    valuesAt p vals (List.range' (rg.b * n2) ((rg.e - rg.b) * n2))
  have hsub : ∀ m : List IndexRange, (m.flatMap chosen).length ≤
      ((m.map (fun rg => valuesAt p vals (cells2d n2 ⟨rg, ⟨0, n2⟩⟩))).flatten).length := by
    intro m
    induction m with
    | nil => simp
    | cons rg m ih =>
      have h1 : (chosen rg).length ≤ (valuesAt p vals (cells2d n2 ⟨rg, ⟨0, n2⟩⟩)).length := by
        rw [hcells]
        simp only [chosen]
        split_ifs <;> simp
      rw [List.flatMap_cons, List.map_cons, List.flatten_cons, List.length_append, List.length_append]
      omega
  have hcnt : Fits r ((l.flatMap chosen).count v : Nat) := by
    refine fits_count hr ((hsub l).trans ?_) v
    rw [hflat]
    simpa [validList] using valuesAt_length_le p vals (List.range vals.length)
  have hb : ∀ rg ∈ l, binary2d (countAgg r) p vals v n2 ⟨rg, ⟨0, n2⟩⟩ 0 =
      some ⟨((chosen rg).count v : Nat), decide (∀ j < n2, NoDataAt p vals (rg.b * n2 + j))⟩ := by
    intro rg hrg
    have hle := range_le_of_indexRanges ht hl hrg
    have hlen := valuesAt_length_le p vals (cells2d n2 ⟨rg, ⟨0, n2⟩⟩)
    have hlen2 : (cells2d n2 ⟨rg, ⟨0, n2⟩⟩).length ≤ vals.length := by
      rw [cells2d_band, List.length_range', hn]
      exact Nat.mul_le_mul_right _ (by omega)
    rw [count_binary2d hp n2 ⟨rg, ⟨0, n2⟩⟩ hle.1 (inBounds_rows hn rg hle.2)
      (fits_count hr (hlen.trans hlen2) v)]
    by_cases h : ∀ j < n2, NoDataAt p vals (rg.b * n2 + j)
    · have e : chosen rg = [] := if_pos h
      rw [if_pos ((hempty rg hrg).2 h), e, decide_eq_true h]
      rfl
    · have e : chosen rg = valuesAt p vals (List.range' (rg.b * n2) ((rg.e - rg.b) * n2)) := if_neg h
      rw [if_neg fun h' => h ((hempty rg hrg).1 h'), e, decide_eq_false h, hcells]
  have hb2 : ∀ rg ∈ l.map (fun r => IndexRanges2.mk r ⟨0, n2⟩),
      binary2d (countAgg r) p vals v n2 rg 0 =
        some ⟨((chosen rg.rows).count v : Nat), decide (∀ j < n2, NoDataAt p vals (rg.rows.b * n2 + j))⟩ := by
    intro rg hrg
    obtain ⟨rg', h', rfl⟩ := List.mem_map.1 hrg
    exact hb rg' h'
  have hne : l ≠ [] := by
    rintro rfl
    simp only [Consecutive] at hc
    omega
  have hsum : ∀ m : List IndexRange, (m.map fun rg => (((chosen rg).count v : Nat) : Int)).sum =
      (((m.flatMap chosen).count v : Nat) : Int) := by
    intro m
    induction m with
    | nil => simp
    | cons rg m ih =>
      rw [List.map_cons, List.sum_cons, ih, List.flatMap_cons, List.count_append]
      push_cast
      rfl
  have hex : (∃ b ∈ (l.map (fun r => IndexRanges2.mk r ⟨0, n2⟩)).map (fun rg : IndexRanges2 =>
      (⟨((chosen rg.rows).count v : Nat), decide (∀ j < n2, NoDataAt p vals (rg.rows.b * n2 + j))⟩ : BinaryResult Int)),
        b.marked = true) ↔ ∃ rg ∈ l, ∀ j < n2, NoDataAt p vals (rg.b * n2 + j) := by
    rw [List.map_map]
    constructor
    · rintro ⟨b, hb, hm⟩
      obtain ⟨rg, hrg, rfl⟩ := List.mem_map.1 hb
      exact ⟨rg, hrg, of_decide_eq_true hm⟩
    · rintro ⟨rg, hrg, h⟩
      exact ⟨_, List.mem_map.2 ⟨rg, hrg, rfl⟩, decide_eq_true h⟩
  refine ⟨⟨((l.flatMap chosen).count v : Nat),
    (if ∃ rg ∈ l, ∀ j < n2, NoDataAt p vals (rg.b * n2 + j) then outp.mark c else c).masked⟩, ?_, rfl, ?_⟩
  · simp only [binaryPar2d, hl2, Option.bind_eq_bind, Option.bind_some, mapM_some_of hb2, binaryPar,
      marks_foldl, hex]
    rw [List.map_map, List.map_map]
    have e : (List.map ((BinaryResult.result ∘ fun rg : IndexRanges2 => (⟨((chosen rg.rows).count v : Nat),
        decide (∀ j < n2, NoDataAt p vals (rg.rows.b * n2 + j))⟩ : BinaryResult Int)) ∘ fun r => IndexRanges2.mk r ⟨0, n2⟩) l).sum =
        (((l.flatMap chosen).count v : Nat) : Int) := hsum l
    rw [sum_counts r _ (by simp) (by rw [e]; exact hcnt) (by simpa using hne), e]
  · by_cases h : ∃ rg ∈ l, ∀ j < n2, NoDataAt p vals (rg.b * n2 + j)
    · simp only [if_pos h, h, and_true]
      cases outp <;> simp [OutPolicy.mark]
    · simp [if_neg h, h]

/-- Two bands, the first row of the first one without valid element: its 3 does not count, the result is masked. -/
example : binaryPar2d (countAgg (V := Int) u64) (.detect (· == -9)) [-9, -9, 5, 3, -9, 3, -9, -9] 3
    (sumAcc .discard u64) 0 2 4 2 .markMask ⟨7, false⟩ = some ⟨1, true⟩ := by decide

end

end Fern
