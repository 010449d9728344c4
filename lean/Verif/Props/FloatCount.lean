import Verif.Model.FloatCount
import Verif.Spec.FloatCount
import Verif.Props.Aggregate
import Mathlib.Data.Fintype.EquivFin
import Mathlib.Data.Rat.Cast.CharZero
/-
C37: counting floating point numbers, and counting in a single value.
-/
namespace Fern

open Spec IntTy Domains

section

variable {V R : Type} {B B' : BinaryAggregate V R} {p : InPolicy V} {vals : List V} {v v' : V}
  (hi : ∀ a ∈ vals, B.init a v = B'.init a v') (hc : ∀ a ∈ vals, ∀ x, B.calculate a v x = B'.calculate a v' x)
  (hw : ∀ a ∈ vals, ∀ x, B.withinRange a v x = B'.withinRange a v' x)

include hc hw

private theorem rest_congr : ∀ (l : List Nat) (x : R) (b : BinaryResult R),
    binaryRest B p vals v l x b = binaryRest B' p vals v' l x b
  | [], _, _ => rfl
  | i :: l, x, b => by
    simp only [binaryRest, rest_congr l]
    cases hn : vals[i]? with
    | none => rfl
    | some a =>
      have ha := List.mem_of_getElem? hn
      simp only [Option.bind_eq_bind, Option.bind_some, hc a ha, hw a ha]

private theorem contCols_congr : ∀ (k j i : Nat) (x : R) (b : BinaryResult R),
    binaryContCols B p vals v k j i x b = binaryContCols B' p vals v' k j i x b
  | 0, _, _, _, _ => rfl
  | k + 1, j, i, x, b => by
    simp only [binaryContCols, contCols_congr k]
    cases hn : vals[i]? with
    | none => rfl
    | some a =>
      have ha := List.mem_of_getElem? hn
      simp only [Option.bind_eq_bind, Option.bind_some, hc a ha, hw a ha]

private theorem contRows_congr (n : Nat) (cols : IndexRange) : ∀ (k i j : Nat) (x : R) (b : BinaryResult R),
    binaryContRows B p vals v n cols k i j x b = binaryContRows B' p vals v' n cols k i j x b
  | 0, _, _, _, _ => rfl
  | k + 1, i, j, x, b => by
    simp only [binaryContRows, contRows_congr n cols k, contCols_congr hc hw]

include hi

private theorem first_congr : ∀ (fuel : Nat) (l : List Nat) (seen : Bool) (b : BinaryResult R),
    binaryFirst B p vals v fuel l seen b = binaryFirst B' p vals v' fuel l seen b
  | _, [], _, _ => by simp only [binaryFirst]
  | 0, _ :: _, _, _ => rfl
  | fuel + 1, i :: l, seen, b => by
    simp only [binaryFirst, first_congr fuel, rest_congr hc hw]
    cases hn : vals[i]? with
    | none => rfl
    | some a => simp only [Option.bind_eq_bind, Option.bind_some, hi a (List.mem_of_getElem? hn)]

private theorem binary1d_congr (rg : IndexRange) (x : R) :
    binary1d B p vals v rg x = binary1d B' p vals v' rg x := by
  simp only [binary1d, first_congr hi hc hw]

omit hc hw in
private theorem initCols_congr : ∀ (k j i : Nat),
    binaryInitCols B p vals v k j i = binaryInitCols B' p vals v' k j i
  | 0, _, _ => rfl
  | k + 1, j, i => by
    simp only [binaryInitCols, initCols_congr k]
    cases hn : vals[i]? with
    | none => rfl
    | some a => simp only [Option.bind_eq_bind, Option.bind_some, hi a (List.mem_of_getElem? hn)]

omit hc hw in
private theorem initRows_congr (n : Nat) (cols : IndexRange) : ∀ (k i j : Nat),
    binaryInitRows B p vals v n cols k i j = binaryInitRows B' p vals v' n cols k i j
  | 0, _, _ => rfl
  | k + 1, i, j => by simp only [binaryInitRows, initRows_congr n cols k, initCols_congr hi]

private theorem binary2d_congr (n : Nat) (rg : IndexRanges2) (x : R) :
    binary2d B p vals v n rg x = binary2d B' p vals v' n rg x := by
  simp only [binary2d, initRows_congr hi, contRows_congr hc hw]

end

/-- Counting a value is counting one that is equal, in the sense of the specification, to the same elements. -/
private theorem representative (vals : List Flt) (v : Flt) :
    ∃ v', ∀ a ∈ vals, (Flt.eq a v = true ↔ a = v') ∧ (SameNumber a v ↔ a = v') := by
  by_cases hv : v = .nan
  · subst hv
    have : Infinite Flt := Infinite.of_injective (fun n : ℕ => Flt.fin (n : ℚ)) fun a b h => by
      simpa using h
    obtain ⟨w, hw⟩ := Infinite.exists_notMem_finset vals.toFinset
    rw [List.mem_toFinset] at hw
    refine ⟨w, fun a ha => ?_⟩
    have hne : a ≠ w := fun h => hw (h ▸ ha)
    refine ⟨⟨fun h => ?_, fun h => absurd h hne⟩, fun h => absurd h.2 h.1, fun h => absurd h hne⟩
    cases a <;> simp [Flt.eq] at h
  · refine ⟨v, fun a _ => ⟨?_, fun h => h.2, fun h => ⟨fun e => hv (h ▸ e), h⟩⟩⟩
    cases a <;> cases v <;> simp_all [Flt.eq]

/-- The arrays are counted as arrays of a type of which the values are equal to themselves. -/
private theorem transfer (r : IntTy) (vals : List Flt) (v : Flt) : ∃ v',
    (∀ a ∈ vals, (countFlt r).init a v = (countAgg r).init a v') ∧
    (∀ a ∈ vals, ∀ x, (countFlt r).calculate a v x = (countAgg r).calculate a v' x) ∧
    (∀ a ∈ vals, ∀ x, (countFlt r).withinRange a v x = (countAgg r).withinRange a v' x) ∧
    ∀ l : List Flt, (∀ a ∈ l, a ∈ vals) → l.count v' = occurrences l v := by
  obtain ⟨v', h⟩ := representative vals v
  refine ⟨v', fun a ha => ?_, fun a ha x => ?_, fun _ _ _ => rfl, fun l hl => ?_⟩
  · simp only [countFlt, countAgg, (h a ha).1]
  · simp only [countFlt, countAgg, (h a ha).1]
  · rw [List.count, List.countP_eq_length_filter, occurrences]
    congr 1
    refine List.filter_congr fun a ha => ?_
    rw [Bool.eq_iff_iff]
    simp [(h a (hl a ha)).2]

private theorem mem_valid {p : InPolicy Flt} {vals : List Flt} : ∀ a ∈ validList p vals, a ∈ vals := by
  intro a ha
  obtain ⟨i, -, -, h⟩ := mem_valuesAt.1 ha
  exact List.mem_of_getElem? h

/-- C37: counting floating point numbers in 1D. What is not a number is never counted, also not when it is looked for;
but an array of such values has a count, 0. -/
theorem C37_float_1d (r : IntTy) (p : InPolicy Flt) (vals : List Flt) (v : Flt)
    (hp : PolicyFor p vals.length) (hr : Fits r vals.length) (outp : OutPolicy Int) (c : Cell Int) :
    ∃ c', binarySeq1d (countFlt r) p vals v outp c = some c' ∧
      (validList p vals ≠ [] → Assigned ((occurrences (validList p vals) v : Nat) : Int) c c') ∧
      (validList p vals = [] → Marked outp c c') := by
  obtain ⟨v', hi, hc, hw, hn⟩ := transfer r vals v
  obtain ⟨c', h, h1, h2⟩ := C37_count_1d r p vals v' hp hr outp c
  rw [hn _ mem_valid] at h1
  exact ⟨c', by rw [← h]; simp only [binarySeq1d, binary1d_congr hi hc hw], h1, h2⟩

/-- `[nan, 1, inf, nan]`, of which the last is no-data. -/
example : ∃ c', binarySeq1d (countFlt u64) (.byMask [0, 0, 0, 1] 1) [.nan, .fin 1, .inf, .nan] .nan .markMask ⟨7, false⟩ =
    some c' ∧ Assigned 0 ⟨7, false⟩ c' := by
  obtain ⟨c', h, h1, -⟩ := C37_float_1d u64 (.byMask [0, 0, 0, 1] 1) [.nan, .fin 1, .inf, .nan] .nan rfl (by decide)
    .markMask ⟨7, false⟩
  exact ⟨c', h, h1 (by decide)⟩

/-- C37: counting floating point numbers in 2D, if the first row has a valid element. -/
theorem C37_float_2d (r : IntTy) (p : InPolicy Flt) (n1 n2 : Nat) (vals : List Flt) (v : Flt)
    (hn : vals.length = n1 * n2) (hp : PolicyFor p vals.length) (hr : Fits r vals.length)
    (hfirst : ∃ j, j < n2 ∧ 0 < n1 ∧ ¬ NoDataAt p vals j) (outp : OutPolicy Int) (c : Cell Int) :
    ∃ c', binarySeq2d (countFlt r) p vals v n1 n2 outp c = some c' ∧
      Assigned ((occurrences (validList p vals) v : Nat) : Int) c c' := by
  obtain ⟨v', hi, hc, hw, ho⟩ := transfer r vals v
  obtain ⟨c', h, h1⟩ := C37_count_2d r p n1 n2 vals v' hn hp hr hfirst outp c
  rw [ho _ mem_valid] at h1
  exact ⟨c', by rw [← h]; simp only [binarySeq2d, binary2d_congr hi hc hw], h1⟩

/-- C37: the parallel operations on floating point numbers, if each block has a valid element (in 2D: in its first
row). -/
theorem C37_float_par (r : IntTy) (p : InPolicy Flt) (vals : List Flt) (v : Flt)
    (hp : PolicyFor p vals.length) (hr : Fits r vals.length) (t : Nat) (ht : 1 ≤ t) (outp : OutPolicy Int)
    (c : Cell Int) :
    (0 < vals.length → (∀ l, indexRanges t vals.length = some l → ∀ rg ∈ l,
        ∃ i, InRange i rg ∧ ¬ NoDataAt p vals i) →
      ∃ c', binaryPar1d (countFlt r) p vals v (sumAcc .discard r) 0 t outp c = some c' ∧
        Assigned ((occurrences (validList p vals) v : Nat) : Int) c c') ∧
    (∀ n1 n2, vals.length = n1 * n2 → 0 < n1 → (∀ l, indexRanges t n1 = some l → ∀ rg ∈ l,
        ∃ j, j < n2 ∧ ¬ NoDataAt p vals (rg.b * n2 + j)) →
      ∃ c', binaryPar2d (countFlt r) p vals v (sumAcc .discard r) 0 t n1 n2 outp c = some c' ∧
        Assigned ((occurrences (validList p vals) v : Nat) : Int) c c') := by
  obtain ⟨v', hi, hc, hw, ho⟩ := transfer r vals v
  constructor
  · intro h0 hb
    obtain ⟨c', h, h1⟩ := C37_count_par_1d r p vals v' hp hr h0 t ht hb outp c
    rw [ho _ mem_valid] at h1
    exact ⟨c', by rw [← h]; simp only [binaryPar1d, binary1d_congr hi hc hw], h1⟩
  · intro n1 n2 hn h0 hb
    obtain ⟨c', h, h1⟩ := C37_count_par_2d r p n1 n2 vals v' hn hp hr h0 t ht hb outp c
    rw [ho _ mem_valid] at h1
    exact ⟨c', by rw [← h]; simp only [binaryPar2d, binary2d_congr hi hc hw], h1⟩

example : binarySeq2d (countFlt u64) .skip [.nan, .inf, .inf, .negInf] .inf 2 2 .markMask ⟨7, false⟩ =
    some ⟨2, false⟩ ∧
    binaryPar2d (countFlt u64) .skip [.nan, .inf, .inf, .nan] .nan (sumAcc .discard u64) 0 2 2 2 .markMask ⟨7, false⟩ =
    some ⟨0, false⟩ := by decide

/-- C37: counting in a single value gives 1 or 0, and no-data iff the value or the one that is looked for is. -/
theorem C37_0d (r : IntTy) (p q : InPolicy Flt) (v w : Flt) (hp : PolicyFor p 1) (hq : PolicyFor q 1)
    (outp : OutPolicy Int) (c : Cell Int) :
    ∃ c', binaryAggregate0d (countFlt r) p q v w outp c = some c' ∧
      (NoDataAt p [v] 0 ∨ NoDataAt q [w] 0 → Marked outp c c') ∧
      (¬ (NoDataAt p [v] 0 ∨ NoDataAt q [w] 0) → Assigned ((occurrences [v] w : Nat) : Int) c c') := by
  have one : ∀ (s : InPolicy Flt) (x : Flt), PolicyFor s 1 → s.isNoData0 x = some (decide (NoDataAt s [x] 0)) := by
    intro s x hs
    cases s with
    | skip => rfl
    | all => rfl
    | detect f => simp [InPolicy.isNoData0, InPolicy.isNoData, NoDataAt]
    | byMask mask marker =>
      match mask, hs with
      | [m], _ => simp [InPolicy.isNoData0, InPolicy.isNoData, NoDataAt]
  rw [binaryAggregate0d, one p v hp, one q w hq]
  simp only [Option.bind_eq_bind, Option.bind_some, decide_eq_true_eq]
  by_cases h1 : NoDataAt p [v] 0
  · exact ⟨_, by rw [if_pos h1], fun _ => mark_spec _ _, fun h => absurd (.inl h1) h⟩
  · by_cases h2 : NoDataAt q [w] 0
    · exact ⟨_, by rw [if_neg h1, if_pos h2], fun _ => mark_spec _ _, fun h => absurd (.inr h2) h⟩
    · refine ⟨⟨(countFlt r).init v w, c.masked⟩, by rw [if_neg h1, if_neg h2], fun h => absurd h (not_or.2 ⟨h1, h2⟩), fun _ => ⟨?_, rfl⟩⟩
      have hs : Flt.eq v w = true ↔ SameNumber v w := by
        cases v <;> cases w <;> simp [Flt.eq, SameNumber]
      by_cases h : SameNumber v w
      · simp [countFlt, hs.2 h, occurrences, h]
      · have : Flt.eq v w = false := by rw [← Bool.not_eq_true]; exact fun e => h (hs.1 e)
        simp [countFlt, this, occurrences, h]

example : binaryAggregate0d (countFlt u8) .skip (.detect fun w => w == .nan) .inf .inf .markMask ⟨7, false⟩ =
    some ⟨1, false⟩ ∧
    binaryAggregate0d (countFlt u8) .skip (.detect fun w => w == .nan) .inf .nan .markMask ⟨7, false⟩ =
    some ⟨7, true⟩ := by decide

end Fern
