import Verif.Lemmas.IndexRangesSpec
import Verif.Spec.IndexRanges
import Mathlib.Order.Interval.Finset.Nat
import Mathlib.Data.Finset.Prod
/-
C01, C02, C03: division of work in ranges.
-/
namespace Fern
open Spec

/-- **C01.** Dividing `n` elements over `t >= 1` threads gives consecutive non-empty ranges from `0`
to `n`; every index is in exactly one of them and nothing outside `[0, n)` is; nothing is returned
for `n = 0`. -/
theorem C01_indexRanges_partition (t n : Nat) (ht : 1 ≤ t) :
    ∃ l, indexRanges t n = some l ∧ Consecutive 0 n l ∧ ExactCover n l ∧
      (n = 0 → l = []) := by
  obtain ⟨l, hl, hc⟩ := indexRanges_consecutive ht n
  refine ⟨l, hl, hc, ⟨fun i hi => hc.exactCover i (Nat.zero_le _) hi, ?_⟩, ?_⟩
  · intro i k hk hin
    have := hc.bounds k hk
    unfold InRange at hin
    omega
  · intro hn
    subst hn
    cases l with
    | nil => rfl
    | cons r rs => have := hc.2.2.le; have := hc.2.1; omega

/-- C01, order of the visit: running through the blocks one after the other visits
`0, 1, .., n-1`. -/
theorem C01_indexRanges_visit_order (t n : Nat) (l : List IndexRange)
    (h : indexRanges t n = some l) : l.flatMap IndexRange.indices = List.range n :=
  indexRanges_flatten h

example : indexRanges 3 11 = some [⟨0, 3⟩, ⟨3, 6⟩, ⟨6, 9⟩, ⟨9, 11⟩] := by decide
example : indexRanges 4 3 = some [⟨0, 3⟩] := by decide
example : indexRanges 4 0 = some [] := by decide

theorem indexRanges2_exactCover {t n1 n2 : Nat} (ht : 1 ≤ t) :
    ∃ l, indexRanges2 t n1 n2 = some l ∧ ExactCover2 n1 n2 l ∧
      ∀ r ∈ l, r.cols = ⟨0, n2⟩ := by
  obtain ⟨l, hl, hc, ⟨hcov, hout⟩, _⟩ := C01_indexRanges_partition t n1 ht
  refine ⟨l.map (fun r => ⟨r, ⟨0, n2⟩⟩), by rw [indexRanges2_eq, hl]; rfl, ⟨?_, ?_⟩, ?_⟩
  · intro i j hi hj
    obtain ⟨k, hk, hin, huniq⟩ := hcov i hi
    refine ⟨k, by simpa using hk, ?_, ?_⟩
    · simp only [List.getElem_map]
      exact ⟨hin, ⟨Nat.zero_le _, hj⟩⟩
    · intro k' hk' hin'
      simp only [List.getElem_map] at hin'
      exact huniq k' (by simpa using hk') hin'.1
  · intro i j k hk hin
    simp only [List.getElem_map] at hin
    exact ⟨hout i k (by simpa using hk) hin.1, hin.2.2⟩
  · intro r hr
    simp only [List.mem_map] at hr
    obtain ⟨a, _, rfl⟩ := hr
    rfl

/-- **C02.** The blocks of the 2D division are bands over all columns, their rows are consecutive
from `0` to `n1`, and every cell of the array is in exactly one block, no other cell in any. -/
theorem C02_indexRanges2_partition (t n1 n2 : Nat) (ht : 1 ≤ t) :
    ∃ l, indexRanges2 t n1 n2 = some l ∧ ExactCover2 n1 n2 l ∧
      (∀ r ∈ l, r.cols = ⟨0, n2⟩) ∧ Consecutive 0 n1 (l.map IndexRanges2.rows) := by
  obtain ⟨l, hl, h1, h2⟩ := indexRanges2_exactCover (n1 := n1) (n2 := n2) ht
  refine ⟨l, hl, h1, h2, ?_⟩
  obtain ⟨l1, hl1, hc⟩ := indexRanges_consecutive ht n1
  rw [indexRanges2_eq, hl1] at hl
  simp only [Option.map_some, Option.some.injEq] at hl
  subst hl
  simpa [List.map_map, Function.comp_def] using hc

example : indexRanges2 2 5 3 =
    some [⟨⟨0, 2⟩, ⟨0, 3⟩⟩, ⟨⟨2, 4⟩, ⟨0, 3⟩⟩, ⟨⟨4, 5⟩, ⟨0, 3⟩⟩] := by decide

/-- C02, documentation: "In case the array is empty, the collection is empty" does not hold for an
array with rows but without columns. -/
theorem C02_doc_empty_false : ∃ t n1 n2 l, 1 ≤ t ∧ n1 * n2 = 0 ∧ indexRanges2 t n1 n2 = some l ∧
    l ≠ [] := ⟨2, 4, 0, _, by decide, rfl, rfl, by decide⟩

/-- **C03**, negation of the documented claim: a non-empty array that is not small (at least as
many elements as threads) can be divided in more than `nr_threads + 1` ranges. -/
theorem C03_doc_count_false : ∃ t n l, 1 ≤ t ∧ t ≤ n ∧ indexRanges t n = some l ∧
    t + 1 < l.length := ⟨3, 5, _, by decide, by decide, rfl, by decide⟩

/-- **C03**, general bound: never more than `2 t - 1` ranges. The bound is attained, see the
example. -/
theorem C03_count_le (t n : Nat) (l : List IndexRange) (ht : 1 ≤ t)
    (h : indexRanges t n = some l) : l.length ≤ 2 * t - 1 := by
  rw [indexRanges_length ht h]
  by_cases hq : 0 < n / t
  · rw [remainder_eq hq, nrFull_eq hq]
    have hr : n % t < t := Nat.mod_lt _ (by omega)
    have h1 := Nat.mod_add_div (n % t) (n / t)
    have h2 : n % t / (n / t) ≤ n / t * (n % t / (n / t)) := Nat.le_mul_of_pos_left _ hq
    split <;> omega
  · simp only [nrFull, if_neg hq]
    split <;> omega

example : ∃ l, indexRanges 4 7 = some l ∧ l.length = 2 * 4 - 1 := ⟨_, rfl, by decide⟩

/-- **C03**, the documented count holds when `n mod t < n / t`. -/
theorem C03_count_t_or_one_more (t n : Nat) (l : List IndexRange) (ht : 1 ≤ t)
    (hn : n % t < n / t) (h : indexRanges t n = some l) :
    l.length = if n % t = 0 then t else t + 1 := by
  have hq : 0 < n / t := by omega
  rw [indexRanges_length ht h, remainder_eq hq, nrFull_eq hq,
    Nat.div_eq_of_lt hn, Nat.mod_eq_of_lt hn]
  split <;> split <;> omega

/-- **C03**, in particular for every array of at least `t * t` elements. -/
theorem C03_count_large (t n : Nat) (l : List IndexRange) (ht : 1 ≤ t)
    (hn : t * t ≤ n) (h : indexRanges t n = some l) :
    l.length = t ∨ l.length = t + 1 := by
  have h1 : t ≤ n / t := (Nat.le_div_iff_mul_le (by omega)).2 hn
  have h2 : n % t < t := Nat.mod_lt _ (by omega)
  have := C03_count_t_or_one_more t n l ht (by omega) h
  split at this <;> omega

example : ∃ l, indexRanges 3 10 = some l ∧ l.length = 4 := ⟨_, rfl, by decide⟩

/-- **C03**, small arrays give one range. -/
theorem C03_count_small (t n : Nat) (l : List IndexRange) (h0 : 0 < n) (hn : n < t)
    (h : indexRanges t n = some l) : l = [⟨0, n⟩] := by
  have hq : n / t = 0 := Nat.div_eq_of_lt hn
  rw [indexRanges_eq (by omega)] at h
  simpa [nrFull, hq, h0] using h.symm

/-- **C70.** A range made by the constructor is empty iff no index is in it. -/
theorem C70_empty_iff (b e : Nat) (r : IndexRange) (h : IndexRange.make b e = some r) :
    r.empty = true ↔ ∀ i, ¬ InRange i r := by
  rw [IndexRange.make] at h
  split at h <;> cases h
  rename_i hbe
  simp only [IndexRange.empty, beq_iff_eq, InRange]
  constructor
  · rintro rfl i hi
    omega
  · intro h
    have := h b
    omega

/-- The constructor refuses an end before the begin, and nothing else. -/
theorem C70_make (b e : Nat) : IndexRange.make b e = none ↔ e < b := by
  rw [IndexRange.make]
  split <;> simp <;> omega

/-- The size of a range is the number of indices in it. -/
theorem C70_size (r : IndexRange) (s : Finset Nat) (hs : ∀ i, i ∈ s ↔ InRange i r) :
    r.size = s.card := by
  have : s = Finset.Ico r.b r.e := by
    ext i
    rw [hs, InRange, Finset.mem_Ico]
  rw [this, Nat.card_Ico, IndexRange.size]

/-- A block made by the constructors is empty iff no cell is in it. -/
theorem C70_empty2_iff (b1 e1 b2 e2 : Nat) (r1 r2 : IndexRange) (h1 : IndexRange.make b1 e1 = some r1)
    (h2 : IndexRange.make b2 e2 = some r2) :
    IndexRanges2.empty ⟨r1, r2⟩ = true ↔ ∀ i j, ¬ InBlock i j ⟨r1, r2⟩ := by
  have k1 := C70_empty_iff b1 e1 r1 h1
  have k2 := C70_empty_iff b2 e2 r2 h2
  simp only [IndexRanges2.empty, Bool.or_eq_true, k1, k2, InBlock]
  constructor
  · rintro (h | h) i j ⟨hi, hj⟩
    · exact h i hi
    · exact h j hj
  · intro h
    by_contra hc
    rw [not_or] at hc
    obtain ⟨i, hi⟩ := not_forall.1 hc.1
    obtain ⟨j, hj⟩ := not_forall.1 hc.2
    exact h i j ⟨not_not.1 hi, not_not.1 hj⟩

/-- The size of a block is the number of cells in it. -/
theorem C70_size2 (r : IndexRanges2) (s : Finset (Nat × Nat))
    (hs : ∀ i j, (i, j) ∈ s ↔ InBlock i j r) : r.size = s.card := by
  have : s = Finset.Ico r.rows.b r.rows.e ×ˢ Finset.Ico r.cols.b r.cols.e := by
    ext ⟨i, j⟩
    rw [hs, Finset.mem_product, Finset.mem_Ico, Finset.mem_Ico]
    rfl
  rw [this, Finset.card_product, Nat.card_Ico, Nat.card_Ico, IndexRanges2.size, Nat.one_mul]
  rfl

theorem Spec.Consecutive.size_sum {a b : Nat} {l : List IndexRange} (h : Consecutive a b l) :
    a + (l.map IndexRange.size).sum = b := by
  induction l generalizing a with
  | nil => simpa [Consecutive] using h
  | cons r l ih =>
    obtain ⟨h1, h2, h3⟩ := h
    have := ih h3
    rw [List.map_cons, List.sum_cons, IndexRange.size]
    omega

/-- The sizes of the ranges that work is divided in add up to the amount of work. -/
theorem C70_division (t n : Nat) (l : List IndexRange) (ht : 1 ≤ t) (h : indexRanges t n = some l) :
    (l.map IndexRange.size).sum = n := by
  obtain ⟨l', h', hc⟩ := indexRanges_consecutive ht n
  rw [h, Option.some.injEq] at h'
  subst h'
  have := hc.size_sum
  omega

@[inherit_doc C70_division]
theorem C70_division2 (t n1 n2 : Nat) (l : List IndexRanges2) (ht : 1 ≤ t)
    (h : indexRanges2 t n1 n2 = some l) : (l.map IndexRanges2.size).sum = n1 * n2 := by
  obtain ⟨l', h', hc⟩ := indexRanges_consecutive ht n1
  rw [indexRanges2_eq, h', Option.map_some, Option.some.injEq] at h
  subst h
  have hs := hc.size_sum
  rw [Nat.zero_add] at hs
  rw [← hs, List.map_map]
  clear h' hc hs
  induction l' with
  | nil => simp
  | cons r l ih =>
    simp only [List.map_cons, List.sum_cons, Nat.add_mul, ih, Function.comp_apply]
    simp [IndexRanges2.size, IndexRange.size]

example : IndexRange.make 2 5 = some ⟨2, 5⟩ ∧ IndexRange.size ⟨2, 5⟩ = 3 ∧
    IndexRanges2.size ⟨⟨2, 5⟩, ⟨1, 3⟩⟩ = 6 ∧ IndexRanges2.empty ⟨⟨2, 5⟩, ⟨3, 3⟩⟩ = true ∧
    IndexRange.make 5 2 = none := by decide

end Fern
