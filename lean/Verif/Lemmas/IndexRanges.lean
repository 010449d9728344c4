import Verif.Model.IndexRanges
import Mathlib.Tactic.Ring
import Mathlib.Tactic.NormNum
/-
Helper lemmas about `index_ranges`.
-/
namespace Fern

/-- Blocks of equal size, in closed form. -/
theorem blockLoop_eq (bs : Nat) (k off : Nat) (acc : List IndexRange) :
    blockLoop bs k off acc =
      (off + k * bs, acc ++ (List.range k).map (fun i => ⟨off + i * bs, off + (i + 1) * bs⟩)) := by
  induction k generalizing off acc with
  | zero => simp [blockLoop]
  | succ k ih =>
    rw [blockLoop, ih, List.range_succ_eq_map]
    refine Prod.ext ?_ ?_
    · simp only; ring
    · simp only [List.append_assoc, List.map_cons, List.map_map, List.singleton_append]
      refine congrArg _ ?_
      rw [List.cons.injEq]
      refine ⟨by simp, ?_⟩
      apply List.map_congr_left
      intro i _
      simp only [Function.comp, Nat.succ_eq_add_one]
      congr 1 <;> ring

/-- Number of full blocks. -/
def nrFull (t n : Nat) : Nat := if 0 < n / t then n / (n / t) else 0

theorem nrFull_mul_le (t n : Nat) : nrFull t n * (n / t) ≤ n := by
  unfold nrFull
  split
  · exact Nat.div_mul_le_self n (n / t)
  · simp

/-- Closed form of `indexRanges`. -/
theorem indexRanges_eq {t : Nat} (ht : t ≠ 0) (n : Nat) :
    indexRanges t n = some
      ((List.range (nrFull t n)).map (fun i => (⟨i * (n / t), (i + 1) * (n / t)⟩ : IndexRange)) ++
        if 0 < n - nrFull t n * (n / t) then [⟨nrFull t n * (n / t), n⟩] else []) := by
  have h := nrFull_mul_le t n
  unfold indexRanges
  rw [if_neg ht]
  simp only [blockLoop_eq]
  change (if 0 < n - nrFull t n * (n / t) then _ else _) = _
  simp only [Nat.zero_add, List.nil_append]
  split
  · refine congrArg some (congrArg₂ _ rfl ?_)
    show [IndexRange.mk (nrFull t n * (n / t)) (nrFull t n * (n / t) + (n - nrFull t n * (n / t)))] = _
    rw [Nat.add_sub_cancel' h]
  · rw [List.append_nil]; rfl

theorem blockLoop2_eq (bh bw : Nat) (k off : Nat) (acc : List IndexRanges2) :
    blockLoop2 bh bw k off acc =
      (off + k * bh, acc ++ (List.range k).map
        (fun i => ⟨⟨off + i * bh, off + (i + 1) * bh⟩, ⟨0, bw⟩⟩)) := by
  induction k generalizing off acc with
  | zero => simp [blockLoop2]
  | succ k ih =>
    rw [blockLoop2, ih, List.range_succ_eq_map]
    refine Prod.ext ?_ ?_
    · simp only; ring
    · simp only [List.append_assoc, List.map_cons, List.map_map, List.singleton_append]
      refine congrArg _ ?_
      rw [List.cons.injEq]
      refine ⟨by simp, ?_⟩
      apply List.map_congr_left
      intro i _
      simp only [Function.comp, Nat.succ_eq_add_one]
      congr 2 <;> ring

/-- The 2D division is the 1D division of the rows, with all columns. -/
theorem indexRanges2_eq (t n1 n2 : Nat) :
    indexRanges2 t n1 n2 = (indexRanges t n1).map (fun l => l.map (fun r => ⟨r, ⟨0, n2⟩⟩)) := by
  by_cases ht : t = 0
  · simp [indexRanges2, indexRanges, ht]
  · unfold indexRanges2 indexRanges
    rw [if_neg ht, if_neg ht]
    simp only [blockLoop_eq, blockLoop2_eq]
    generalize (if 0 < n1 / t then n1 / (n1 / t) else 0) = k
    split <;> simp [Function.comp_def]

/-- Concatenated indices of `k` equal blocks. -/
theorem flatten_blocks (bs k : Nat) :
    ((List.range k).map
      (fun i => (⟨i * bs, (i + 1) * bs⟩ : IndexRange))).flatMap IndexRange.indices =
      List.range (k * bs) := by
  induction k with
  | zero => simp
  | succ k ih =>
    rw [List.range_succ, List.map_append, List.flatMap_append, ih]
    simp only [List.map_cons, List.map_nil, List.flatMap_cons, List.flatMap_nil, List.append_nil,
      IndexRange.indices]
    have : (k + 1) * bs - k * bs = bs := by rw [Nat.add_mul]; omega
    rw [this, List.range_eq_range', List.range_eq_range',
      show List.range' (k * bs) bs = List.range' (0 + 1 * (k * bs)) bs by simp,
      List.range'_append, Nat.add_mul, Nat.one_mul]

/-- The concatenation of the blocks' indices is `0 .. n-1`. -/
theorem indexRanges_flatten {t n : Nat} {l : List IndexRange} (h : indexRanges t n = some l) :
    l.flatMap IndexRange.indices = List.range n := by
  have ht : t ≠ 0 := by
    intro h0; simp [indexRanges, h0] at h
  rw [indexRanges_eq ht] at h
  have h := (Option.some.inj h).symm
  subst h
  rw [List.flatMap_append, flatten_blocks]
  have hle := nrFull_mul_le t n
  split
  · simp only [List.flatMap_cons, List.flatMap_nil, List.append_nil, IndexRange.indices]
    rw [List.range_eq_range', List.range_eq_range']
    have := @List.range'_append 0 (nrFull t n * (n / t)) (n - nrFull t n * (n / t)) 1
    simp only [Nat.one_mul, Nat.zero_add] at this
    rw [this, Nat.add_sub_cancel' hle]
  · simp only [List.flatMap_nil, List.append_nil]
    congr 1; omega

end Fern
