import Verif.Lemmas.Convolve
/-
The regions of a convolution partition the image.
-/
namespace Fern

open Spec

theorem cells2d_rows {n2 : Nat} {a b c : Nat} {cols : IndexRange} (h1 : a ≤ b) (h2 : b ≤ c) :
    cells2d n2 ⟨⟨a, c⟩, cols⟩ = cells2d n2 ⟨⟨a, b⟩, cols⟩ ++ cells2d n2 ⟨⟨b, c⟩, cols⟩ := by
  unfold cells2d IndexRange.indices
  rw [← List.flatMap_append]
  congr 1
  have : c - a = (b - a) + (c - b) := by omega
  simp only [this]
  rw [← List.range'_append_1]
  congr 2
  omega

theorem flatMap_append_perm {α β : Type} (f g : α → List β) (l : List α) :
    (l.flatMap (fun i => f i ++ g i)).Perm (l.flatMap f ++ l.flatMap g) := by
  induction l with
  | nil => simp
  | cons a l ih =>
    simp only [List.flatMap_cons, List.append_assoc]
    refine List.Perm.append_left _ ?_
    refine (List.Perm.append_left _ ih).trans ?_
    rw [← List.append_assoc, ← List.append_assoc]
    exact List.Perm.append_right _ List.perm_append_comm

theorem cells2d_cols {n2 : Nat} {a b c : Nat} {rows : IndexRange} (h1 : a ≤ b) (h2 : b ≤ c) :
    (cells2d n2 ⟨rows, ⟨a, c⟩⟩).Perm
      (cells2d n2 ⟨rows, ⟨a, b⟩⟩ ++ cells2d n2 ⟨rows, ⟨b, c⟩⟩) := by
  unfold cells2d linearIndex
  refine List.Perm.trans (.of_eq ?_) (flatMap_append_perm _ _ _)
  congr 1
  funext i
  have : c - a = (b - a) + (c - b) := by omega
  simp only [this]
  rw [← List.range'_append_1]
  congr 2
  omega

/-- The cells of the border regions, in the order in which they are handled. -/
def borderCells (n1 n2 r : Nat) : List (List Nat) :=
  [cells2d n2 ⟨⟨0, r⟩, ⟨0, r⟩⟩, cells2d n2 ⟨⟨0, r⟩, ⟨n2 - r, n2⟩⟩,
   cells2d n2 ⟨⟨n1 - r, n1⟩, ⟨0, r⟩⟩, cells2d n2 ⟨⟨n1 - r, n1⟩, ⟨n2 - r, n2⟩⟩,
   cells2d n2 ⟨⟨0, r⟩, ⟨r, n2 - r⟩⟩, cells2d n2 ⟨⟨r, n1 - r⟩, ⟨0, r⟩⟩,
   cells2d n2 ⟨⟨r, n1 - r⟩, ⟨n2 - r, n2⟩⟩, cells2d n2 ⟨⟨n1 - r, n1⟩, ⟨r, n2 - r⟩⟩]

theorem band_perm {n2 r : Nat} {rows : IndexRange} (hc : 2 * r ≤ n2) :
    (cells2d n2 ⟨rows, ⟨0, n2⟩⟩).Perm (cells2d n2 ⟨rows, ⟨0, r⟩⟩ ++
      (cells2d n2 ⟨rows, ⟨r, n2 - r⟩⟩ ++ cells2d n2 ⟨rows, ⟨n2 - r, n2⟩⟩)) :=
  (cells2d_cols (b := r) (by omega) (by omega)).trans
    (List.Perm.append_left _ (cells2d_cols (by omega) (by omega)))

/-- Border regions and inner part together are all cells of the image. -/
theorem regions_perm {n1 n2 r : Nat} (hr : 2 * r ≤ n1) (hc : 2 * r ≤ n2) :
    ((borderCells n1 n2 r).flatten ++ cells2d n2 ⟨⟨r, n1 - r⟩, ⟨r, n2 - r⟩⟩).Perm
      (List.range (n1 * n2)) := by
  rw [← cells2d_all n1 n2]
  refine List.Perm.symm (List.Perm.trans (.of_eq ?_) ((List.Perm.append
    (band_perm (rows := ⟨0, r⟩) hc) (List.Perm.append (band_perm (rows := ⟨r, n1 - r⟩) hc)
      (band_perm (rows := ⟨n1 - r, n1⟩) hc))).trans ?_))
  · rw [← cells2d_rows (by omega) (by omega), ← cells2d_rows (by omega) (by omega)]
  rw [List.perm_iff_count]
  intro x
  simp only [borderCells, List.flatten_cons, List.flatten_nil, List.count_append, List.count_nil]
  omega

/-- The blocks of the inner part, as used by the parallel version. -/
def shiftRange (r : Nat) (x : IndexRanges2) : IndexRanges2 :=
  ⟨⟨x.rows.b + r, x.rows.e + r⟩, ⟨x.cols.b + r, x.cols.e + r⟩⟩

theorem consecutive_cells {n2 : Nat} {cols : IndexRange} {r : Nat} {l : List IndexRange} {b e : Nat}
    (h : Consecutive b e l) :
    l.flatMap (fun x => cells2d n2 ⟨⟨x.b + r, x.e + r⟩, cols⟩) =
      cells2d n2 ⟨⟨b + r, e + r⟩, cols⟩ := by
  induction l generalizing b with
  | nil =>
    simp only [Consecutive] at h
    subst h
    simp [cells2d, IndexRange.indices]
  | cons x l ih =>
    obtain ⟨h1, h2, h3⟩ := h
    rw [List.flatMap_cons, ih h3, h1, ← cells2d_rows (by omega) ?_]
    have := h3.le
    omega

/-- The tasks of the inner part together have the cells of the inner part. -/
theorem innerBlocks_flatten {t n1 n2 r : Nat} {l : List IndexRanges2} (hr : 2 * r ≤ n1)
    (hc : 2 * r ≤ n2) (ht : 1 ≤ t) (h : indexRanges2 t (n1 - 2 * r) (n2 - 2 * r) = some l) :
    (l.map (fun x => cells2d n2 (shiftRange r x))).flatten =
      cells2d n2 ⟨⟨r, n1 - r⟩, ⟨r, n2 - r⟩⟩ := by
  obtain ⟨l', hl', hcons⟩ := indexRanges_consecutive ht (n1 - 2 * r)
  rw [indexRanges2_eq, hl'] at h
  obtain rfl := Option.some.inj h
  rw [List.map_map, ← List.flatMap_def]
  have := consecutive_cells (n2 := n2) (cols := ⟨r, n2 - r⟩) (r := r) hcons
  rw [Nat.zero_add, show n1 - 2 * r + r = n1 - r by omega] at this
  rw [← this]
  congr 1
  funext x
  simp only [Function.comp, shiftRange, Nat.zero_add, show n2 - 2 * r + r = n2 - r by omega]

/-- The blocks of the inner part are in the inner part. -/
theorem innerBlocks_bounds {t n1 n2 r : Nat} {l : List IndexRanges2} (hr : 2 * r ≤ n1)
    (hc : 2 * r ≤ n2) (ht : 1 ≤ t) (h : indexRanges2 t (n1 - 2 * r) (n2 - 2 * r) = some l)
    {x : IndexRanges2} (hx : x ∈ l) :
    r ≤ (shiftRange r x).rows.b ∧ (shiftRange r x).rows.e + r ≤ n1 ∧
    r ≤ (shiftRange r x).cols.b ∧ (shiftRange r x).cols.e + r ≤ n2 := by
  obtain ⟨l', hl', hcons⟩ := indexRanges_consecutive ht (n1 - 2 * r)
  rw [indexRanges2_eq, hl'] at h
  obtain rfl := Option.some.inj h
  obtain ⟨y, hy, rfl⟩ := List.mem_map.1 hx
  obtain ⟨k, hk, rfl⟩ := List.mem_iff_getElem.1 hy
  have := hcons.bounds k hk
  simp only [shiftRange]
  omega

end Fern
