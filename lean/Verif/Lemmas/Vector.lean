import Verif.Model.Vector
import Verif.Spec.Vector
import Verif.Lemmas.Outcomes
/-
The neighbourhoods that the Laplacian and Lax averages are made of.
-/
namespace Fern

open Spec

variable {F : Type}

theorem vectorNeighbour_eq {n : NumOps F} {at20 : F → Bool} (hn : SmallInts n at20)
    (rows cols : Nat) (inp : InPolicy F) (value : List F) (i j p q : Nat) (w : Int)
    (hw : (vectorKernel n)[weightAt 1 (p, q)]? = some (n.ofInt w)) (h0 : 0 < w) (h1 : w ≤ 20) :
    Option.filter (fun vw : F × F => !n.isZero vw.2)
      (open Classical in
       if InImage rows cols 1 i j (p, q) ∧ ¬ NoDataAt inp value (below cols 1 i j (p, q)) then
        (value[below cols 1 i j (p, q)]?).bind (fun v =>
          ((vectorKernel n)[weightAt 1 (p, q)]?).map (fun w => (v, w)))
       else none) =
      (vectorNeighbour rows cols inp value i j ((p : Int) - 1, (q : Int) - 1, w)).map
        (fun vw => (vw.1, n.ofInt vw.2)) := by
  classical
  have hz : n.isZero (n.ofInt w) = false := by
    have := hn.isZero w (by omega) h1
    cases h : n.isZero (n.ofInt w)
    · rfl
    · exact absurd (this.1 h) (by omega)
  have e : (((i : Int) + ((p : Int) - 1)).toNat * cols + ((j : Int) + ((q : Int) - 1)).toNat) =
      below cols 1 i j (p, q) := by
    unfold below
    simp only []
    congr 2 <;> omega
  unfold vectorNeighbour
  simp only []
  rw [e, hw]
  have hin : InImage rows cols 1 i j (p, q) ↔ (0 ≤ (i : Int) + ((p : Int) - 1) ∧
      (i : Int) + ((p : Int) - 1) < rows ∧ 0 ≤ (j : Int) + ((q : Int) - 1) ∧
      (j : Int) + ((q : Int) - 1) < cols) := by
    unfold InImage
    simp only []
    omega
  by_cases h : InImage rows cols 1 i j (p, q) ∧ ¬ NoDataAt inp value (below cols 1 i j (p, q))
  · rw [if_pos h, if_pos ⟨(hin.1 h.1).1, (hin.1 h.1).2.1, (hin.1 h.1).2.2.1, (hin.1 h.1).2.2.2, h.2⟩]
    cases value[below cols 1 i j (p, q)]? with
    | none => rfl
    | some v => simp [hz]
  · rw [if_neg h, if_neg (fun h' => h ⟨hin.2 ⟨h'.1, h'.2.1, h'.2.2.1, h'.2.2.2.1⟩, h'.2.2.2.2⟩)]
    rfl

/-- The values that count in a convolution with the kernel are those of the valid neighbours. -/
theorem neighbourhood_vector {n : NumOps F} {at20 : F → Bool} (hn : SmallInts n at20)
    (rows cols : Nat) (inp : InPolicy F) (value : List F) (i j : Nat) :
    (neighbourhood (vectorArgs n rows cols value inp) i j).filter (fun vw => !n.isZero vw.2) =
      (vectorNeighbours rows cols inp value i j).map (fun vw => (vw.1, n.ofInt vw.2)) := by
  classical
  have hk : kernelCells 1 = [(0, 0), (0, 1), (0, 2), (1, 0), (1, 1), (1, 2), (2, 0), (2, 1), (2, 2)] := rfl
  have key := fun p q w => vectorNeighbour_eq hn rows cols inp value i j p q w
  have hmid : Option.filter (fun vw : F × F => !n.isZero vw.2)
      (open Classical in
       if InImage rows cols 1 i j (1, 1) ∧ ¬ NoDataAt inp value (below cols 1 i j (1, 1)) then
        (value[below cols 1 i j (1, 1)]?).bind (fun v =>
          ((vectorKernel n)[weightAt 1 (1, 1)]?).map (fun w => (v, w)))
       else none) = none := by
    have hz : n.isZero (n.ofInt 0) = true := (hn.isZero 0 (by omega) (by omega)).2 rfl
    have hw : (vectorKernel n)[weightAt 1 (1, 1)]? = some (n.ofInt 0) := rfl
    rw [hw]
    split_ifs
    · cases value[below cols 1 i j (1, 1)]? with
      | none => rfl
      | some v => simp [hz]
    · rfl
  have e : (neighbourhood (vectorArgs n rows cols value inp) i j).filter
      (fun vw => !n.isZero vw.2) = (kernelCells 1).filterMap (fun pq =>
        Option.filter (fun vw : F × F => !n.isZero vw.2)
      (open Classical in
       if InImage rows cols 1 i j pq ∧ ¬ NoDataAt inp value (below cols 1 i j pq) then
        (value[below cols 1 i j pq]?).bind (fun v =>
          ((vectorKernel n)[weightAt 1 pq]?).map (fun w => (v, w)))
       else none)) := by
    unfold neighbourhood
    rw [List.filter_filterMap]
    rfl
  rw [e, hk, vectorNeighbours, vectorOffsets, List.map_filterMap]
  rw [List.filterMap_cons, List.filterMap_cons, List.filterMap_cons, List.filterMap_cons,
    List.filterMap_cons, List.filterMap_cons, List.filterMap_cons, List.filterMap_cons,
    List.filterMap_cons, hmid, key 0 0 2 rfl (by omega) (by omega), key 0 1 3 rfl (by omega) (by omega),
    key 0 2 2 rfl (by omega) (by omega), key 1 0 3 rfl (by omega) (by omega),
    key 1 2 3 rfl (by omega) (by omega), key 2 0 2 rfl (by omega) (by omega),
    key 2 1 3 rfl (by omega) (by omega), key 2 2 2 rfl (by omega) (by omega)]
  rfl

theorem sums_weighted (n : NumOps F) (check div : Bool) (l : List (F × Int)) :
    (sums (n.convOps check div) (l.map (fun vw => (vw.1, n.ofInt vw.2)))).1 = weightedSum n l := by
  have key : ∀ (l : List (F × Int)) (s : F × F),
      ((l.map (fun vw => (vw.1, n.ofInt vw.2))).foldl
        (fun s vw => (n.convOps check div).add vw.1 vw.2 s) s).1 =
        l.foldl (fun s vw => n.add s (n.mul vw.1 (n.ofInt vw.2))) s.1 := by
    intro l
    induction l with
    | nil => intro s; rfl
    | cons x l ih => intro s; rw [List.map_cons, List.foldl_cons, ih]; rfl
  exact key l _

/-- Weights that come from the kernel. -/
def FromKernel (l : List (F × Int)) : Prop :=
  (∀ vw ∈ l, 0 < vw.2) ∧ weightSum l ≤ 20

theorem sublist_sum {l l' : List Int} (h : l.Sublist l') (h0 : ∀ x ∈ l', 0 ≤ x) : l.sum ≤ l'.sum := by
  induction h with
  | slnil => simp
  | cons a _ ih =>
    have := h0 a (by simp)
    have := ih (fun x hx => h0 x (by simp [hx]))
    simp only [List.sum_cons]
    omega
  | cons_cons a _ ih =>
    have := ih (fun x hx => h0 x (by simp [hx]))
    simp only [List.sum_cons]
    omega

theorem vectorNeighbours_weights (rows cols : Nat) (inp : InPolicy F) (value : List F) (i j : Nat) :
    ((vectorNeighbours rows cols inp value i j).map Prod.snd).Sublist [2, 3, 2, 3, 3, 2, 3, 2] := by
  have key : ∀ ds : List (Int × Int × Int),
      ((ds.filterMap (vectorNeighbour rows cols inp value i j)).map Prod.snd).Sublist
        (ds.map (fun d => d.2.2)) := by
    intro ds
    induction ds with
    | nil => simp
    | cons d ds ih =>
      rw [List.filterMap_cons]
      cases h : vectorNeighbour rows cols inp value i j d with
      | none => exact ih.cons _
      | some vw =>
        have : vw.2 = d.2.2 := by
          unfold vectorNeighbour at h
          split_ifs at h
          cases hv : value[((i : Int) + d.1).toNat * cols + ((j : Int) + d.2.1).toNat]? with
          | none => rw [hv] at h; simp at h
          | some v => rw [hv] at h; simp at h; rw [← h]
        simp only [List.map_cons, this]
        exact ih.cons_cons _
  exact key vectorOffsets

theorem vectorNeighbours_fromKernel (rows cols : Nat) (inp : InPolicy F) (value : List F) (i j : Nat) :
    FromKernel (vectorNeighbours rows cols inp value i j) := by
  have h := vectorNeighbours_weights rows cols inp value i j
  constructor
  · intro vw hvw
    have := h.subset (List.mem_map_of_mem (f := Prod.snd) hvw)
    simp at this
    omega
  · exact sublist_sum h (by simp)

theorem weightSum_cons (x : F × Int) (l : List (F × Int)) :
    weightSum (x :: l) = x.2 + weightSum l := by simp [weightSum]

theorem weightSum_nonneg {l : List (F × Int)} (h : ∀ vw ∈ l, 0 < vw.2) : 0 ≤ weightSum l := by
  induction l with
  | nil => simp [weightSum]
  | cons x l ih =>
    have := ih (fun vw hvw => h vw (by simp [hvw]))
    have := h x (by simp)
    rw [weightSum_cons]; omega

theorem weightSum_pos {l : List (F × Int)} (h : ∀ vw ∈ l, 0 < vw.2) (hl : l ≠ []) :
    0 < weightSum l := by
  cases l with
  | nil => exact absurd rfl hl
  | cons x l =>
    have := weightSum_nonneg (l := l) (fun vw hvw => h vw (by simp [hvw]))
    have := h x (by simp)
    rw [weightSum_cons]; omega

/-- Sums of weights are exact. -/
theorem sums_weights {n : NumOps F} {at20 : F → Bool} (hn : SmallInts n at20) (check div : Bool)
    {l : List (F × Int)} (hl : FromKernel l) :
    (sums (n.convOps check div) (l.map (fun vw => (vw.1, n.ofInt vw.2)))).2 =
      n.ofInt (weightSum l) := by
  have key : ∀ (l : List (F × Int)) (s : F × F) (k : Int), (∀ vw ∈ l, 0 < vw.2) → 0 ≤ k →
      k + weightSum l ≤ 20 → s.2 = n.ofInt k →
      ((l.map (fun vw => (vw.1, n.ofInt vw.2))).foldl
        (fun s vw => (n.convOps check div).add vw.1 vw.2 s) s).2 = n.ofInt (k + weightSum l) := by
    intro l
    induction l with
    | nil => intro s k _ _ _ hs; simpa [weightSum] using hs
    | cons x l ih =>
      intro s k hp hk hle hs
      have hx := hp x (by simp)
      have hp' : ∀ vw ∈ l, 0 < vw.2 := fun vw hvw => hp vw (by simp [hvw])
      have hnn := weightSum_nonneg hp'
      rw [weightSum_cons] at hle ⊢
      rw [List.map_cons, List.foldl_cons, ih _ (k + x.2) hp' (by omega) (by omega) ?_]
      · congr 1; omega
      · show n.add s.2 (n.ofInt x.2) = _
        rw [hs, hn.add _ _ hk (by omega) (by omega)]
  have := key l (n.ofInt 0, n.ofInt 0) 0 hl.1 (by omega) (by have := hl.2; omega) rfl
  simpa [sums, NumOps.convOps] using this

/-- The weighted sum of ones is the sum of the weights. -/
theorem weightedSum_ones {n : NumOps F} {at20 : F → Bool} (hn : SmallInts n at20)
    {l : List (F × Int)} (hl : FromKernel l) :
    weightedSum n (l.map (fun vw => (n.ofInt 1, vw.2))) = n.ofInt (weightSum l) := by
  have key : ∀ (l : List (F × Int)) (k : Int), (∀ vw ∈ l, 0 < vw.2) → 0 ≤ k →
      k + weightSum l ≤ 20 →
      (l.map (fun vw => (n.ofInt 1, vw.2))).foldl
        (fun s vw => n.add s (n.mul vw.1 (n.ofInt vw.2))) (n.ofInt k) =
        n.ofInt (k + weightSum l) := by
    intro l
    induction l with
    | nil => intro k _ _ _; simp [weightSum]
    | cons x l ih =>
      intro k hp hk hle
      have hx := hp x (by simp)
      have hp' : ∀ vw ∈ l, 0 < vw.2 := fun vw hvw => hp vw (by simp [hvw])
      have hnn := weightSum_nonneg hp'
      rw [weightSum_cons] at hle ⊢
      rw [List.map_cons, List.foldl_cons]
      simp only []
      rw [hn.oneMul _ (by omega) (by omega), hn.add _ _ hk (by omega) (by omega),
        ih _ hp' (by omega) (by omega)]
      congr 1; omega
  have := key l 0 hl.1 (by omega) (by have := hl.2; omega)
  simpa [weightedSum] using this

/-- The neighbours of a cell in the raster that is 1 where the values are valid. -/
theorem vectorNeighbours_ones (n : NumOps F) (rows cols : Nat) (inp inp' : InPolicy F)
    (value ones : List F) (hlen : ones.length = value.length)
    (hnd : ∀ k, NoDataAt inp' ones k ↔ NoDataAt inp value k)
    (h1 : ∀ k < value.length, ¬ NoDataAt inp value k → ones[k]? = some (n.ofInt 1)) (i j : Nat) :
    vectorNeighbours rows cols inp' ones i j =
      (vectorNeighbours rows cols inp value i j).map (fun vw => (n.ofInt 1, vw.2)) := by
  classical
  unfold vectorNeighbours
  rw [List.map_filterMap]
  congr 1
  funext d
  unfold vectorNeighbour
  simp only [hnd]
  generalize ((i : Int) + d.1).toNat * cols + ((j : Int) + d.2.1).toNat = k
  split_ifs with h
  · by_cases hk : k < value.length
    · rw [h1 k hk h.2.2.2.2, List.getElem?_eq_getElem hk]; rfl
    · rw [List.getElem?_eq_none (by omega), List.getElem?_eq_none (by omega)]; rfl
  · rfl

end Fern
