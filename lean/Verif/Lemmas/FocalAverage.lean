import Verif.Spec.FocalAverage
import Verif.Lemmas.ConvolveCell
/-
The policies that replace missing values by averages.
-/
namespace Fern

open Spec

variable {V W : Type}

theorem mem_imageCells {rows cols : Nat} {pq : Nat × Nat} :
    pq ∈ imageCells rows cols ↔ pq.1 < rows ∧ pq.2 < cols := by
  unfold imageCells
  simp only [List.mem_flatMap, List.mem_range, List.mem_map]
  constructor
  · rintro ⟨p, hp, q, hq, rfl⟩; exact ⟨hp, hq⟩
  · rintro ⟨h1, h2⟩; exact ⟨pq.1, h1, pq.2, h2, rfl⟩

/-- The loops visit the cells of the box. -/
theorem box_cells {rows cols : Nat} {b : FocalBox} (h1 : b.firstRow ≤ b.lastRow)
    (h2 : b.lastRow < rows) (h3 : b.firstCol ≤ b.lastCol) (h4 : b.lastCol < cols) :
    ((List.range (b.lastRow + 1 - b.firstRow)).flatMap (fun dr =>
      (List.range (b.lastCol + 1 - b.firstCol)).map (fun dc => (dr, dc)))).map
        (fun rc => (b.firstRow + rc.1, b.firstCol + rc.2)) =
    (imageCells rows cols).filter (fun pq =>
      (decide (b.firstRow ≤ pq.1) && decide (pq.1 < b.lastRow + 1)) &&
        (decide (b.firstCol ≤ pq.2) && decide (pq.2 < b.lastCol + 1))) := by
  unfold imageCells
  rw [filter_product (List.range rows) (List.range cols)
    (fun p => decide (b.firstRow ≤ p) && decide (p < b.lastRow + 1))
    (fun q => decide (b.firstCol ≤ q) && decide (q < b.lastCol + 1)),
    filter_range _ _ _ (by omega) (by omega), filter_range _ _ _ (by omega) (by omega)]
  simp only [List.map_flatMap, List.map_map, List.range_eq_range']
  have e : ∀ a n : Nat, List.range' a n = (List.range' 0 n).map (fun x => a + x) := by
    intro a n
    rw [List.map_add_range']
    simp
  rw [e b.firstRow, e b.firstCol, List.flatMap_map]
  simp only [List.map_map]
  rfl

theorem forIn'_average (avg : AverageOps V) {α : Type} (f : α → Option V) (l : List α) (s : V × Nat) :
    forIn' l (fun x s => some (match f x with
      | some v => (avg.add s.1 v, s.2 + 1)
      | none => s)) s =
      some ((l.filterMap f).foldl avg.add s.1, s.2 + (l.filterMap f).length) := by
  induction l generalizing s with
  | nil => rfl
  | cons x l ih =>
    rw [forIn'_cons]
    show forIn' l _ _ = _
    rw [ih]
    cases h : f x with
    | none => rw [List.filterMap_cons_none h]
    | some v =>
      rw [List.filterMap_cons_some h]
      simp only [List.foldl_cons, List.length_cons, Option.some.injEq, Prod.mk.injEq, true_and]
      omega

/-- The sum and the number of the values in a box. -/
theorem averageLoop_eq (avg : AverageOps V) {a : ConvolveArgs V W}
    (hs : a.source.length = a.rows * a.cols) (hn : PolicyFor a.noData (a.rows * a.cols))
    {skip : Nat → Nat → Bool} {b : FocalBox} {x y : Int}
    (h1 : b.firstRow ≤ b.lastRow) (h2 : b.lastRow < a.rows)
    (h3 : b.firstCol ≤ b.lastCol) (h4 : b.lastCol < a.cols)
    (hrow : ∀ p < a.rows, (b.firstRow ≤ p ∧ p ≤ b.lastRow) ↔ (x - 1 ≤ p ∧ p ≤ x + 1))
    (hcol : ∀ q < a.cols, (b.firstCol ≤ q ∧ q ≤ b.lastCol) ↔ (y - 1 ≤ q ∧ q ≤ y + 1))
    (hskip : ∀ p q, skip p q = true → NoDataAt a.noData a.source (p * a.cols + q)) :
    averageLoop avg a skip b =
      some ((around a x y).foldl avg.add avg.zero, (around a x y).length) := by
  classical
  unfold averageLoop
  rw [nested_eq]
  let f : Nat × Nat → Option V := fun pq =>
    if ¬ NoDataAt a.noData a.source (pq.1 * a.cols + pq.2) then a.source[pq.1 * a.cols + pq.2]?
    else none
  have step : ∀ s : V × Nat, forIn' ((List.range (b.lastRow + 1 - b.firstRow)).flatMap (fun dr =>
      (List.range (b.lastCol + 1 - b.firstCol)).map (fun dc => (dr, dc)))) (fun ij s =>
      if skip (b.firstRow + ij.1) (b.firstCol + ij.2) then some s
      else do
        let index := linearIndex a.cols (b.firstRow + ij.1) b.firstCol + ij.2
        if ← a.noData.isNoData a.source index then some s
        else
          let v ← a.source[index]?
          some (avg.add s.1 v, s.2 + 1)) s =
      forIn' (((List.range (b.lastRow + 1 - b.firstRow)).flatMap (fun dr =>
        (List.range (b.lastCol + 1 - b.firstCol)).map (fun dc => (dr, dc)))).map
        (fun rc => (b.firstRow + rc.1, b.firstCol + rc.2))) (fun pq s => some (match f pq with
          | some v => (avg.add s.1 v, s.2 + 1)
          | none => s)) s := by
    intro s
    rw [forIn'_map]
    apply forIn'_congr
    rintro ⟨dr, dc⟩ hrc s
    simp only [List.mem_flatMap, List.mem_range, List.mem_map, Prod.mk.injEq] at hrc
    obtain ⟨dr, hdr, dc, hdc, rfl, rfl⟩ := hrc
    have hp : b.firstRow + dr < a.rows := by omega
    have hq : b.firstCol + dc < a.cols := by omega
    have hidx : linearIndex a.cols (b.firstRow + dr) b.firstCol + dc =
        (b.firstRow + dr) * a.cols + (b.firstCol + dc) := by
      unfold linearIndex; omega
    have hlt := rowMajor_lt hp hq
    obtain ⟨nd, hb1, hb2⟩ := isNoData_spec hn hs hlt
    have hv : a.source[(b.firstRow + dr) * a.cols + (b.firstCol + dc)]? =
        some (a.source[(b.firstRow + dr) * a.cols + (b.firstCol + dc)]'(by rw [hs]; exact hlt)) :=
      List.getElem?_eq_getElem _
    simp only [hidx, hb1, f]
    cases hsk : skip (b.firstRow + dr) (b.firstCol + dc) with
    | true =>
      have := hskip _ _ hsk
      simp [this]
    | false =>
      cases nd with
      | true =>
        have := hb2.1 rfl
        simp [this]
      | false =>
        have : ¬ NoDataAt a.noData a.source ((b.firstRow + dr) * a.cols + (b.firstCol + dc)) :=
          fun h => by simpa using hb2.2 h
        rw [if_pos this, hv]
        simp
  have hlist : ((imageCells a.rows a.cols).filter (fun pq =>
      (decide (b.firstRow ≤ pq.1) && decide (pq.1 < b.lastRow + 1)) &&
        (decide (b.firstCol ≤ pq.2) && decide (pq.2 < b.lastCol + 1)))).filterMap f =
      around a x y := by
    unfold around
    rw [List.filterMap_filter]
    apply List.filterMap_congr
    rintro ⟨p, q⟩ hpq
    rw [mem_imageCells] at hpq
    have e1 := hrow p hpq.1
    have e2 := hcol q hpq.2
    have e : ((decide (b.firstRow ≤ p) && decide (p < b.lastRow + 1)) &&
        (decide (b.firstCol ≤ q) && decide (q < b.lastCol + 1))) = true ↔ Near x y (p, q) := by
      simp only [Bool.and_eq_true, decide_eq_true_eq]
      unfold Near
      rw [← e1, ← e2]
      omega
    by_cases hN : Near x y (p, q)
    · simp only [e.2 hN, if_true, hN, true_and, f]
    · have : ((decide (b.firstRow ≤ p) && decide (p < b.lastRow + 1)) &&
        (decide (b.firstCol ≤ q) && decide (q < b.lastCol + 1))) = false := by
        rw [Bool.eq_false_iff]
        exact fun h => hN (e.1 h)
      simp only [this, hN, false_and, if_false]
      rfl
  refine (step _).trans ?_
  rw [box_cells h1 h2 h3 h4, forIn'_average, hlist]
  simp

theorem averageOf_eq (avg : AverageOps V) (l : List V) :
    (if l.length > 0 then some (avg.divide (l.foldl avg.add avg.zero) l.length) else none) =
      averageOf avg l := by
  cases l <;> simp [averageOf]

theorem around_empty {a : ConvolveArgs V W} {x y : Int}
    (h : (∀ p < a.rows, ¬ (x - 1 ≤ (p : Int) ∧ (p : Int) ≤ x + 1)) ∨
      (∀ q < a.cols, ¬ (y - 1 ≤ (q : Int) ∧ (q : Int) ≤ y + 1))) : around a x y = [] := by
  unfold around
  rw [List.filterMap_eq_nil_iff]
  rintro ⟨p, q⟩ hpq
  rw [mem_imageCells] at hpq
  rw [if_neg]
  rintro ⟨⟨h1, h2⟩, _⟩
  rcases h with h | h
  · exact h p hpq.1 h1
  · exact h q hpq.2 h2

/-- No-data cells: the average of the cells around it, if there are any. -/
theorem noDataAverage_eq (avg : AverageOps V) {a : ConvolveArgs V W}
    (hs : a.source.length = a.rows * a.cols) (hn : PolicyFor a.noData (a.rows * a.cols))
    {x y : Nat} (hx : x < a.rows) (hy : y < a.cols)
    (hnd : NoDataAt a.noData a.source (x * a.cols + y)) :
    noDataAverage avg a x y =
      if around a x y = [] then none else some (focalAverage avg a x y) := by
  classical
  unfold noDataAverage
  have hr : usub a.rows 1 = a.rows - 1 := usub_of_le (by omega)
  have hc : usub a.cols 1 = a.cols - 1 := usub_of_le (by omega)
  simp only
  rw [averageLoop_eq (x := x) (y := y) avg hs hn]
  · show ((assert' (decide ((around a x y).length > 0))).bind fun _ =>
      some (some (avg.divide ((around a x y).foldl avg.add avg.zero) (around a x y).length))) = _
    unfold focalAverage
    cases around a x y with
    | nil => rfl
    | cons v l => rfl
  · show (if x > 0 then x - 1 else x) ≤ (if x < usub a.rows 1 then x + 1 else x)
    split_ifs <;> omega
  · show (if x < usub a.rows 1 then x + 1 else x) < a.rows
    rw [hr]; split_ifs <;> omega
  · show (if y > 0 then y - 1 else y) ≤ (if y < usub a.cols 1 then y + 1 else y)
    split_ifs <;> omega
  · show (if y < usub a.cols 1 then y + 1 else y) < a.cols
    rw [hc]; split_ifs <;> omega
  · intro p hp
    show (if x > 0 then x - 1 else x) ≤ p ∧ p ≤ (if x < usub a.rows 1 then x + 1 else x) ↔ _
    rw [hr]; split_ifs <;> omega
  · intro q hq
    show (if y > 0 then y - 1 else y) ≤ q ∧ q ≤ (if y < usub a.cols 1 then y + 1 else y) ↔ _
    rw [hc]; split_ifs <;> omega
  · intro p q h
    simp only [Bool.and_eq_true, beq_iff_eq] at h
    rw [h.1, h.2]
    exact hnd

/-- What has to hold for the box of a position outside of the image. -/
def BoxOk (rows cols : Nat) (x y : Int) : Option FocalBox → Prop
  | none => (∀ p < rows, ¬ (x - 1 ≤ (p : Int) ∧ (p : Int) ≤ x + 1)) ∨
      (∀ q < cols, ¬ (y - 1 ≤ (q : Int) ∧ (q : Int) ≤ y + 1))
  | some b => b.firstRow ≤ b.lastRow ∧ b.lastRow < rows ∧ b.firstCol ≤ b.lastCol ∧ b.lastCol < cols ∧
      (∀ p < rows, (b.firstRow ≤ p ∧ p ≤ b.lastRow) ↔ (x - 1 ≤ (p : Int) ∧ (p : Int) ≤ x + 1)) ∧
      (∀ q < cols, (b.firstCol ≤ q ∧ q ≤ b.lastCol) ↔ (y - 1 ≤ (q : Int) ∧ (q : Int) ≤ y + 1))

/-- The same, and there is a box. -/
def BoxAll (rows cols : Nat) (x y : Int) : Option (Option FocalBox) → Prop
  | none => False
  | some b => BoxOk rows cols x y b

theorem boxAll_assert {rows cols : Nat} {x y : Int} {b : Prop} [Decidable b]
    {f : Unit → Option (Option FocalBox)} (hb : b) (h : BoxAll rows cols x y (f ())) :
    BoxAll rows cols x y ((assert' (decide b)) >>= f) := by
  simpa [assert', hb] using h

local macro "box_ok" : tactic => `(tactic|
  first
  | (left; intro p hp; omega)
  | (right; intro q hq; omega)
  | (refine ⟨?_, ?_, ?_, ?_, fun p hp => ?_, fun q hq => ?_⟩ <;> omega))

set_option maxHeartbeats 4000000 in
/-- All eight functions select the cells around the position. -/
theorem focalBox_ok {rows cols r i j : Nat} (hi : i < rows) (hj : j < cols) (hr : 2 * r + 1 ≤ rows)
    (hc : 2 * r + 1 ≤ cols) {side : Side} (hs : sideAt rows cols r i j = some side) {p q : Nat}
    (hp : p < 2 * r + 1) (hq : q < 2 * r + 1) (hout : ¬ InImage rows cols r i j (p, q)) :
    ∃ b, focalBox rows cols side p q (windowAt rows cols r i j) = some b ∧
      BoxOk rows cols ((i : Int) + p - r) ((j : Int) + q - r) b := by
  suffices h : BoxAll rows cols ((i : Int) + p - r) ((j : Int) + q - r)
      (focalBox rows cols side p q (windowAt rows cols r i j)) by
    cases hb : focalBox rows cols side p q (windowAt rows cols r i j) with
    | none => rw [hb] at h; exact h.elim
    | some b => rw [hb] at h; exact ⟨b, rfl, h⟩
  generalize hw : windowAt rows cols r i j = w
  have e1 : w.frs = i - r := by rw [← hw]; rfl
  have e2 : w.fcs = j - r := by rw [← hw]; rfl
  have e3 : w.frk = r - i := by rw [← hw]; rfl
  have e4 : w.fck = r - j := by rw [← hw]; rfl
  have e5 : w.nrk = min rows (i + r + 1) - (i - r) := by rw [← hw]; rfl
  have e6 : w.nck = min cols (j + r + 1) - (j - r) := by rw [← hw]; rfl
  clear hw
  unfold InImage at hout
  unfold sideAt at hs
  simp only at hout
  have u : ∀ {n : Nat}, 1 ≤ n → usub n 1 = n - 1 := fun h => usub_of_le h
  split_ifs at hs
  all_goals
    obtain rfl := Option.some.inj hs
  all_goals
    simp only [focalBox, boxNorthWest, boxNorthEast, boxSouthWest, boxSouthEast, boxNorth, boxWest,
      boxEast, boxSouth]
    repeat rw [u (by omega)]
    split_ifs
  all_goals
    first
    | (refine boxAll_assert (by omega) ?_; simp only [BoxAll, BoxOk]; box_ok)
    | (simp only [BoxAll, BoxOk]; box_ok)
    | (rename_i h; simp only [BoxAll, BoxOk]; rcases not_and_or.1 h with h | h <;> box_ok)

end Fern
