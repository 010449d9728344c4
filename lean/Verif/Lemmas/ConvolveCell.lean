import Verif.Lemmas.ConvolvePartition
/-
What is done for one cell of a convolution.
-/
namespace Fern

open Spec

variable {V W A R : Type}

/-! Loops that add terms. -/

/-- Adding a term, if there is one, to the sums. -/
def addTerm (ops : ConvolveOps V W A R) (t : Option (V × W)) (s : A × Bool) : A × Bool :=
  match t with
  | some vw => (ops.add vw.1 vw.2 s.1, true)
  | none => s

theorem forIn'_congr {ι σ : Type} {l : List ι} {f g : ι → σ → Option σ} (s : σ)
    (h : ∀ i ∈ l, ∀ s, f i s = g i s) : forIn' l f s = forIn' l g s := by
  induction l generalizing s with
  | nil => rfl
  | cons a l ih =>
    rw [forIn'_cons, forIn'_cons, h a (by simp)]
    cases g a s with
    | none => rfl
    | some s' => exact ih s' (fun i hi => h i (by simp [hi]))

theorem forIn'_terms {ι : Type} (ops : ConvolveOps V W A R) (term : ι → Option (V × W)) (l : List ι)
    (s : A × Bool) :
    forIn' l (fun i s => some (addTerm ops (term i) s)) s =
      some ((l.filterMap term).foldl (fun s vw => ops.add vw.1 vw.2 s) s.1,
        s.2 || !(l.filterMap term).isEmpty) := by
  induction l generalizing s with
  | nil => simp [forIn'_nil]
  | cons a l ih =>
    rw [forIn'_cons]
    cases h : term a with
    | none =>
      rw [List.filterMap_cons_none h]
      exact ih s
    | some vw =>
      rw [List.filterMap_cons_some h]
      show forIn' l _ _ = _
      rw [ih]
      simp [addTerm]

/-! The kernel cells that are in the image. -/

theorem filter_range (a b n : Nat) (hab : a ≤ b) (hb : b ≤ n) :
    (List.range n).filter (fun p => decide (a ≤ p) && decide (p < b)) = List.range' a (b - a) := by
  have h : List.range n = List.range' 0 a ++ (List.range' a (b - a) ++ List.range' b (n - b)) := by
    have h1 := @List.range'_append_1 a (b - a) (n - b)
    rw [show a + (b - a) = b by omega] at h1
    have h2 := @List.range'_append_1 0 a ((b - a) + (n - b))
    rw [Nat.zero_add] at h2
    rw [h1, h2, List.range_eq_range']
    congr 1
    omega
  rw [h, List.filter_append, List.filter_append]
  have e1 : (List.range' 0 a).filter (fun p => decide (a ≤ p) && decide (p < b)) = [] := by
    rw [List.filter_eq_nil_iff]
    intro p hp
    rw [List.mem_range'_1] at hp
    simp; omega
  have e2 : (List.range' b (n - b)).filter (fun p => decide (a ≤ p) && decide (p < b)) = [] := by
    rw [List.filter_eq_nil_iff]
    intro p hp
    rw [List.mem_range'_1] at hp
    simp; omega
  have e3 : (List.range' a (b - a)).filter (fun p => decide (a ≤ p) && decide (p < b)) =
      List.range' a (b - a) := by
    rw [List.filter_eq_self]
    intro p hp
    rw [List.mem_range'_1] at hp
    simp; omega
  rw [e1, e2, e3]
  simp

theorem filter_product {α β : Type} (l : List α) (m : List β) (P : α → Bool) (Q : β → Bool) :
    (l.flatMap (fun x => m.map (fun y => (x, y)))).filter (fun xy => P xy.1 && Q xy.2) =
      (l.filter P).flatMap (fun x => (m.filter Q).map (fun y => (x, y))) := by
  induction l with
  | nil => rfl
  | cons x l ih =>
    rw [List.flatMap_cons, List.filter_append, ih]
    cases h : P x with
    | false =>
      rw [List.filter_cons_of_neg (by simp [h])]
      have : (m.map (fun y => (x, y))).filter (fun xy => P xy.1 && Q xy.2) = [] := by
        rw [List.filter_eq_nil_iff]
        intro xy hxy
        obtain ⟨y, _, rfl⟩ := List.mem_map.1 hxy
        simp [h]
      rw [this, List.nil_append]
    | true =>
      rw [List.filter_cons_of_pos h, List.flatMap_cons]
      congr 1
      rw [List.filter_map]
      congr 1
      apply List.filter_congr
      intro y _
      simp [h]

theorem mem_kernelCells {r : Nat} {pq : Nat × Nat} :
    pq ∈ kernelCells r ↔ pq.1 < 2 * r + 1 ∧ pq.2 < 2 * r + 1 := by
  unfold kernelCells
  simp only [List.mem_flatMap, List.mem_range, List.mem_map]
  constructor
  · rintro ⟨p, hp, q, hq, rfl⟩; exact ⟨hp, hq⟩
  · rintro ⟨h1, h2⟩; exact ⟨pq.1, h1, pq.2, h2, rfl⟩

/-- The kernel cells that are in the image are those of the window. -/
theorem inImage_cells {rows cols r i j : Nat} (hi : i < rows) (hj : j < cols) :
    (kernelCells r).filter (fun pq => decide (InImage rows cols r i j pq)) =
      ((List.range (windowAt rows cols r i j).nrk).flatMap (fun row =>
        (List.range (windowAt rows cols r i j).nck).map (fun col => (row, col)))).map
        (fun rc => ((windowAt rows cols r i j).frk + rc.1, (windowAt rows cols r i j).fck + rc.2)) := by
  have h1 : ∀ {n x : Nat}, x < n →
      (List.range (2 * r + 1)).filter (fun p => decide (r ≤ x + p) && decide (x + p < n + r)) =
      (List.range (min n (x + r + 1) - (x - r))).map (fun row => r - x + row) := by
    intro n x hx
    have e : (List.range (2 * r + 1)).filter (fun p => decide (r ≤ x + p) && decide (x + p < n + r)) =
        (List.range (2 * r + 1)).filter (fun p => decide (r - x ≤ p) &&
          decide (p < min (2 * r + 1) (n + r - x))) := by
      apply List.filter_congr
      intro p hp
      rw [List.mem_range] at hp
      have e1 : (r ≤ x + p) = (r - x ≤ p) := by apply propext; omega
      have e2 : (x + p < n + r) = (p < min (2 * r + 1) (n + r - x)) := by
        apply propext; omega
      simp only [e1, e2]
    rw [e, filter_range _ _ _ (by omega) (by omega), List.range_eq_range', List.map_add_range']
    congr 1
    omega
  have h2 : (fun pq : Nat × Nat => decide (InImage rows cols r i j pq)) =
      (fun pq => (decide (r ≤ i + pq.1) && decide (i + pq.1 < rows + r)) &&
        (decide (r ≤ j + pq.2) && decide (j + pq.2 < cols + r))) := by
    funext pq
    rw [Bool.eq_iff_iff]
    simp only [Bool.and_eq_true, decide_eq_true_eq]
    simp only [InImage, and_assoc]
  unfold kernelCells
  rw [h2]
  have h3 := filter_product (List.range (2 * r + 1)) (List.range (2 * r + 1))
    (fun p => decide (r ≤ i + p) && decide (i + p < rows + r))
    (fun q => decide (r ≤ j + q) && decide (j + q < cols + r))
  refine h3.trans ?_
  rw [h1 hi, h1 hj]
  simp only [windowAt, List.flatMap_map, List.map_flatMap, List.map_map]
  rfl

theorem inImage_window {rows cols r i j : Nat} {row col : Nat}
    (h1 : row < (windowAt rows cols r i j).nrk) (h2 : col < (windowAt rows cols r i j).nck) :
    (windowAt rows cols r i j).frs + row < rows ∧ (windowAt rows cols r i j).fcs + col < cols ∧
    (windowAt rows cols r i j).frk + row < 2 * r + 1 ∧
    (windowAt rows cols r i j).fck + col < 2 * r + 1 ∧
    (windowAt rows cols r i j).frs + row = i + ((windowAt rows cols r i j).frk + row) - r ∧
    (windowAt rows cols r i j).fcs + col = j + ((windowAt rows cols r i j).fck + col) - r := by
  simp only [windowAt] at h1 h2 ⊢
  omega

/-! The passes. -/

theorem weights_get {a : ConvolveArgs V W} (ha : ArgsOk a) {pq : Nat × Nat}
    (h1 : pq.1 < 2 * a.radius + 1) (h2 : pq.2 < 2 * a.radius + 1) :
    ∃ w, a.weights[weightAt a.radius pq]? = some w := by
  have : weightAt a.radius pq < a.weights.length := by
    rw [ha.weights]
    exact rowMajor_lt h1 h2
  exact ⟨_, List.getElem?_eq_getElem this⟩

theorem source_get {a : ConvolveArgs V W} (ha : ArgsOk a) {x y : Nat} (hx : x < a.rows)
    (hy : y < a.cols) : ∃ v, a.source[x * a.cols + y]? = some v := by
  have : x * a.cols + y < a.source.length := by
    rw [ha.source]
    exact rowMajor_lt hx hy
  exact ⟨_, List.getElem?_eq_getElem this⟩

theorem nested_eq {σ : Type} {m n : Nat} (body : Nat → Nat → σ → Option σ) (s : σ) :
    forIn' (List.range m) (fun i s => forIn' (List.range n) (fun j s => body i j s) s) s =
      forIn' ((List.range m).flatMap (fun i => (List.range n).map (fun j => (i, j))))
        (fun ij s => body ij.1 ij.2 s) s := by
  rw [forIn'_flatMap]
  congr 1
  funext i s
  rw [forIn'_map]

theorem imagePass_eq (ops : ConvolveOps V W A R) {a : ConvolveArgs V W} {pol : ConvolvePolicy V}
    {alt : Nat → Nat → Option V} {out : Int → Int → Option V} (ha : ArgsOk a)
    (hp : PolicyIs a pol alt out) {i j : Nat} (hi : i < a.rows) (hj : j < a.cols)
    (hkept : ¬ Kept a pol i j) (s : A × Bool) :
    imagePass ops a pol (windowAt a.rows a.cols a.radius i j) s =
      forIn' ((kernelCells a.radius).filter (fun pq =>
        decide (InImage a.rows a.cols a.radius i j pq)))
        (fun pq s => some (addTerm ops (imageTerm ops a alt i j pq) s)) s := by
  unfold imagePass
  rw [nested_eq, inImage_cells hi hj, forIn'_map]
  apply forIn'_congr
  rintro ⟨row, col⟩ hrc s
  simp only [List.mem_flatMap, List.mem_range, List.mem_map, Prod.mk.injEq] at hrc
  obtain ⟨row, hrow, col, hcol, rfl, rfl⟩ := hrc
  obtain ⟨h1, h2, h3, h4, h5, h6⟩ := inImage_window hrow hcol
  set w := windowAt a.rows a.cols a.radius i j with hw
  have hidx : linearIndex a.cols (w.frs + row) w.fcs + col =
      below a.cols a.radius i j (w.frk + row, w.fck + col) := by
    simp only [linearIndex, below]
    rw [← h5, ← h6]
    omega
  have hk : linearIndex a.kernelSize (w.frk + row) w.fck + col =
      weightAt a.radius (w.frk + row, w.fck + col) := by
    simp only [linearIndex, weightAt, ConvolveArgs.kernelSize]
    omega
  have hb : below a.cols a.radius i j (w.frk + row, w.fck + col) =
      (w.frs + row) * a.cols + (w.fcs + col) := by
    simp only [below]
    rw [← h5, ← h6]
  have hlt : below a.cols a.radius i j (w.frk + row, w.fck + col) < a.rows * a.cols := by
    rw [hb]
    exact rowMajor_lt h1 h2
  have hin : InImage a.rows a.cols a.radius i j (w.frk + row, w.fck + col) := by
    unfold InImage
    simp only [hw, windowAt] at hrow hcol ⊢
    omega
  obtain ⟨b, hb1, hb2⟩ := isNoData_spec ha.noData ha.source hlt
  obtain ⟨wt, hwt⟩ := weights_get ha (pq := (w.frk + row, w.fck + col)) h3 h4
  obtain ⟨v, hv⟩ := source_get ha h1 h2
  rw [← hb] at hv
  simp only [hidx, hk, hb1, hwt, hv]
  cases b with
  | true =>
    have hnd : NoDataAt a.noData a.source
        (below a.cols a.radius i j (w.frk + row, w.fck + col)) := hb2.1 rfl
    have halt := hp.alternative i hi j hj hkept (w.frk + row, w.fck + col)
      (mem_kernelCells.2 ⟨h3, h4⟩) hin hnd
    simp only [← h5, ← h6] at halt
    simp only [Option.bind_eq_bind, Option.bind_some, if_true, halt, imageTerm, if_pos hnd, hwt]
    rw [← h5, ← h6]
    cases alt (w.frs + row) (w.fcs + col) <;> rfl
  | false =>
    have hnd : ¬ NoDataAt a.noData a.source
        (below a.cols a.radius i j (w.frk + row, w.fck + col)) := fun h => by
      simpa using hb2.2 h
    simp only [Option.bind_eq_bind, Option.bind_some, Bool.false_eq_true, if_false,
      imageTerm, if_neg hnd, hwt, hv]
    cases hz : ops.nonZero wt <;> rfl

theorem side_outside {rows cols r i j : Nat} (hr : 2 * r ≤ rows)
    (hc : 2 * r ≤ cols) {side : Side} (hs : sideAt rows cols r i j = some side) {pq : Nat × Nat}
    (hpq : pq ∈ kernelCells r) :
    side.outside (windowAt rows cols r i j) pq.1 pq.2 =
      !decide (InImage rows cols r i j pq) := by
  rw [mem_kernelCells] at hpq
  unfold sideAt at hs
  split_ifs at hs
  all_goals
    obtain rfl := Option.some.inj hs
    rw [Bool.eq_iff_iff]
    simp only [Side.outside, Bool.or_eq_true, decide_eq_true_eq,
      Bool.not_eq_true', decide_eq_false_iff_not]
    simp only [windowAt, InImage]
    omega

theorem outOfImagePass_eq (ops : ConvolveOps V W A R) {a : ConvolveArgs V W} {pol : ConvolvePolicy V}
    {alt : Nat → Nat → Option V} {out : Int → Int → Option V} (ha : ArgsOk a)
    (hp : PolicyIs a pol alt out) {i j : Nat} (hi : i < a.rows) (hj : j < a.cols) {side : Side}
    (hs : sideAt a.rows a.cols a.radius i j = some side) (s : A × Bool) :
    outOfImagePass ops a pol side (windowAt a.rows a.cols a.radius i j) s =
      forIn' (kernelCells a.radius) (fun pq s => some (addTerm ops
        (if InImage a.rows a.cols a.radius i j pq then none else outsideTerm a out i j pq) s)) s := by
  unfold outOfImagePass
  rw [nested_eq]
  show forIn' (kernelCells a.radius) _ s = _
  apply forIn'_congr
  intro pq hpq s
  rw [side_outside ha.rows ha.cols hs hpq]
  have hm := mem_kernelCells.1 hpq
  by_cases hin : InImage a.rows a.cols a.radius i j pq
  · simp only [hin, decide_true, Bool.not_true, Bool.false_eq_true, if_false, if_true]
    rfl
  · obtain ⟨wt, hwt⟩ := weights_get ha hm.1 hm.2
    have hk : linearIndex a.kernelSize pq.1 0 + pq.2 = weightAt a.radius pq := by
      simp only [linearIndex, weightAt, ConvolveArgs.kernelSize]
      omega
    simp only [hin, decide_false, Bool.not_false, if_true, if_false,
      hp.outOfImage i hi j hj side hs pq hpq hin, Option.bind_eq_bind, Option.bind_some, hk, hwt,
      outsideTerm]
    cases out ((i : Int) + pq.1 - a.radius) ((j : Int) + pq.2 - a.radius) <;> rfl

theorem filterMap_split {α β : Type} (P : α → Bool) (f : α → Option β) (l : List α) :
    l.filterMap (fun x => if P x then none else f x) = (l.filter (fun x => !P x)).filterMap f := by
  induction l with
  | nil => rfl
  | cons a l ih =>
    cases h : P a with
    | true =>
      rw [List.filterMap_cons_none (by simp [h]), List.filter_cons_of_neg (by simp [h]), ih]
    | false =>
      rw [List.filter_cons_of_pos (by simp [h])]
      simp only [List.filterMap_cons, h, Bool.false_eq_true, if_false, ih]

/-- The sums that are made for a cell. -/
theorem passes_eq (ops : ConvolveOps V W A R) {a : ConvolveArgs V W} {pol : ConvolvePolicy V}
    {alt : Nat → Nat → Option V} {out : Int → Int → Option V} (ha : ArgsOk a)
    (hp : PolicyIs a pol alt out) {i j : Nat} (hi : i < a.rows) (hj : j < a.cols)
    (hkept : ¬ Kept a pol i j) :
    ((outsideSums ops a pol (sideAt a.rows a.cols a.radius i j)
      (windowAt a.rows a.cols a.radius i j)).bind fun s =>
        imagePass ops a pol (windowAt a.rows a.cols a.radius i j) s) =
      some (sums ops (terms ops a alt out i j), !(terms ops a alt out i j).isEmpty) := by
  have hfirst : (outsideSums ops a pol (sideAt a.rows a.cols a.radius i j)
      (windowAt a.rows a.cols a.radius i j)) =
      forIn' ((kernelCells a.radius).filter (fun pq =>
        !decide (InImage a.rows a.cols a.radius i j pq)))
        (fun pq s => some (addTerm ops (outsideTerm a out i j pq) s)) (ops.zero, false) := by
    cases hs : sideAt a.rows a.cols a.radius i j with
    | some side =>
      show outOfImagePass ops a pol side (windowAt a.rows a.cols a.radius i j) (ops.zero, false) = _
      rw [outOfImagePass_eq ops ha hp hi hj hs, forIn'_terms, forIn'_terms]
      have := filterMap_split (fun pq => decide (InImage a.rows a.cols a.radius i j pq))
        (outsideTerm a out i j) (kernelCells a.radius)
      simp only [decide_eq_true_eq] at this
      rw [this]
    | none =>
      have : (kernelCells a.radius).filter (fun pq =>
        !decide (InImage a.rows a.cols a.radius i j pq)) = [] := by
        rw [List.filter_eq_nil_iff]
        intro pq hpq
        rw [mem_kernelCells] at hpq
        simp only [Bool.not_eq_true', decide_eq_false_iff_not, not_not]
        unfold InImage
        unfold sideAt at hs
        split_ifs at hs
        all_goals omega
      rw [this]
      rfl
  rw [hfirst, forIn'_terms]
  show imagePass ops a pol (windowAt a.rows a.cols a.radius i j) _ = _
  rw [imagePass_eq ops ha hp hi hj hkept, forIn'_terms]
  unfold terms sums
  rw [List.foldl_append]
  congr 2
  generalize (List.filterMap (outsideTerm a out i j) _) = l
  generalize (List.filterMap (imageTerm ops a alt i j) _) = l'
  cases l <;> simp

/-- What is done for a cell is one store or one mark, and it is what it should be. -/
theorem finish_ok (ops : ConvolveOps V W A R) (outp : OutPolicy R) (l : List (V × W)) :
    ∃ f, convolveFinish ops outp (sums ops l, !l.isEmpty) = [f] ∧
      ∀ {keep : Prop}, ¬ keep → ∀ c, ConvolvedCell ops outp keep l c (f c) := by
  unfold convolveFinish
  cases hl : l with
  | nil =>
    refine ⟨outp.mark, rfl, fun hk c => ⟨fun h => absurd h hk, fun _ _ => mark_spec _ _,
      fun _ _ => mark_spec _ _, fun _ h => absurd rfl h⟩⟩
  | cons x l' =>
    cases hw : ops.within (sums ops (x :: l')) with
    | false =>
      refine ⟨outp.mark, by simp [hw], fun hk c => ⟨fun h => absurd h hk, fun _ _ => mark_spec _ _,
        fun _ _ => mark_spec _ _, fun _ _ h => by simp [hw] at h⟩⟩
    | true =>
      refine ⟨storeAct (ops.normalize (sums ops (x :: l'))), by simp [hw], fun hk c =>
        ⟨fun h => absurd h hk, fun _ h => by simp at h, fun _ h => by simp [hw] at h,
        fun _ _ _ => rfl⟩⟩

theorem kept_spec {a : ConvolveArgs V W} {pol : ConvolvePolicy V} (ha : ArgsOk a) {i j : Nat}
    (hi : i < a.rows) (hj : j < a.cols) :
    ∃ k, keptNoData a pol (i * a.cols + j) = some k ∧ (k = true ↔ Kept a pol i j) := by
  obtain ⟨b, hb1, hb2⟩ := isNoData_spec ha.noData ha.source (rowMajor_lt hi hj)
  unfold keptNoData Kept
  cases hk : pol.keepNoData with
  | false => exact ⟨false, rfl, by simp⟩
  | true => exact ⟨b, hb1, by simp [hb2]⟩

theorem cell_ok (ops : ConvolveOps V W A R) {a : ConvolveArgs V W} {pol : ConvolvePolicy V}
    {alt : Nat → Nat → Option V} {out : Int → Int → Option V} (outp : OutPolicy R) (ha : ArgsOk a)
    (hp : PolicyIs a pol alt out) {i j : Nat} (hi : i < a.rows) (hj : j < a.cols) :
    ∃ f, cellActs ops a pol outp (i * a.cols + j) = some [f] ∧
      ∀ c, ConvolvedCell ops outp
        (pol.keepNoData = true ∧ NoDataAt a.noData a.source (i * a.cols + j))
        (terms ops a alt out i j) c (f c) := by
  rw [cellActs_at ops a pol outp hj]
  have hrest : ¬ Kept a pol i j → ((outsideSums ops a pol (sideAt a.rows a.cols a.radius i j)
      (windowAt a.rows a.cols a.radius i j)).bind fun s =>
        (imagePass ops a pol (windowAt a.rows a.cols a.radius i j) s).bind fun s =>
          some (convolveFinish ops outp s)) =
      some (convolveFinish ops outp (sums ops (terms ops a alt out i j),
        !(terms ops a alt out i j).isEmpty)) := by
    intro hkept
    rw [← Option.bind_assoc, passes_eq ops ha hp hi hj hkept]
    rfl
  obtain ⟨f, hf1, hf2⟩ := finish_ok ops outp (terms ops a alt out i j)
  obtain ⟨k, hk1, hk2⟩ := kept_spec ha hi hj (pol := pol)
  unfold convolveCell
  rw [hk1]
  cases k with
  | true =>
    have hk := hk2.1 rfl
    exact ⟨outp.mark, rfl, fun c => ⟨fun _ => mark_spec _ _, fun h => absurd hk h,
      fun h => absurd hk h, fun h => absurd hk h⟩⟩
  | false =>
    refine ⟨f, ?_, hf2 (fun h => by simpa using hk2.2 h)⟩
    rw [← hf1]
    exact hrest (fun h => by simpa using hk2.2 h)

end Fern
