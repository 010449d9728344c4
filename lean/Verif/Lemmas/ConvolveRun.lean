import Verif.Lemmas.ConvolveCell
/-
Sequential and parallel runs of a convolution.
-/
namespace Fern

open Spec

variable {V W A R : Type}

/-! The inner part for kernels with boolean weights. -/

theorem mapM_eq_some {α β : Type} {f : α → Option β} {g : α → β} {l : List α}
    (h : ∀ x ∈ l, f x = some (g x)) : l.mapM f = some (l.map g) := by
  induction l with
  | nil => rfl
  | cons x l ih =>
    rw [List.mapM_cons, h x (by simp), ih (fun y hy => h y (by simp [hy]))]
    rfl

theorem kernelOffsets_eq {a : ConvolveArgs V Bool} (ha : ArgsOk a) :
    kernelOffsets a = some (((kernelCells a.radius).filter (fun pq =>
      (a.weights[weightAt a.radius pq]?).getD false)).map (fun pq =>
        (pq.1, pq.2, pq.1 * a.cols + pq.2))) := by
  have hin : ∀ p < a.kernelSize, carryFor 0 a.kernelSize () id (fun c () => do
      let on ← a.weights[linearIndex a.kernelSize p c]?
      some (if on then [(p, c, p * a.cols + c)] else [])) =
      some (((List.range a.kernelSize).map (fun q => (p, q))).flatMap (fun pq =>
        if (a.weights[weightAt a.radius pq]?).getD false
        then [(pq.1, pq.2, pq.1 * a.cols + pq.2)] else [])) := by
    intro p hp
    rw [carryFor_eq (fun q => some (if (a.weights[weightAt a.radius (p, q)]?).getD false
        then [(p, q, p * a.cols + q)] else [])) (fun _ => ()) rfl (fun _ _ _ => rfl)]
    · rw [mapM_eq_some (fun x _ => rfl), Nat.sub_zero, ← List.range_eq_range', Option.map_some,
        ← List.flatMap_def, List.flatMap_map]
    · intro q _ hq
      obtain ⟨w, hw⟩ := weights_get ha (pq := (p, q)) hp hq
      show (a.weights[weightAt a.radius (p, q)]?).bind _ = _
      rw [hw]
      rfl
  unfold kernelOffsets
  refine (carryFor_eq (fun p => some (((List.range a.kernelSize).map (fun q => (p, q))).flatMap (fun pq =>
        if (a.weights[weightAt a.radius pq]?).getD false
        then [(pq.1, pq.2, pq.1 * a.cols + pq.2)] else []))) (fun _ => ()) rfl (fun _ _ _ => rfl)
        (fun p _ hp => hin p hp)).trans ?_
  rw [mapM_eq_some (fun x _ => rfl), Nat.sub_zero, ← List.range_eq_range', Option.map_some,
    ← List.flatMap_def, ← List.flatMap_assoc]
  congr 1
  show (kernelCells a.radius).flatMap _ = _
  generalize kernelCells a.radius = l
  induction l with
  | nil => rfl
  | cons x l ih =>
    rw [List.flatMap_cons, ih]
    cases h : (a.weights[weightAt a.radius x]?).getD false with
    | true => rw [List.filter_cons_of_pos (by simpa using h), List.map_cons]; rfl
    | false => rw [List.filter_cons_of_neg (by simp [h])]; rfl

theorem filterMap_filter_none {α β : Type} (P : α → Bool) (f : α → Option β) (l : List α)
    (h : ∀ x ∈ l, P x = false → f x = none) : (l.filter P).filterMap f = l.filterMap f := by
  induction l with
  | nil => rfl
  | cons x l ih =>
    have ih := ih (fun y hy => h y (by simp [hy]))
    cases hx : P x with
    | true =>
      rw [List.filter_cons_of_pos hx, List.filterMap_cons, List.filterMap_cons, ih]
    | false =>
      rw [List.filter_cons_of_neg (by simp [hx]), List.filterMap_cons_none (h x (by simp) hx), ih]

theorem innerCellBool_eq (ops : ConvolveOps V Bool A R) {a : ConvolveArgs V Bool}
    {pol : ConvolvePolicy V} {out : Int → Int → Option V} (outp : OutPolicy R) (ha : ArgsOk a)
    (hp : PolicyIs a pol (fun _ _ => none) out) (hz : ∀ w, ops.nonZero w = w) {i j : Nat}
    (h1 : a.radius ≤ i) (h2 : i + a.radius < a.rows) (h3 : a.radius ≤ j)
    (h4 : j + a.radius < a.cols) :
    innerCellBool ops a pol outp (((kernelCells a.radius).filter (fun pq =>
      (a.weights[weightAt a.radius pq]?).getD false)).map (fun pq =>
        (pq.1, pq.2, pq.1 * a.cols + pq.2))) (i - a.radius) (j - a.radius) (i * a.cols + j) =
      convolveCell ops a pol outp none (windowAt a.rows a.cols a.radius i j)
        (i * a.cols + j) := by
  have hpass : ¬ Kept a pol i j → offsetsPass ops a pol (((kernelCells a.radius).filter (fun pq =>
      (a.weights[weightAt a.radius pq]?).getD false)).map (fun pq =>
        (pq.1, pq.2, pq.1 * a.cols + pq.2))) (i - a.radius) (j - a.radius) (ops.zero, false) =
      imagePass ops a pol (windowAt a.rows a.cols a.radius i j) (ops.zero, false) := by
    intro hkept
    rw [imagePass_eq ops ha hp (by omega) (by omega) hkept, forIn'_terms]
    have hall : (kernelCells a.radius).filter (fun pq =>
        decide (InImage a.rows a.cols a.radius i j pq)) = kernelCells a.radius := by
      rw [List.filter_eq_self]
      intro pq hpq
      rw [mem_kernelCells] at hpq
      rw [decide_eq_true_eq]
      unfold InImage
      omega
    rw [hall]
    unfold offsetsPass
    rw [forIn'_map]
    have hnone : ∀ pq ∈ kernelCells a.radius, (a.weights[weightAt a.radius pq]?).getD false = false →
        imageTerm ops a (fun _ _ => none) i j pq = none := by
      intro pq hpq hf
      rw [mem_kernelCells] at hpq
      obtain ⟨w, hw⟩ := weights_get ha hpq.1 hpq.2
      rw [hw] at hf
      have hw' : w = false := hf
      unfold imageTerm
      split
      · rfl
      · rw [hw, hw']
        cases a.source[below a.cols a.radius i j pq]? with
        | none => rfl
        | some v => simp [hz]
    rw [← filterMap_filter_none _ _ _ hnone, ← forIn'_terms]
    apply forIn'_congr
    intro pq hpq s
    obtain ⟨hpq, hon⟩ := List.mem_filter.1 hpq
    rw [mem_kernelCells] at hpq
    obtain ⟨w, hw⟩ := weights_get ha hpq.1 hpq.2
    rw [hw] at hon
    obtain rfl : w = true := hon
    have hx : i + pq.1 - a.radius < a.rows := by omega
    have hy : j + pq.2 - a.radius < a.cols := by omega
    have hidx : linearIndex a.cols (i - a.radius) (j - a.radius) + (pq.1 * a.cols + pq.2) =
        below a.cols a.radius i j pq := by
      unfold linearIndex below
      rw [show i + pq.1 - a.radius = (i - a.radius) + pq.1 by omega, Nat.add_mul]
      omega
    obtain ⟨v, hv⟩ := source_get ha hx hy
    obtain ⟨b, hb1, hb2⟩ := isNoData_spec ha.noData ha.source (rowMajor_lt hx hy)
    simp only [hidx]
    change a.source[below a.cols a.radius i j pq]? = some v at hv
    change a.noData.isNoData a.source (below a.cols a.radius i j pq) = some b at hb1
    change b = true ↔ NoDataAt a.noData a.source (below a.cols a.radius i j pq) at hb2
    rw [hb1]
    unfold imageTerm
    cases b with
    | true =>
      rw [if_pos (hb2.1 rfl)]
      have e1 : i - a.radius + pq.1 = i + pq.1 - a.radius := by omega
      have e2 : j - a.radius + pq.2 = j + pq.2 - a.radius := by omega
      simp only [Option.bind_eq_bind, Option.bind_some, if_true, e1, e2,
        hp.alternative i (by omega) j (by omega) hkept pq (mem_kernelCells.2 hpq)
          (by unfold InImage; omega) (hb2.1 rfl)]
      rfl
    | false =>
      rw [if_neg (fun h => by simpa using hb2.2 h), hv, hw]
      simp [hz, addTerm]
  unfold innerCellBool convolveCell
  obtain ⟨k, hk1, hk2⟩ := kept_spec ha (show i < a.rows by omega) (show j < a.cols by omega)
    (pol := pol)
  rw [hk1]
  cases k with
  | true => rfl
  | false =>
    rw [hpass (fun h => by simpa using hk2.2 h)]
    rfl

/-- Both versions of the inner part do the same. -/
theorem innerPartBool_eq (ops : ConvolveOps V Bool A R) {a : ConvolveArgs V Bool}
    {pol : ConvolvePolicy V} {out : Int → Int → Option V} (outp : OutPolicy R) (ha : ArgsOk a)
    (hp : PolicyIs a pol (fun _ _ => none) out) (hz : ∀ w, ops.nonZero w = w) {r : IndexRanges2}
    (h1 : a.radius ≤ r.rows.b) (h2 : r.rows.e + a.radius ≤ a.rows)
    (h3 : a.radius ≤ r.cols.b) (h4 : r.cols.e + a.radius ≤ a.cols) :
    innerPartBool ops a pol outp r = taskActs (cellActs ops a pol outp) (cells2d a.cols r) := by
  unfold innerPartBool
  rw [kernelOffsets_eq ha]
  simp only [usub_of_le h1, usub_of_le h3]
  refine region_eq (fun i => i - a.radius) (fun i j => (i * a.cols + j, j - a.radius)) ?_ ?_ ?_ ?_ ?_
  · simp
  · intro i _ _; show i - a.radius + 1 = i + 1 - a.radius; omega
  · intro i _ _; simp only [linearIndex]
  · intro i j _ _; simp only [Prod.mk.injEq]; omega
  · intro i j _ _ _ _
    rw [cellActs_at ops a pol outp (by omega)]
    have hside : sideAt a.rows a.cols a.radius i j = none := by
      have h1 : ¬ i < a.radius := by omega
      have h2 : i + a.radius < a.rows := by omega
      have h3 : ¬ j < a.radius := by omega
      have h4 : j + a.radius < a.cols := by omega
      simp [sideAt, h1, h2, h3, h4]
    rw [hside]
    show (innerCellBool ops a pol outp _ (i - a.radius) (j - a.radius) (i * a.cols + j)).map _ = _
    rw [innerCellBool_eq ops outp ha hp hz (by omega) (by omega) (by omega) (by omega)]

/-! All regions. -/

/-- The inner part does, for each block, what the cell function says. -/
def InnerOk (ops : ConvolveOps V W A R) (a : ConvolveArgs V W) (pol : ConvolvePolicy V)
    (outp : OutPolicy R) (inner : IndexRanges2 → Option (List (Act (Cell R)))) : Prop :=
  ∀ r : IndexRanges2, a.radius ≤ r.rows.b → r.rows.e + a.radius ≤ a.rows →
    a.radius ≤ r.cols.b → r.cols.e + a.radius ≤ a.cols →
    inner r = taskActs (cellActs ops a pol outp) (cells2d a.cols r)

theorem mapM_id_append {α : Type} (l l' : List (Option α)) :
    (l ++ l').mapM id = (l.mapM id).bind (fun x => (l'.mapM id).map (fun y => x ++ y)) := by
  rw [List.mapM_append]
  cases l.mapM id with
  | none => rfl
  | some x => cases l'.mapM id <;> rfl

theorem mapM_id_map {α β : Type} (f : α → Option β) (l : List α) :
    (l.map f).mapM id = l.mapM f := by
  rw [List.mapM_map]
  rfl

theorem borderRegions_eq (ops : ConvolveOps V W A R) (a : ConvolveArgs V W) (pol : ConvolvePolicy V)
    (outp : OutPolicy R) (hr : 2 * a.radius ≤ a.rows) (hc : 2 * a.radius ≤ a.cols) :
    borderRegions ops a pol outp =
      (borderCells a.rows a.cols a.radius).map (taskActs (cellActs ops a pol outp)) := by
  unfold borderRegions borderCells
  rw [northWestCorner_eq ops a pol outp hr hc, northEastCorner_eq ops a pol outp hr hc,
    southWestCorner_eq ops a pol outp hr hc, southEastCorner_eq ops a pol outp hr hc,
    northSide_eq ops a pol outp hr hc, westSide_eq ops a pol outp hr hc,
    eastSide_eq ops a pol outp hr hc, southSide_eq ops a pol outp hr hc]
  rfl

/-- The regions of a sequential run. -/
theorem sequentialRegions_eq {ops : ConvolveOps V W A R} {a : ConvolveArgs V W}
    {pol : ConvolvePolicy V} {outp : OutPolicy R}
    {inner : IndexRanges2 → Option (List (Act (Cell R)))} (hin : InnerOk ops a pol outp inner)
    (hr : 2 * a.radius ≤ a.rows) (hc : 2 * a.radius ≤ a.cols) :
    (borderRegions ops a pol outp ++ [inner ⟨⟨a.radius, a.rows - a.radius⟩,
      ⟨a.radius, a.cols - a.radius⟩⟩]).mapM id =
      parTasks (cellActs ops a pol outp) (borderCells a.rows a.cols a.radius ++
        [cells2d a.cols ⟨⟨a.radius, a.rows - a.radius⟩, ⟨a.radius, a.cols - a.radius⟩⟩]) := by
  rw [borderRegions_eq ops a pol outp hr hc,
    hin ⟨⟨a.radius, a.rows - a.radius⟩, ⟨a.radius, a.cols - a.radius⟩⟩ (le_refl _)
      (by show a.rows - a.radius + a.radius ≤ a.rows; omega) (le_refl _)
      (by show a.cols - a.radius + a.radius ≤ a.cols; omega)]
  unfold parTasks
  rw [← mapM_id_map, List.map_append]
  rfl

/-- The tasks of a parallel run. -/
theorem convolveTasks_eq {ops : ConvolveOps V W A R} {a : ConvolveArgs V W}
    {pol : ConvolvePolicy V} {outp : OutPolicy R}
    {inner : IndexRanges2 → Option (List (Act (Cell R)))} (hin : InnerOk ops a pol outp inner)
    (hr : 2 * a.radius ≤ a.rows) (hc : 2 * a.radius ≤ a.cols) {t : Nat} (ht : 1 ≤ t) :
    ∃ blocks, blocks.flatten =
        cells2d a.cols ⟨⟨a.radius, a.rows - a.radius⟩, ⟨a.radius, a.cols - a.radius⟩⟩ ∧
      convolveTasks ops a pol outp inner t (a.rows, a.cols) =
        parTasks (cellActs ops a pol outp) (borderCells a.rows a.cols a.radius ++ blocks) := by
  obtain ⟨l, hl, _⟩ := indexRanges_consecutive ht (a.rows - 2 * a.radius)
  have hl2 : ∃ l2, indexRanges2 t (a.rows - 2 * a.radius) (a.cols - 2 * a.radius) = some l2 := by
    rw [indexRanges2_eq, hl]; exact ⟨_, rfl⟩
  obtain ⟨l2, hl2⟩ := hl2
  refine ⟨l2.map (fun x => cells2d a.cols (shiftRange a.radius x)),
    innerBlocks_flatten hr hc ht hl2, ?_⟩
  unfold convolveTasks
  simp only [BEq.rfl, hr, hc, decide_true, hl2]
  have hmap : l2.map (fun r => inner ⟨⟨r.rows.b + a.radius, r.rows.e + a.radius⟩,
      ⟨r.cols.b + a.radius, r.cols.e + a.radius⟩⟩) =
      (l2.map (fun x => cells2d a.cols (shiftRange a.radius x))).map
        (taskActs (cellActs ops a pol outp)) := by
    rw [List.map_map]
    apply List.map_congr_left
    intro x hx
    obtain ⟨b1, b2, b3, b4⟩ := innerBlocks_bounds hr hc ht hl2 hx
    exact hin (shiftRange a.radius x) b1 b2 b3 b4
  show (borderRegions ops a pol outp ++ _).mapM id = _
  rw [hmap, borderRegions_eq ops a pol outp hr hc, ← List.map_append, mapM_id_map]
  rfl

/-! Running. -/

theorem elemActs_idx_map {γ : Type} (F : Nat → γ → γ) (l : List Nat) :
    (elemActs (fun i => [F i]) l).map Act.idx = l := by
  unfold elemActs
  induction l with
  | nil => rfl
  | cons i l ih => rw [List.flatMap_cons, List.map_append, ih]; rfl

/-- Tasks over blocks that together are all positions, in some order: any interleaving has the same
effect. -/
theorem parPerm {γ : Type} {acts : Nat → Option (List (γ → γ))} {F : Nat → γ → γ} {n : Nat}
    (h : ∀ i < n, acts i = some [F i]) {blocks : List (List Nat)}
    (hb : blocks.flatten.Perm (List.range n)) :
    ∃ tasks, parTasks acts blocks = some tasks ∧
      (tasks.flatten.map Act.idx).Perm (List.range n) ∧
      ∀ l, Interleave tasks l → ∀ s : List γ, s.length = n →
        runActs l s = some (s.mapIdx F) := by
  have hlt : ∀ i ∈ blocks.flatten, i < n := fun i hi => by
    simpa using hb.mem_iff.1 hi
  refine ⟨_, parTasks_eq (acts' := fun i => [F i]) (fun i hi => h i (hlt i hi)), ?_, ?_⟩
  · rw [elemActs_flatten, elemActs_idx_map]
    exact hb
  · intro l hl s hs
    have hpw := elemStep_pointwise h
    have hnd : blocks.flatten.Nodup := hb.nodup_iff.2 List.nodup_range
    rw [par_eq_seq hpw hnd hlt hl s hs, pointwise_loop hpw _ hlt hnd s hs]
    congr 1
    apply List.ext_getElem
    · simp
    · intro k h1 h2
      have hk : k ∈ blocks.flatten := by
        rw [hb.mem_iff, List.mem_range]
        simpa [hs] using h1
      simp only [List.getElem_mapIdx, hk, if_true]
      rfl

/-- Main result on runs, for any regions and blocks that partition the image. -/
theorem convolve_runs {ops : ConvolveOps V W A R} {a : ConvolveArgs V W}
    {pol : ConvolvePolicy V} {outp : OutPolicy R}
    {inner : IndexRanges2 → Option (List (Act (Cell R)))} (hin : InnerOk ops a pol outp inner)
    (hr : 2 * a.radius ≤ a.rows) (hc : 2 * a.radius ≤ a.cols)
    {F : Nat → Cell R → Cell R}
    (hF : ∀ i < a.rows * a.cols, cellActs ops a pol outp i = some [F i])
    (res : List (Cell R)) (hres : res.length = a.rows * a.cols) :
    convolveSequential ops a pol outp inner res = some (res.mapIdx F) ∧
    ∀ t, 1 ≤ t → ∀ o, ParResult (convolveTasks ops a pol outp inner t (a.rows, a.cols)) res o ↔
      o = some (res.mapIdx F) := by
  constructor
  · obtain ⟨tasks, ht, _, hrun⟩ := parPerm hF (blocks := borderCells a.rows a.cols a.radius ++
      [cells2d a.cols ⟨⟨a.radius, a.rows - a.radius⟩, ⟨a.radius, a.cols - a.radius⟩⟩]) (by
        rw [List.flatten_append, List.flatten_singleton]
        exact regions_perm hr hc)
    have e1 : IndexRange.make a.radius (usub a.rows a.radius) =
        some ⟨a.radius, a.rows - a.radius⟩ := by
      rw [usub_of_le (by omega)]
      exact if_pos (by omega)
    have e2 : IndexRange.make a.radius (usub a.cols a.radius) =
        some ⟨a.radius, a.cols - a.radius⟩ := by
      rw [usub_of_le (by omega)]
      exact if_pos (by omega)
    unfold convolveSequential
    rw [e1, e2]
    show ((borderRegions ops a pol outp ++ [inner ⟨⟨a.radius, a.rows - a.radius⟩,
      ⟨a.radius, a.cols - a.radius⟩⟩]).mapM id).bind (fun regions => runActs regions.flatten res) = _
    rw [sequentialRegions_eq hin hr hc, ht]
    exact hrun _ (Interleave.sequential tasks) res hres
  · intro t ht
    obtain ⟨blocks, hb, he⟩ := convolveTasks_eq hin hr hc ht
    obtain ⟨tasks, htk, _, hrun⟩ := parPerm hF
      (blocks := borderCells a.rows a.cols a.radius ++ blocks) (by
        rw [List.flatten_append, hb]
        exact regions_perm hr hc)
    refine parResult_iff (fun o ho => ?_)
    rw [he, htk] at ho
    obtain ⟨l, hl, rfl⟩ := ho
    exact hrun l hl res hres

end Fern
