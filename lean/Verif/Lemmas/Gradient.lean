import Verif.Lemmas.ConvolveRun
import Verif.Spec.Gradient
import Mathlib.Data.List.Perm.Basic
/-
The passes of a gradient in closed form, and what is done for each cell.
-/
namespace Fern

open Spec

variable {V R : Type}

/-! What is done for each cell. -/

/-- The cell at a position, along the rows. -/
def gradientCellX (ops : GradientOps V R) (a : GradientArgs V) (outp : OutPolicy R) (k : Nat) :
    Option (List (Cell R → Cell R)) :=
  if k % a.cols = 0 then gradientFirst ops a outp true k (k + 1)
  else if k % a.cols + 1 = a.cols then gradientLast ops a outp true (k - 1) k
  else gradientMiddle ops a outp true true (k - 1) k (k + 1)

/-- The cell at a position, along the columns. -/
def gradientCellY (ops : GradientOps V R) (a : GradientArgs V) (outp : OutPolicy R) (k : Nat) :
    Option (List (Cell R → Cell R)) :=
  if k < a.cols then gradientFirst ops a outp true k (k + a.cols)
  else if a.rows * a.cols ≤ k + a.cols then gradientLast ops a outp true (k - a.cols) k
  else gradientMiddle ops a outp true true (k - a.cols) k (k + a.cols)

/-- What the loops find at a position. -/
theorem lookGradient {a : GradientArgs V} (ha : RasterOk a) {i j : Nat} (hi : i < a.rows)
    (hj : j < a.cols) :
    ∃ b v, a.noData.isNoData a.value (i * a.cols + j) = some b ∧
      a.value[i * a.cols + j]? = some v ∧
      ∀ x y : Int, x = i → y = j → validValue a x y = if b then none else some v := by
  have hlt := rowMajor_lt hi hj
  obtain ⟨b, hb, hnd⟩ := isNoData_spec ha.policy ha.value hlt
  have hlt' : i * a.cols + j < a.value.length := by rw [ha.value]; exact hlt
  refine ⟨b, a.value[i * a.cols + j], hb, List.getElem?_eq_getElem hlt', ?_⟩
  rintro x y rfl rfl
  unfold validValue
  cases b with
  | true =>
    rw [if_neg]
    · rfl
    · rintro ⟨-, -, -, -, h⟩
      exact h (hnd.1 rfl)
  | false =>
    rw [if_pos]
    · simp [hlt']
    · refine ⟨by omega, by omega, by omega, by omega, fun h => ?_⟩
      simpa using hnd.2 h

theorem validValue_outside {a : GradientArgs V} {x y : Int}
    (h : x < 0 ∨ (a.rows : Int) ≤ x ∨ y < 0 ∨ (a.cols : Int) ≤ y) : validValue a x y = none := by
  unfold validValue
  rw [if_neg]
  rintro ⟨h1, h2, h3, h4, -⟩
  omega

theorem gradientFirst_ok (ops : GradientOps V R) {a : GradientArgs V} (outp : OutPolicy R)
    {center next : Nat} {b b' : Bool} {v v' : V}
    (h1 : a.noData.isNoData a.value center = some b) (h2 : a.value[center]? = some v)
    (h3 : a.noData.isNoData a.value next = some b') (h4 : a.value[next]? = some v') :
    ∃ f, gradientFirst ops a outp true center next = some [f] ∧
      ∀ c, GradientCell ops outp none (if b then none else some v)
        (if b' then none else some v') c (f c) := by
  unfold gradientFirst
  rw [h1]
  cases b with
  | true => exact ⟨outp.mark, rfl, fun c => ⟨fun _ => mark_spec _ _, by simp, by simp, by simp,
      by simp⟩⟩
  | false =>
    simp only [h2, h3, h4, assert']
    cases b' with
    | true => exact ⟨_, rfl, fun c => ⟨by simp, by simp, by simp, by simp, by simp [storeAct]⟩⟩
    | false => exact ⟨_, rfl, fun c => ⟨by simp, by simp, by simp, by simp [storeAct], by simp⟩⟩

theorem gradientLast_ok (ops : GradientOps V R) {a : GradientArgs V} (outp : OutPolicy R)
    {prev center : Nat} {b b' : Bool} {v v' : V}
    (h1 : a.noData.isNoData a.value center = some b) (h2 : a.value[center]? = some v)
    (h3 : a.noData.isNoData a.value prev = some b') (h4 : a.value[prev]? = some v') :
    ∃ f, gradientLast ops a outp true prev center = some [f] ∧
      ∀ c, GradientCell ops outp (if b' then none else some v') (if b then none else some v)
        none c (f c) := by
  unfold gradientLast
  rw [h1]
  cases b with
  | true => exact ⟨outp.mark, rfl, fun c => ⟨fun _ => mark_spec _ _, by simp, by simp, by simp,
      by simp⟩⟩
  | false =>
    simp only [h2, h3, h4, assert']
    cases b' with
    | true => exact ⟨_, rfl, fun c => ⟨by simp, by simp, by simp, by simp, by simp [storeAct]⟩⟩
    | false => exact ⟨_, rfl, fun c => ⟨by simp, by simp, by simp [storeAct], by simp, by simp⟩⟩

theorem gradientMiddle_ok (ops : GradientOps V R) {a : GradientArgs V} (outp : OutPolicy R)
    {prev center next : Nat} {b b' b'' : Bool} {v v' v'' : V}
    (h1 : a.noData.isNoData a.value center = some b) (h2 : a.value[center]? = some v)
    (h3 : a.noData.isNoData a.value prev = some b') (h4 : a.value[prev]? = some v')
    (h5 : a.noData.isNoData a.value next = some b'') (h6 : a.value[next]? = some v'') :
    ∃ f, gradientMiddle ops a outp true true prev center next = some [f] ∧
      ∀ c, GradientCell ops outp (if b' then none else some v') (if b then none else some v)
        (if b'' then none else some v'') c (f c) := by
  unfold gradientMiddle
  rw [h1]
  cases b with
  | true => exact ⟨outp.mark, rfl, fun c => ⟨fun _ => mark_spec _ _, by simp, by simp, by simp,
      by simp⟩⟩
  | false =>
    simp only [h2, h3, h4, h5, h6, assert']
    cases b' <;> cases b'' <;> exact ⟨_, rfl, fun c => by constructor <;> simp [storeAct]⟩

theorem gradientCellX_ok (ops : GradientOps V R) {a : GradientArgs V} (ha : RasterOk a)
    (outp : OutPolicy R) (hc : 2 ≤ a.cols) {i j : Nat} (hi : i < a.rows) (hj : j < a.cols) :
    ∃ f, gradientCellX ops a outp (i * a.cols + j) = some [f] ∧
      ∀ c, GradientCell ops outp (validValue a i (j - 1)) (validValue a i j)
        (validValue a i (j + 1)) c (f c) := by
  have hm : (i * a.cols + j) % a.cols = j := by
    rw [Nat.mul_add_mod_self_right, Nat.mod_eq_of_lt hj]
  obtain ⟨b, v, h1, h2, hv⟩ := lookGradient ha hi hj
  unfold gradientCellX
  rw [hm, hv i j rfl rfl]
  by_cases hj0 : j = 0
  · subst hj0
    obtain ⟨b', v', h3, h4, hv'⟩ := lookGradient ha hi (j := 0 + 1) (by omega)
    rw [if_pos rfl, validValue_outside (x := i) (y := (0 : Nat) - 1) (by omega),
      hv' i ((0 : Nat) + 1) rfl (by omega)]
    exact gradientFirst_ok ops outp h1 h2 h3 h4
  · obtain ⟨j, rfl⟩ : ∃ k, j = k + 1 := ⟨j - 1, by omega⟩
    obtain ⟨b', v', h3, h4, hv'⟩ := lookGradient ha hi (j := j) (by omega)
    rw [if_neg hj0, hv' i ((j + 1 : Nat) - 1) rfl (by omega)]
    have e : i * a.cols + (j + 1) - 1 = i * a.cols + j := by omega
    rw [e]
    by_cases hjl : j + 1 + 1 = a.cols
    · rw [if_pos hjl, validValue_outside (x := i) (y := (j + 1 : Nat) + 1) (by omega)]
      exact gradientLast_ok ops outp h1 h2 h3 h4
    · obtain ⟨b'', v'', h5, h6, hv''⟩ := lookGradient ha hi (j := j + 1 + 1) (by omega)
      rw [if_neg hjl, hv'' i ((j + 1 : Nat) + 1) rfl (by omega)]
      exact gradientMiddle_ok ops outp h1 h2 h3 h4 h5 h6

theorem gradientCellY_ok (ops : GradientOps V R) {a : GradientArgs V} (ha : RasterOk a)
    (outp : OutPolicy R) (hr : 2 ≤ a.rows) {i j : Nat} (hi : i < a.rows) (hj : j < a.cols) :
    ∃ f, gradientCellY ops a outp (i * a.cols + j) = some [f] ∧
      ∀ c, GradientCell ops outp (validValue a (i - 1) j) (validValue a i j)
        (validValue a (i + 1) j) c (f c) := by
  obtain ⟨b, v, h1, h2, hv⟩ := lookGradient ha hi hj
  unfold gradientCellY
  rw [hv i j rfl rfl]
  have en : i * a.cols + j + a.cols = (i + 1) * a.cols + j := by rw [Nat.succ_mul]; omega
  by_cases hi0 : i = 0
  · subst hi0
    obtain ⟨b', v', h3, h4, hv'⟩ := lookGradient ha (i := 0 + 1) (by omega) hj
    rw [if_pos (by omega), validValue_outside (x := (0 : Nat) - 1) (y := j) (by omega),
      hv' ((0 : Nat) + 1) j (by omega) rfl, en]
    exact gradientFirst_ok ops outp h1 h2 h3 h4
  · obtain ⟨i, rfl⟩ : ∃ k, i = k + 1 := ⟨i - 1, by omega⟩
    obtain ⟨b', v', h3, h4, hv'⟩ := lookGradient ha (i := i) (by omega) hj
    have e : (i + 1) * a.cols + j - a.cols = i * a.cols + j := by rw [Nat.succ_mul]; omega
    rw [if_neg (by rw [Nat.succ_mul]; omega), hv' ((i + 1 : Nat) - 1) j (by omega) rfl, e, en]
    by_cases hil : i + 1 + 1 = a.rows
    · rw [if_pos (by rw [hil]; omega), validValue_outside (x := (i + 1 : Nat) + 1) (y := j) (by omega)]
      exact gradientLast_ok ops outp h1 h2 h3 h4
    · obtain ⟨b'', v'', h5, h6, hv''⟩ := lookGradient ha (i := i + 1 + 1) (by omega) hj
      rw [if_neg, hv'' ((i + 1 : Nat) + 1) j (by omega) rfl]
      · exact gradientMiddle_ok ops outp h1 h2 h3 h4 h5 h6
      · have := rowMajor_lt (n1 := a.rows) (n2 := a.cols) (r := i + 1 + 1) (c := j) (by omega) hj
        omega

/-! The passes. -/

theorem gradientLeft_eq (ops : GradientOps V R) (a : GradientArgs V) (outp : OutPolicy R)
    (hc : 2 ≤ a.cols) (r : IndexRanges2) :
    gradientLeft ops a outp r =
      taskActs (gradientCellX ops a outp) (cells2d a.cols ⟨r.rows, ⟨r.cols.b, 1⟩⟩) := by
  unfold gradientLeft
  rw [region_eq (n2 := a.cols) (acts := gradientCellX ops a outp) (fun _ => ())
    (fun i j => (i * a.cols + j, i * a.cols + j + 1)) rfl (fun _ _ _ => rfl)
    (fun _ _ _ => rfl) (fun i j _ _ => rfl)]
  intro i j _ _ _ h4
  obtain rfl : j = 0 := by omega
  simp only [actsAt, gradientCellX, Nat.add_zero, Nat.mul_mod_left, if_true]
  rw [decide_eq_true (by omega : 0 + 1 < a.cols)]

theorem gradientRight_eq (ops : GradientOps V R) (a : GradientArgs V) (outp : OutPolicy R)
    (hc : 2 ≤ a.cols) (r : IndexRanges2) (he : r.cols.e ≤ a.cols) :
    gradientRight ops a outp r =
      taskActs (gradientCellX ops a outp) (cells2d a.cols ⟨r.rows, ⟨a.cols - 1, r.cols.e⟩⟩) := by
  unfold gradientRight
  simp only [usub_of_le (by omega : 1 ≤ a.cols), linearIndex]
  have e : ∀ i, assert' (decide (i * a.cols + (a.cols - 1) > 0)) = some () := by
    intro i
    rw [decide_eq_true (by omega)]
    rfl
  simp only [e]
  show carryFor r.rows.b r.rows.e () id (fun i _ => carryFor (a.cols - 1) r.cols.e
    (i * a.cols + (a.cols - 1), usub (i * a.cols + (a.cols - 1)) 1) (fun s => (s.1 + 1, s.2 + 1))
      (fun j s => actsAt s.1 (gradientLast ops a outp (decide (j > 0)) s.2 s.1))) = _
  rw [region_eq (n2 := a.cols) (acts := gradientCellX ops a outp) (fun _ => ())
    (fun i j => (i * a.cols + j, i * a.cols + j - 1)) rfl (fun _ _ _ => rfl)
    (fun i _ _ => by rw [usub_of_le (by omega)])
    (fun i j h1 h2 => by simp only [Prod.mk.injEq]; omega)]
  intro i j _ _ h3 h4
  have hm : (i * a.cols + j) % a.cols = j := by
    rw [Nat.mul_add_mod_self_right, Nat.mod_eq_of_lt (by omega)]
  simp only [actsAt, gradientCellX, hm]
  rw [if_neg (by omega), if_pos (by omega), decide_eq_true (by omega : j > 0)]

theorem gradientCenterX_eq (ops : GradientOps V R) (a : GradientArgs V) (outp : OutPolicy R)
    (hc : 2 ≤ a.cols) (r : IndexRanges2) :
    gradientCenterX ops a outp r =
      taskActs (gradientCellX ops a outp)
        (cells2d a.cols ⟨r.rows, ⟨max 1 r.cols.b, min (a.cols - 1) r.cols.e⟩⟩) := by
  unfold gradientCenterX
  simp only [usub_of_le (by omega : 1 ≤ a.cols), linearIndex]
  rw [region_eq (n2 := a.cols) (acts := gradientCellX ops a outp) (fun _ => ())
    (fun i j => (i * a.cols + j - 1, i * a.cols + j, i * a.cols + j + 1)) rfl (fun _ _ _ => rfl)
    (fun i _ _ => by rw [usub_of_le (by omega)])
    (fun i j h1 h2 => by simp only [Prod.mk.injEq]; omega)]
  intro i j _ _ h3 h4
  have hm : (i * a.cols + j) % a.cols = j := by
    rw [Nat.mul_add_mod_self_right, Nat.mod_eq_of_lt (by omega)]
  simp only [actsAt, gradientCellX, hm]
  rw [if_neg (by omega), if_neg (by omega), decide_eq_true (by omega : j > 0),
    decide_eq_true (by omega : j + 1 < a.cols)]

theorem gradientTop_eq (ops : GradientOps V R) (a : GradientArgs V) (outp : OutPolicy R)
    (hr : 2 ≤ a.rows) (r : IndexRanges2) (he : r.cols.e ≤ a.cols) :
    gradientTop ops a outp r =
      taskActs (gradientCellY ops a outp) (cells2d a.cols ⟨⟨r.rows.b, 1⟩, r.cols⟩) := by
  unfold gradientTop
  simp only [linearIndex]
  rw [region_eq (n2 := a.cols) (acts := gradientCellY ops a outp) (fun _ => ())
    (fun i j => (i * a.cols + j, (i + 1) * a.cols + j)) rfl (fun _ _ _ => rfl)
    (fun _ _ _ => rfl) (fun i j _ _ => rfl)]
  intro i j _ h2 _ h4
  obtain rfl : i = 0 := by omega
  simp only [actsAt, gradientCellY]
  rw [decide_eq_true (by omega : 0 + 1 < a.rows), if_pos (by omega)]
  simp only [Nat.zero_mul, Nat.zero_add, Nat.one_mul, Nat.add_comm a.cols j]

theorem gradientBottom_eq (ops : GradientOps V R) (a : GradientArgs V) (outp : OutPolicy R)
    (hr : 2 ≤ a.rows) (r : IndexRanges2) (hre : r.rows.e ≤ a.rows) :
    gradientBottom ops a outp r =
      taskActs (gradientCellY ops a outp)
        (cells2d a.cols ⟨⟨a.rows - 1, r.rows.e⟩, r.cols⟩) := by
  unfold gradientBottom
  simp only [linearIndex, usub_of_le (by omega : 1 ≤ a.rows)]
  rw [region_eq (n2 := a.cols) (acts := gradientCellY ops a outp) (fun _ => ())
    (fun i j => (i * a.cols + j, (i - 1) * a.cols + j)) rfl (fun _ _ _ => rfl)
    (fun i h1 _ => by rw [usub_of_le (by omega)]) (fun i j _ _ => rfl)]
  intro i j h1 h2 _ h4
  obtain ⟨i, rfl⟩ : ∃ k, i = k + 1 := ⟨i - 1, by omega⟩
  have e : i + 1 + 1 = a.rows := by omega
  simp only [actsAt, gradientCellY]
  rw [if_neg (by rw [Nat.succ_mul]; omega), if_pos (by rw [← e, Nat.succ_mul (i + 1)]; omega),
    decide_eq_true (by omega : i + 1 > 0),
    show (i + 1) * a.cols + j - a.cols = (i + 1 - 1) * a.cols + j by
      rw [Nat.succ_mul, Nat.add_sub_cancel]; omega]

theorem gradientCenterY_eq (ops : GradientOps V R) (a : GradientArgs V) (outp : OutPolicy R)
    (hr : 2 ≤ a.rows) (r : IndexRanges2) (he : r.cols.e ≤ a.cols) :
    gradientCenterY ops a outp r =
      taskActs (gradientCellY ops a outp)
        (cells2d a.cols ⟨⟨max 1 r.rows.b, min (a.rows - 1) r.rows.e⟩, r.cols⟩) := by
  unfold gradientCenterY
  simp only [linearIndex, usub_of_le (by omega : 1 ≤ a.rows)]
  rw [region_eq (n2 := a.cols) (acts := gradientCellY ops a outp) (fun _ => ())
    (fun i j => ((i - 1) * a.cols + j, i * a.cols + j, (i + 1) * a.cols + j)) rfl
    (fun _ _ _ => rfl) (fun i h1 _ => by rw [usub_of_le (by omega)]) (fun i j _ _ => rfl)]
  intro i j h1 h2 _ h4
  obtain ⟨i, rfl⟩ : ∃ k, i = k + 1 := ⟨i - 1, by omega⟩
  simp only [actsAt, gradientCellY]
  have hlt := rowMajor_lt (n1 := a.rows) (n2 := a.cols) (r := i + 1 + 1) (c := j) (by omega)
    (by omega)
  have en : (i + 1 + 1) * a.cols = (i + 1) * a.cols + a.cols := Nat.succ_mul _ _
  rw [if_neg (by rw [Nat.succ_mul]; omega), if_neg (by omega),
    decide_eq_true (by omega : i + 1 > 0), decide_eq_true (by omega : i + 1 + 1 < a.rows),
    show (i + 1) * a.cols + j - a.cols = (i + 1 - 1) * a.cols + j by
      rw [Nat.succ_mul, Nat.add_sub_cancel]; omega,
    show (i + 1) * a.cols + j + a.cols = (i + 1 + 1) * a.cols + j by omega]

/-! The blocks. -/

theorem taskActs_append3 {γ : Type} (acts : Nat → Option (List (γ → γ))) (l1 l2 l3 : List Nat) :
    (do some ((← taskActs acts l1) ++ (← taskActs acts l2) ++ (← taskActs acts l3))) =
      taskActs acts (l1 ++ l2 ++ l3) := by
  unfold taskActs
  rw [List.mapM_append, List.mapM_append]
  cases l1.mapM (fun i => (acts i).map (fun fs => fs.map (Act.mk i))) with
  | none => rfl
  | some x =>
    cases l2.mapM (fun i => (acts i).map (fun fs => fs.map (Act.mk i))) with
    | none => rfl
    | some y =>
      cases l3.mapM (fun i => (acts i).map (fun fs => fs.map (Act.mk i))) with
      | none => rfl
      | some z =>
        show some (x.flatten ++ y.flatten ++ z.flatten) = some ((x ++ y ++ z).flatten)
        simp

/-- The cells of a block along the rows, in the order in which they are visited. -/
def gradientCellsX (a : GradientArgs V) (r : IndexRanges2) : List Nat :=
  cells2d a.cols ⟨r.rows, ⟨r.cols.b, 1⟩⟩ ++ cells2d a.cols ⟨r.rows, ⟨a.cols - 1, r.cols.e⟩⟩ ++
    cells2d a.cols ⟨r.rows, ⟨max 1 r.cols.b, min (a.cols - 1) r.cols.e⟩⟩

/-- The cells of a block along the columns, in the order in which they are visited. -/
def gradientCellsY (a : GradientArgs V) (r : IndexRanges2) : List Nat :=
  cells2d a.cols ⟨⟨r.rows.b, 1⟩, r.cols⟩ ++ cells2d a.cols ⟨⟨a.rows - 1, r.rows.e⟩, r.cols⟩ ++
    cells2d a.cols ⟨⟨max 1 r.rows.b, min (a.rows - 1) r.rows.e⟩, r.cols⟩

theorem gradientXBlock_eq (ops : GradientOps V R) (a : GradientArgs V) (outp : OutPolicy R)
    (hc : 2 ≤ a.cols) (r : IndexRanges2) (he : r.cols.e ≤ a.cols) :
    gradientXBlock ops a outp r = taskActs (gradientCellX ops a outp) (gradientCellsX a r) := by
  unfold gradientXBlock gradientCellsX
  rw [gradientLeft_eq ops a outp hc, gradientRight_eq ops a outp hc r he,
    gradientCenterX_eq ops a outp hc, taskActs_append3]

theorem gradientYBlock_eq (ops : GradientOps V R) (a : GradientArgs V) (outp : OutPolicy R)
    (hr : 2 ≤ a.rows) (r : IndexRanges2) (hre : r.rows.e ≤ a.rows) (he : r.cols.e ≤ a.cols) :
    gradientYBlock ops a outp r = taskActs (gradientCellY ops a outp) (gradientCellsY a r) := by
  unfold gradientYBlock gradientCellsY
  rw [gradientTop_eq ops a outp hr r he, gradientBottom_eq ops a outp hr r hre,
    gradientCenterY_eq ops a outp hr r he, taskActs_append3]

theorem gradientCellsX_perm {a : GradientArgs V} (hc : 2 ≤ a.cols) (rows : IndexRange) :
    (gradientCellsX a ⟨rows, ⟨0, a.cols⟩⟩).Perm (cells2d a.cols ⟨rows, ⟨0, a.cols⟩⟩) := by
  unfold gradientCellsX
  rw [show max 1 0 = 1 by omega, show min (a.cols - 1) a.cols = a.cols - 1 by omega]
  refine List.Perm.trans ?_ ((cells2d_cols (b := 1) (by omega) (by omega)).trans
    (List.Perm.append_left _ (cells2d_cols (b := a.cols - 1) (by omega) (by omega)))).symm
  rw [List.append_assoc]
  exact List.Perm.append_left _ List.perm_append_comm

theorem cells2d_none {n2 b e : Nat} {cols : IndexRange} (h : e ≤ b) :
    cells2d n2 ⟨⟨b, e⟩, cols⟩ = [] := by
  simp [cells2d, IndexRange.indices, Nat.sub_eq_zero_of_le h]

theorem gradientCellsY_perm {a : GradientArgs V} (hr : 2 ≤ a.rows) {b e : Nat} (hbe : b < e)
    (he : e ≤ a.rows) (cols : IndexRange) :
    (gradientCellsY a ⟨⟨b, e⟩, cols⟩).Perm (cells2d a.cols ⟨⟨b, e⟩, cols⟩) := by
  unfold gradientCellsY
  rw [List.append_assoc]
  refine (List.Perm.append_left _ List.perm_append_comm).trans (.of_eq ?_)
  simp only
  have h1 : cells2d a.cols ⟨⟨b, 1⟩, cols⟩ = cells2d a.cols ⟨⟨b, max 1 b⟩, cols⟩ := by
    by_cases h : b < 1
    · rw [show max 1 b = 1 by omega]
    · rw [cells2d_none (by omega), cells2d_none (by omega)]
  have h2 : cells2d a.cols ⟨⟨a.rows - 1, e⟩, cols⟩ =
      cells2d a.cols ⟨⟨min (a.rows - 1) e, e⟩, cols⟩ := by
    by_cases h : a.rows - 1 < e
    · rw [show min (a.rows - 1) e = a.rows - 1 by omega]
    · rw [cells2d_none (by omega), cells2d_none (by omega)]
  rw [h1, h2]
  rw [← cells2d_rows (b := min (a.rows - 1) e) (by omega) (by omega),
    ← cells2d_rows (by omega) (by omega)]

/-! The runs. -/

/-- A function for each cell. -/
theorem fn_of_cells {γ : Type} {acts : Nat → Option (List (γ → γ))} {P : Nat → Nat → γ → γ → Prop}
    {n1 n2 : Nat} (h : ∀ i j, i < n1 → j < n2 →
      ∃ f, acts (i * n2 + j) = some [f] ∧ ∀ c, P i j c (f c)) :
    ∃ F : Nat → γ → γ, (∀ k < n1 * n2, acts k = some [F k]) ∧
      ∀ i j, i < n1 → j < n2 → ∀ c, P i j c (F (i * n2 + j) c) := by
  classical
  refine ⟨fun k => if hk : ∃ f, acts k = some [f] then hk.choose else id, ?_, ?_⟩
  · intro k hk
    obtain ⟨i, j, hi, hj, rfl⟩ := rowMajor_exists hk
    obtain ⟨f, hf, -⟩ := h i j hi hj
    have : ∃ f, acts (i * n2 + j) = some [f] := ⟨f, hf⟩
    simp only [dif_pos this]
    exact this.choose_spec
  · intro i j hi hj c
    obtain ⟨f, hf, hP⟩ := h i j hi hj
    have : ∃ f, acts (i * n2 + j) = some [f] := ⟨f, hf⟩
    simp only [dif_pos this]
    have e := this.choose_spec
    have e' := List.cons.inj (Option.some.inj (hf.symm.trans e))
    rw [← e'.1]
    exact hP c

theorem rowBlocks_perm {g : IndexRanges2 → List Nat} {n1 n2 t : Nat} (ht : 1 ≤ t)
    (h : ∀ b e, b < e → e ≤ n1 → (g ⟨⟨b, e⟩, ⟨0, n2⟩⟩).Perm (cells2d n2 ⟨⟨b, e⟩, ⟨0, n2⟩⟩)) :
    ∃ l, indexRanges2 t n1 n2 = some l ∧
      (∀ r ∈ l, r.rows.b < r.rows.e ∧ r.rows.e ≤ n1 ∧ r.cols = ⟨0, n2⟩) ∧
      ((l.map g).flatten).Perm (List.range (n1 * n2)) := by
  obtain ⟨l, hl, hcons⟩ := indexRanges_consecutive ht n1
  refine ⟨l.map (fun r => ⟨r, ⟨0, n2⟩⟩), by rw [indexRanges2_eq, hl]; rfl, ?_, ?_⟩
  · intro r hr
    obtain ⟨x, hx, rfl⟩ := List.mem_map.1 hr
    obtain ⟨k, hk, rfl⟩ := List.mem_iff_getElem.1 hx
    have := hcons.bounds k hk
    exact ⟨this.2.1, this.2.2, rfl⟩
  · rw [List.map_map, ← cells2d_all n1 n2]
    have e := consecutive_cells (n2 := n2) (cols := ⟨0, n2⟩) (r := 0) hcons
    simp only [Nat.add_zero] at e
    rw [← e, List.flatMap_def]
    rw [← List.flatMap_def, ← List.flatMap_def]
    apply List.Perm.flatMap_left
    intro x hx
    obtain ⟨k, hk, rfl⟩ := List.mem_iff_getElem.1 hx
    have := hcons.bounds k hk
    exact h _ _ this.2.1 this.2.2

theorem mapM_congr_mem {α β : Type} {f g : α → Option β} {l : List α}
    (h : ∀ x ∈ l, f x = g x) : l.mapM f = l.mapM g := by
  induction l with
  | nil => rfl
  | cons x l ih =>
    rw [List.mapM_cons, List.mapM_cons, h x (by simp), ih (fun y hy => h y (by simp [hy]))]

/-- Main result on runs, for any order in which the cells of a block are visited. -/
theorem rowBlocks_run {γ : Type} {acts : Nat → Option (List (γ → γ))} {F : Nat → γ → γ}
    {n1 n2 : Nat} {g : IndexRanges2 → List Nat} {block : IndexRanges2 → Option (List (Act γ))}
    (hF : ∀ k < n1 * n2, acts k = some [F k])
    (hb : ∀ r, r.rows.e ≤ n1 → r.cols = ⟨0, n2⟩ → block r = taskActs acts (g r))
    (hg : ∀ b e, b < e → e ≤ n1 → (g ⟨⟨b, e⟩, ⟨0, n2⟩⟩).Perm (cells2d n2 ⟨⟨b, e⟩, ⟨0, n2⟩⟩))
    (hg0 : (g ⟨⟨0, n1⟩, ⟨0, n2⟩⟩).Perm (cells2d n2 ⟨⟨0, n1⟩, ⟨0, n2⟩⟩)) (res : List γ) (hres : res.length = n1 * n2) :
    (block ⟨⟨0, n1⟩, ⟨0, n2⟩⟩).bind (fun l => runActs l res) = some (res.mapIdx F) ∧
    ∀ t, 1 ≤ t → ∀ o, ParResult ((indexRanges2 t n1 n2).bind (fun l => l.mapM block)) res o ↔
      o = some (res.mapIdx F) := by
  constructor
  · rw [hb _ (by simp) rfl]
    obtain ⟨tasks, ht, -, hrun⟩ := parPerm hF (blocks := [g ⟨⟨0, n1⟩, ⟨0, n2⟩⟩]) (by
      rw [List.flatten_singleton, ← cells2d_all n1 n2]
      exact hg0)
    unfold parTasks at ht
    cases hx : taskActs acts (g ⟨⟨0, n1⟩, ⟨0, n2⟩⟩) with
    | none => simp [hx] at ht
    | some x =>
      simp [hx] at ht
      subst ht
      have := hrun _ (Interleave.sequential [x]) res hres
      simpa using this
  · intro t ht
    obtain ⟨l, hl, hm, hp⟩ := rowBlocks_perm ht hg
    obtain ⟨tasks, htk, -, hrun⟩ := parPerm hF hp
    refine parResult_iff (fun o ho => ?_)
    have e : l.mapM block = some tasks := by
      rw [← htk]
      unfold parTasks
      rw [List.mapM_map]
      exact mapM_congr_mem (fun r hr => hb r (hm r hr).2.1 (hm r hr).2.2)
    rw [hl] at ho
    simp only [Option.bind_some, e] at ho
    obtain ⟨x, hx, rfl⟩ := ho
    exact hrun x hx res hres

end Fern
