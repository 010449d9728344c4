import Verif.Lemmas.Gradient
import Mathlib.Tactic.FieldSimp
import Mathlib.Tactic.Ring
import Mathlib.Tactic.Linarith
/-
C72: gradients of a raster.
-/
namespace Fern

open Spec

variable {V R : Type}

/-- `out` is the result of a gradient: of each cell, given the valid values before, at and after the
cell. -/
def IsGradient (ops : GradientOps V R) (a : GradientArgs V) (outp : OutPolicy R)
    (prev next : Int → Int → Int × Int) (res out : List (Cell R)) : Prop :=
  out.length = a.rows * a.cols ∧
  ∀ i j, i < a.rows → j < a.cols → ∀ d, res[i * a.cols + j]? = some d →
    ∃ d', out[i * a.cols + j]? = some d' ∧
      GradientCell ops outp (validValue a (prev i j).1 (prev i j).2) (validValue a i j)
        (validValue a (next i j).1 (next i j).2) d d'

/-- The gradient along the rows: the neighbours are the cells to the left and to the right. Any
parallel execution has the same result. -/
theorem C72_x (ops : GradientOps V R) {a : GradientArgs V} (ha : RasterOk a) (outp : OutPolicy R)
    (hc : 2 ≤ a.cols) (res : List (Cell R)) (hres : res.length = a.rows * a.cols) :
    ∃ out, gradientX ops a outp (a.rows, a.cols) res = some out ∧
      IsGradient ops a outp (fun i j => (i, j - 1)) (fun i j => (i, j + 1)) res out ∧
      ∀ t, 1 ≤ t → ∀ o, ParResult (gradientXTasks ops a outp t (a.rows, a.cols)) res o ↔
        o = some out := by
  obtain ⟨F, hF, hP⟩ := fn_of_cells (acts := gradientCellX ops a outp)
    (P := fun i j => GradientCell ops outp (validValue a i (j - 1)) (validValue a i j)
        (validValue a i (j + 1)))
    (fun i j hi hj => gradientCellX_ok ops ha outp hc hi hj)
  obtain ⟨h1, h2⟩ := rowBlocks_run (n1 := a.rows) (n2 := a.cols) (g := gradientCellsX a)
    (block := gradientXBlock ops a outp) hF
    (fun r _ hr => gradientXBlock_eq ops a outp hc r (by rw [hr]))
    (fun b e _ _ => gradientCellsX_perm hc _) (gradientCellsX_perm hc _) res hres
  refine ⟨res.mapIdx F, ?_, ⟨by simp [hres], ?_⟩, ?_⟩
  · simpa [gradientX, assert'] using h1
  · intro i j hi hj d hd
    exact ⟨F (i * a.cols + j) d, by simp [hd], hP i j hi hj d⟩
  · simpa [gradientXTasks, assert'] using h2

/-- The gradient along the columns: the neighbours are the cells above and below. -/
theorem C72_y (ops : GradientOps V R) {a : GradientArgs V} (ha : RasterOk a) (outp : OutPolicy R)
    (hr : 2 ≤ a.rows) (res : List (Cell R)) (hres : res.length = a.rows * a.cols) :
    ∃ out, gradientY ops a outp (a.rows, a.cols) res = some out ∧
      IsGradient ops a outp (fun i j => (i - 1, j)) (fun i j => (i + 1, j)) res out ∧
      ∀ t, 1 ≤ t → ∀ o, ParResult (gradientYTasks ops a outp t (a.rows, a.cols)) res o ↔
        o = some out := by
  obtain ⟨F, hF, hP⟩ := fn_of_cells (acts := gradientCellY ops a outp)
    (P := fun i j => GradientCell ops outp (validValue a (i - 1) j) (validValue a i j)
        (validValue a (i + 1) j))
    (fun i j hi hj => gradientCellY_ok ops ha outp hr hi hj)
  obtain ⟨h1, h2⟩ := rowBlocks_run (n1 := a.rows) (n2 := a.cols) (g := gradientCellsY a)
    (block := gradientYBlock ops a outp) hF
    (fun r h hr' => gradientYBlock_eq ops a outp hr r h (by rw [hr']))
    (fun b e hbe he => gradientCellsY_perm hr hbe he _)
    (gradientCellsY_perm hr (by omega) (by omega) _) res hres
  refine ⟨res.mapIdx F, ?_, ⟨by simp [hres], ?_⟩, ?_⟩
  · simpa [gradientY, assert'] using h1
  · intro i j hi hj d hd
    exact ⟨F (i * a.cols + j) d, by simp [hd], hP i j hi hj d⟩
  · simpa [gradientYTasks, assert'] using h2

/-- A raster with a single column makes `gradient_x` fail: an assertion does not hold. -/
theorem C72_x_one_column (ops : GradientOps V R) (a : GradientArgs V) (outp : OutPolicy R)
    (hc : a.cols = 1) (hr : 1 ≤ a.rows) (rs : Nat × Nat) (res : List (Cell R)) :
    gradientX ops a outp rs res = none := by
  unfold gradientX
  by_cases h1 : a.rows = rs.1
  · by_cases h2 : a.cols = rs.2
    · have e : gradientRight ops a outp ⟨⟨0, rs.1⟩, ⟨0, rs.2⟩⟩ = none := by
        obtain ⟨k, hk⟩ : ∃ k, rs.1 = k + 1 := ⟨rs.1 - 1, by omega⟩
        unfold gradientRight carryFor
        simp only [hk, hc, usub_of_le (Nat.le_refl 1)]
        rfl
      simp only [h1, h2, gradientXBlock, e, assert']
      cases gradientLeft ops a outp ⟨⟨0, rs.1⟩, ⟨0, rs.2⟩⟩ with
      | none => simp only [beq_self_eq_true, if_true]; rfl
      | some x => simp only [beq_self_eq_true, if_true]; rfl
    · simp [h1, h2, assert']
  · simp [h1, assert']

/-- A raster with a single row makes `gradient_y` fail if one of its cells is valid. -/
theorem C72_y_one_row (ops : GradientOps V R) {a : GradientArgs V} (ha : RasterOk a)
    (outp : OutPolicy R) (hr : a.rows = 1) {j : Nat} (hj : j < a.cols)
    (hv : ¬NoDataAt a.noData a.value j) (rs : Nat × Nat) (res : List (Cell R)) :
    gradientY ops a outp rs res = none := by
  unfold gradientY
  by_cases h1 : a.rows = rs.1
  · by_cases h2 : a.cols = rs.2
    · have e : gradientTop ops a outp ⟨⟨0, rs.1⟩, ⟨0, rs.2⟩⟩ = none := by
        unfold gradientTop
        simp only [carryFor, Nat.sub_zero, carryLoop]
        have : carryLoop (fun s : Nat × Nat => (s.1 + 1, s.2 + 1)) (fun _ s => actsAt s.1
            (gradientFirst ops a outp (decide (0 + 1 < a.rows)) s.1 s.2)) rs.2 0
            (linearIndex a.cols 0 0, linearIndex a.cols (0 + 1) 0) = none := by
          have hce := carryLoop_eq (σ := Nat × Nat) (next := fun s => (s.1 + 1, s.2 + 1))
            (body := fun _ s => actsAt s.1
              (gradientFirst ops a outp (decide (0 + 1 < a.rows)) s.1 s.2))
            (f := fun j => actsAt j (gradientFirst ops a outp false j (a.cols + j)))
            (inv := fun j => (j, a.cols + j)) rs.2 0 (fun _ _ _ => rfl)
            (fun j _ _ => by simp [hr])
          simp only [linearIndex, Nat.zero_mul, Nat.add_zero, Nat.zero_add, Nat.one_mul] at hce ⊢
          rw [hce, Option.map_eq_none_iff]
          have hmem : j ∈ List.range' 0 rs.2 := by simp; omega
          have hbad : actsAt j (gradientFirst ops a outp false j (a.cols + j)) = none := by
            obtain ⟨b, hb, hnd⟩ := isNoData_spec (i := j) ha.policy ha.value (by simp [hr, hj])
            cases b with
            | true => exact absurd (hnd.1 rfl) hv
            | false => simp [actsAt, gradientFirst, hb, assert']
          revert hmem hbad
          generalize List.range' 0 rs.2 = l
          intro hmem hbad
          induction l with
          | nil => simp at hmem
          | cons x l ih =>
            rw [List.mapM_cons]
            rcases List.mem_cons.1 hmem with rfl | h
            · rw [hbad]; rfl
            · rw [ih h]
              cases actsAt x (gradientFirst ops a outp false x (a.cols + x)) <;> rfl
        rw [this]
        rfl
      simp only [h1, h2, gradientYBlock, e, assert', beq_self_eq_true, if_true]
      rfl
    · simp [h1, h2, assert']
  · simp [h1, assert']

/-- The gradient in exact arithmetic. -/
def ratGradient (cellSize : ℚ) : GradientOps ℚ ℚ where
  near v w := (w - v) / cellSize
  far v w := (w - v) / (cellSize + cellSize)
  zero := 0

theorem linear_cell {cellSize slope : ℚ} (hs : cellSize ≠ 0) {outp : OutPolicy ℚ}
    {prev center next : Option ℚ} {c : ℚ} {d d' : Cell ℚ} (hcenter : center = some c)
    (hp : ∀ p, prev = some p → c = p + slope * cellSize)
    (hn : ∀ n, next = some n → n = c + slope * cellSize)
    (hany : prev ≠ none ∨ next ≠ none)
    (h : GradientCell (ratGradient cellSize) outp prev center next d d') :
    d' = ⟨slope, d.masked⟩ := by
  have h2 : cellSize + cellSize ≠ 0 := by
    intro e
    apply hs
    linarith
  cases hp' : prev with
  | none =>
    cases hn' : next with
    | none => simp [hp', hn'] at hany
    | some n =>
      rw [h.nextOnly c n hp' hcenter hn', hn n hn']
      congr 1
      simp only [ratGradient]
      field_simp
      ring
  | some p =>
    cases hn' : next with
    | none =>
      rw [h.prevOnly p c hp' hcenter hn', hp p hp']
      congr 1
      simp only [ratGradient]
      field_simp
      ring
    | some n =>
      rw [h.both p c n hp' hcenter hn', hn n hn', hp p hp']
      congr 1
      simp only [ratGradient]
      field_simp
      ring

/-- The gradient of a field which increases linearly along the rows is the same everywhere, also along
the borders and next to no-data: the increase per unit of length. Cells without a valid neighbour in
their row are the exception. -/
theorem C72_linear_x {cellSize slope : ℚ} (hs : cellSize ≠ 0) {a : GradientArgs ℚ} (ha : RasterOk a)
    (outp : OutPolicy ℚ) (hc : 2 ≤ a.cols) (base : Int → ℚ)
    (hlin : ∀ x y v, validValue a x y = some v → v = base x + slope * cellSize * y)
    {res out : List (Cell ℚ)} (hres : res.length = a.rows * a.cols)
    (hout : gradientX (ratGradient cellSize) a outp (a.rows, a.cols) res = some out)
    {i j : Nat} (hi : i < a.rows) (hj : j < a.cols) (hv : validValue a i j ≠ none)
    (hany : validValue a i (j - 1) ≠ none ∨ validValue a i (j + 1) ≠ none) :
    ∃ d', out[i * a.cols + j]? = some d' ∧ d'.val = slope := by
  obtain ⟨out', h1, ⟨-, h2⟩, -⟩ := C72_x (ratGradient cellSize) ha outp hc res hres
  obtain rfl := Option.some.inj (hout.symm.trans h1)
  have hlt := rowMajor_lt hi hj
  obtain ⟨d', hd', hg⟩ := h2 i j hi hj _ (List.getElem?_eq_getElem (by rw [hres]; exact hlt))
  obtain ⟨c, hcv⟩ := Option.ne_none_iff_exists'.1 hv
  refine ⟨d', hd', ?_⟩
  rw [linear_cell hs hcv ?_ ?_ hany hg]
  · intro p hp
    rw [hlin _ _ _ hp, hlin _ _ _ hcv]
    push_cast
    ring
  · intro n hn
    rw [hlin _ _ _ hn, hlin _ _ _ hcv]
    push_cast
    ring

/-- The same along the columns. -/
theorem C72_linear_y {cellSize slope : ℚ} (hs : cellSize ≠ 0) {a : GradientArgs ℚ} (ha : RasterOk a)
    (outp : OutPolicy ℚ) (hr : 2 ≤ a.rows) (base : Int → ℚ)
    (hlin : ∀ x y v, validValue a x y = some v → v = base y + slope * cellSize * x)
    {res out : List (Cell ℚ)} (hres : res.length = a.rows * a.cols)
    (hout : gradientY (ratGradient cellSize) a outp (a.rows, a.cols) res = some out)
    {i j : Nat} (hi : i < a.rows) (hj : j < a.cols) (hv : validValue a i j ≠ none)
    (hany : validValue a (i - 1) j ≠ none ∨ validValue a (i + 1) j ≠ none) :
    ∃ d', out[i * a.cols + j]? = some d' ∧ d'.val = slope := by
  obtain ⟨out', h1, ⟨-, h2⟩, -⟩ := C72_y (ratGradient cellSize) ha outp hr res hres
  obtain rfl := Option.some.inj (hout.symm.trans h1)
  have hlt := rowMajor_lt hi hj
  obtain ⟨d', hd', hg⟩ := h2 i j hi hj _ (List.getElem?_eq_getElem (by rw [hres]; exact hlt))
  obtain ⟨c, hcv⟩ := Option.ne_none_iff_exists'.1 hv
  refine ⟨d', hd', ?_⟩
  rw [linear_cell hs hcv ?_ ?_ hany hg]
  · intro p hp
    rw [hlin _ _ _ hp, hlin _ _ _ hcv]
    push_cast
    ring
  · intro n hn
    rw [hlin _ _ _ hn, hlin _ _ _ hcv]
    push_cast
    ring

/-- A linear field with a hole: a row of cells of size 2, one of which is no-data; the increase is 1/2
per unit of length. -/
example : ∀ x y v, validValue (⟨1, 4, [1, 2, 30, 4], .byMask [0, 0, 1, 0] 1⟩ : GradientArgs ℚ) x y =
    some v → v = (fun _ => 1) x + 1 / 2 * 2 * y := by
  intro x y v h
  unfold validValue at h
  split_ifs at h with hc
  obtain ⟨h1, h2, h3, h4, h5⟩ := hc
  simp only [] at h2 h4
  obtain rfl : x = 0 := by omega
  have : y = 0 ∨ y = 1 ∨ y = 2 ∨ y = 3 := by omega
  rcases this with rfl | rfl | rfl | rfl
  · simp at h; subst h; norm_num
  · simp at h; subst h; norm_num
  · exact absurd rfl h5
  · simp at h; subst h; norm_num

/-- A raster of 2 × 4 cells, 9 is no-data. -/
def gradientExample : GradientArgs ℤ where
  rows := 2
  cols := 4
  value := [1, 2, 4, 9, 9, 3, 9, 5]
  noData := .detect (· == 9)

/-- Differences; the two kinds of distances are told apart by a factor. -/
def differences : GradientOps ℤ ℤ where
  near v w := 10 * (w - v)
  far v w := w - v
  zero := 0

example : RasterOk gradientExample ∧ 2 ≤ gradientExample.cols ∧ 2 ≤ gradientExample.rows :=
  ⟨⟨rfl, trivial⟩, by decide, by decide⟩

example : gradientX differences gradientExample .markMask (2, 4) (List.replicate 8 ⟨7, false⟩) =
    some [⟨10, false⟩, ⟨3, false⟩, ⟨20, false⟩, ⟨7, true⟩, ⟨7, true⟩, ⟨0, false⟩, ⟨7, true⟩,
      ⟨0, false⟩] := by decide +kernel

example : gradientY differences gradientExample .markMask (2, 4) (List.replicate 8 ⟨7, false⟩) =
    some [⟨0, false⟩, ⟨10, false⟩, ⟨0, false⟩, ⟨7, true⟩, ⟨7, true⟩, ⟨10, false⟩, ⟨7, true⟩,
      ⟨0, false⟩] := by decide +kernel

example : RasterOk (⟨1, 2, [3, 4], .skip⟩ : GradientArgs ℤ) ∧
    ¬NoDataAt (InPolicy.skip : InPolicy ℤ) [3, 4] 1 := ⟨⟨rfl, trivial⟩, id⟩

end Fern
