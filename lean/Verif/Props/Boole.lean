import Verif.Props.LocalOps
import Verif.Model.Boole
import Verif.Spec.Boole
/-
Property C17: Boolean operations.
-/
namespace Fern

open Spec

/-! The per-element meaning. Together with `C10_*` (binary) and `C09_*` (`not`), which give
`LocalCell` for every element of every combination of argument shapes, this is the meaning of the
operations on arrays of any shape. -/

variable {outp : OutPolicy Int} {nd : Prop} {c c' : Cell Int}

theorem toBool_eq (a : Int) : toBool a = decide (a ≠ 0) := by
  by_cases h : a = 0 <;> simp [toBool, h]

theorem truthCell_of_total {A : Type} {f : A → Int} {a : A} {b : Prop}
    (hf : (b → f a = 1) ∧ (¬ b → f a = 0))
    (h : LocalCell (totalOp f) outp nd a c c') : TruthCell outp nd b c c' := by
  refine ⟨h.noData, fun hnd => ?_⟩
  have := h.ok hnd rfl rfl
  subst this
  exact ⟨rfl, hf.1, hf.2⟩

theorem C17_and_cell {a b : Int} (h : LocalCell andOp outp nd (a, b) c c') :
    TruthCell outp nd (a ≠ 0 ∧ b ≠ 0) c c' := by
  refine truthCell_of_total ?_ h
  by_cases ha : a = 0 <;> by_cases hb : b = 0 <;> simp [ofBool, toBool_eq, ha, hb]

theorem C17_or_cell {a b : Int} (h : LocalCell orOp outp nd (a, b) c c') :
    TruthCell outp nd (a ≠ 0 ∨ b ≠ 0) c c' := by
  refine truthCell_of_total ?_ h
  by_cases ha : a = 0 <;> by_cases hb : b = 0 <;> simp [ofBool, toBool_eq, ha, hb]

theorem C17_xor_cell {a b : Int} (h : LocalCell xorOp outp nd (a, b) c c') :
    TruthCell outp nd ((a ≠ 0 ∧ b = 0) ∨ (a = 0 ∧ b ≠ 0)) c c' := by
  refine truthCell_of_total ?_ h
  by_cases ha : a = 0 <;> by_cases hb : b = 0 <;> simp [ofBool, toBool_eq, ha, hb]

theorem C17_xorBool_cell {a b : Bool} (h : LocalCell xorBoolOp outp nd (a, b) c c') :
    TruthCell outp nd ((a = true ∧ b = false) ∨ (a = false ∧ b = true)) c c' := by
  refine truthCell_of_total ?_ h
  cases a <;> cases b <;> simp [ofBool]

theorem C17_nor_cell {a b : Int} (h : LocalCell norOp outp nd (a, b) c c') :
    TruthCell outp nd (a = 0 ∧ b = 0) c c' := by
  refine truthCell_of_total ?_ h
  by_cases ha : a = 0 <;> by_cases hb : b = 0 <;> simp [ofBool, toBool_eq, ha, hb]

theorem C17_xnor_cell {a b : Int} (h : LocalCell xnorOp outp nd (a, b) c c') :
    TruthCell outp nd (a = 0 ↔ b = 0) c c' := by
  refine truthCell_of_total ?_ h
  by_cases ha : a = 0 <;> by_cases hb : b = 0 <;> simp [ofBool, toBool_eq, ha, hb]

theorem C17_xnorBool_cell {a b : Bool} (h : LocalCell xnorBoolOp outp nd (a, b) c c') :
    TruthCell outp nd (a = b) c c' := by
  refine truthCell_of_total ?_ h
  cases a <;> cases b <;> simp [ofBool]

theorem C17_not_cell {a : Int} (h : LocalCell notOp outp nd a c c') :
    TruthCell outp nd (a = 0) c c' := by
  refine truthCell_of_total ?_ h
  by_cases ha : a = 0 <;> simp [ofBool, toBool_eq, ha]

/-- C17: `and` of two 2D arrays (the other operations and shapes are obtained likewise). -/
theorem C17_and_2d2d (in1 in2 : InPolicy Int) (outp : OutPolicy Int) (n1 n2 : Nat)
    (value1 value2 : List Int) (result : List (Cell Int)) (hv1 : value1.length = n1 * n2)
    (hv2 : value2.length = n1 * n2) (hr : result.length = n1 * n2)
    (h1 : PolicyFor in1 (n1 * n2)) (h2 : PolicyFor in2 (n1 * n2)) :
    ∃ out, binary2d2d andOp in1 in2 outp (n1, n2) value1 (n1, n2) value2 (n1, n2) result = some out ∧
      Elementwise (fun i c c' => ∀ v1 v2, value1[i]? = some v1 → value2[i]? = some v2 →
        TruthCell outp (NoDataAt in1 value1 i ∨ NoDataAt in2 value2 i) (v1 ≠ 0 ∧ v2 ≠ 0) c c')
        result out := by
  obtain ⟨out, ho, hl, he⟩ :=
    C10_binary_2d2d andOp in1 in2 outp n1 n2 value1 value2 result hv1 hv2 hr h1 h2
  refine ⟨out, ho, hl, fun i c hc => ?_⟩
  obtain ⟨c', hc', h⟩ := he i c hc
  exact ⟨c', hc', fun v1 v2 e1 e2 => C17_and_cell (h v1 v2 e1 e2)⟩

/-- C17: `or` of two 2D arrays. -/
theorem C17_or_2d2d (in1 in2 : InPolicy Int) (outp : OutPolicy Int) (n1 n2 : Nat)
    (value1 value2 : List Int) (result : List (Cell Int)) (hv1 : value1.length = n1 * n2)
    (hv2 : value2.length = n1 * n2) (hr : result.length = n1 * n2)
    (h1 : PolicyFor in1 (n1 * n2)) (h2 : PolicyFor in2 (n1 * n2)) :
    ∃ out, binary2d2d orOp in1 in2 outp (n1, n2) value1 (n1, n2) value2 (n1, n2) result = some out ∧
      Elementwise (fun i c c' => ∀ v1 v2, value1[i]? = some v1 → value2[i]? = some v2 →
        TruthCell outp (NoDataAt in1 value1 i ∨ NoDataAt in2 value2 i) (v1 ≠ 0 ∨ v2 ≠ 0) c c')
        result out := by
  obtain ⟨out, ho, hl, he⟩ :=
    C10_binary_2d2d orOp in1 in2 outp n1 n2 value1 value2 result hv1 hv2 hr h1 h2
  refine ⟨out, ho, hl, fun i c hc => ?_⟩
  obtain ⟨c', hc', h⟩ := he i c hc
  exact ⟨c', hc', fun v1 v2 e1 e2 => C17_or_cell (h v1 v2 e1 e2)⟩

/-- C17: `xor` of two 2D arrays. -/
theorem C17_xor_2d2d (in1 in2 : InPolicy Int) (outp : OutPolicy Int) (n1 n2 : Nat)
    (value1 value2 : List Int) (result : List (Cell Int)) (hv1 : value1.length = n1 * n2)
    (hv2 : value2.length = n1 * n2) (hr : result.length = n1 * n2)
    (h1 : PolicyFor in1 (n1 * n2)) (h2 : PolicyFor in2 (n1 * n2)) :
    ∃ out, binary2d2d xorOp in1 in2 outp (n1, n2) value1 (n1, n2) value2 (n1, n2) result = some out ∧
      Elementwise (fun i c c' => ∀ v1 v2, value1[i]? = some v1 → value2[i]? = some v2 →
        TruthCell outp (NoDataAt in1 value1 i ∨ NoDataAt in2 value2 i) ((v1 ≠ 0 ∧ v2 = 0) ∨ (v1 = 0 ∧ v2 ≠ 0)) c c')
        result out := by
  obtain ⟨out, ho, hl, he⟩ :=
    C10_binary_2d2d xorOp in1 in2 outp n1 n2 value1 value2 result hv1 hv2 hr h1 h2
  refine ⟨out, ho, hl, fun i c hc => ?_⟩
  obtain ⟨c', hc', h⟩ := he i c hc
  exact ⟨c', hc', fun v1 v2 e1 e2 => C17_xor_cell (h v1 v2 e1 e2)⟩

/-- C17: `nor` of two 2D arrays. -/
theorem C17_nor_2d2d (in1 in2 : InPolicy Int) (outp : OutPolicy Int) (n1 n2 : Nat)
    (value1 value2 : List Int) (result : List (Cell Int)) (hv1 : value1.length = n1 * n2)
    (hv2 : value2.length = n1 * n2) (hr : result.length = n1 * n2)
    (h1 : PolicyFor in1 (n1 * n2)) (h2 : PolicyFor in2 (n1 * n2)) :
    ∃ out, binary2d2d norOp in1 in2 outp (n1, n2) value1 (n1, n2) value2 (n1, n2) result = some out ∧
      Elementwise (fun i c c' => ∀ v1 v2, value1[i]? = some v1 → value2[i]? = some v2 →
        TruthCell outp (NoDataAt in1 value1 i ∨ NoDataAt in2 value2 i) (v1 = 0 ∧ v2 = 0) c c')
        result out := by
  obtain ⟨out, ho, hl, he⟩ :=
    C10_binary_2d2d norOp in1 in2 outp n1 n2 value1 value2 result hv1 hv2 hr h1 h2
  refine ⟨out, ho, hl, fun i c hc => ?_⟩
  obtain ⟨c', hc', h⟩ := he i c hc
  exact ⟨c', hc', fun v1 v2 e1 e2 => C17_nor_cell (h v1 v2 e1 e2)⟩

/-- C17: `xnor` of two 2D arrays. -/
theorem C17_xnor_2d2d (in1 in2 : InPolicy Int) (outp : OutPolicy Int) (n1 n2 : Nat)
    (value1 value2 : List Int) (result : List (Cell Int)) (hv1 : value1.length = n1 * n2)
    (hv2 : value2.length = n1 * n2) (hr : result.length = n1 * n2)
    (h1 : PolicyFor in1 (n1 * n2)) (h2 : PolicyFor in2 (n1 * n2)) :
    ∃ out, binary2d2d xnorOp in1 in2 outp (n1, n2) value1 (n1, n2) value2 (n1, n2) result = some out ∧
      Elementwise (fun i c c' => ∀ v1 v2, value1[i]? = some v1 → value2[i]? = some v2 →
        TruthCell outp (NoDataAt in1 value1 i ∨ NoDataAt in2 value2 i) (v1 = 0 ↔ v2 = 0) c c')
        result out := by
  obtain ⟨out, ho, hl, he⟩ :=
    C10_binary_2d2d xnorOp in1 in2 outp n1 n2 value1 value2 result hv1 hv2 hr h1 h2
  refine ⟨out, ho, hl, fun i c hc => ?_⟩
  obtain ⟨c', hc', h⟩ := he i c hc
  exact ⟨c', hc', fun v1 v2 e1 e2 => C17_xnor_cell (h v1 v2 e1 e2)⟩

/-- C17: `not` of a 2D array. -/
theorem C17_not_2d (inp : InPolicy Int) (outp : OutPolicy Int) (n1 n2 : Nat)
    (value : List Int) (result : List (Cell Int)) (hv : value.length = n1 * n2)
    (hr : result.length = n1 * n2) (hp : PolicyFor inp (n1 * n2)) :
    ∃ out, unary2d notOp inp outp (n1, n2) value (n1, n2) result = some out ∧
      Elementwise (fun i c c' => ∀ v, value[i]? = some v →
        TruthCell outp (NoDataAt inp value i) (v = 0) c c') result out := by
  obtain ⟨out, ho, hl, he⟩ := C09_unary_2d notOp inp outp n1 n2 value result hv hr hp
  refine ⟨out, ho, hl, fun i c hc => ?_⟩
  obtain ⟨c', hc', h⟩ := he i c hc
  exact ⟨c', hc', fun v e => C17_not_cell (h v e)⟩

/-! ### All shapes -/

/-- The truth table of each binary Boolean operation. -/
inductive TruthTable : LocalOp (Int × Int) Int → (Int → Int → Prop) → Prop
  | and : TruthTable andOp (fun a b => a ≠ 0 ∧ b ≠ 0)
  | or : TruthTable orOp (fun a b => a ≠ 0 ∨ b ≠ 0)
  | xor : TruthTable xorOp (fun a b => (a ≠ 0 ∧ b = 0) ∨ (a = 0 ∧ b ≠ 0))
  | nor : TruthTable norOp (fun a b => a = 0 ∧ b = 0)
  | xnor : TruthTable xnorOp (fun a b => a = 0 ↔ b = 0)

theorem TruthTable.cell {op : LocalOp (Int × Int) Int} {T : Int → Int → Prop}
    (t : TruthTable op T) {a b : Int} (h : LocalCell op outp nd (a, b) c c') :
    TruthCell outp nd (T a b) c c' := by
  cases t with
  | and => exact C17_and_cell h
  | or => exact C17_or_cell h
  | xor => exact C17_xor_cell h
  | nor => exact C17_nor_cell h
  | xnor => exact C17_xnor_cell h

/-- A table looks only at the truth values. -/
theorem TruthTable.congr {op : LocalOp (Int × Int) Int} {T : Int → Int → Prop}
    (t : TruthTable op T) {a b b' : Int} (h : b' = 0 ↔ b = 0) : T a b' = T a b := by
  cases t <;> simp [h]

section Shapes

variable {op : LocalOp (Int × Int) Int} {T : Int → Int → Prop} (t : TruthTable op T)
  (in1 in2 : InPolicy Int) (outp : OutPolicy Int)
include t

/-- C17: every operation, 0D/0D. -/
theorem C17_shape_0d0d (v1 v2 : Int) (c : Cell Int) (h1 : PolicyFor in1 1) (h2 : PolicyFor in2 1) :
    ∃ c', binary0d0d op in1 in2 outp v1 v2 c = some c' ∧
      TruthCell outp (NoDataAt in1 [v1] 0 ∨ NoDataAt in2 [v2] 0) (T v1 v2) c c' := by
  obtain ⟨c', hc', h⟩ := C10_binary_0d0d op in1 in2 outp v1 v2 c h1 h2
  exact ⟨c', hc', t.cell h⟩

/-- C17: every operation, 1D/0D. -/
theorem C17_shape_1d0d (value1 : List Int) (v2 : Int) (result : List (Cell Int))
    (hsize : value1.length = result.length) (h1 : PolicyFor in1 value1.length)
    (h2 : PolicyFor in2 1) :
    ∃ out, binary1d0d op in1 in2 outp value1 v2 result = some out ∧
      Elementwise (fun i c c' => ∀ v1, value1[i]? = some v1 →
        TruthCell outp (NoDataAt in1 value1 i ∨ NoDataAt in2 [v2] 0) (T v1 v2) c c')
        result out := by
  obtain ⟨out, ho, hl, he⟩ := C10_binary_1d0d op in1 in2 outp value1 v2 result hsize h1 h2
  refine ⟨out, ho, hl, fun i c hc => ?_⟩
  obtain ⟨c', hc', h⟩ := he i c hc
  exact ⟨c', hc', fun v1 e1 => t.cell (h v1 e1)⟩

/-- C17: every operation, 2D/0D. -/
theorem C17_shape_2d0d (n1 n2 : Nat) (value1 : List Int) (v2 : Int) (result : List (Cell Int))
    (hv : value1.length = n1 * n2) (hr : result.length = n1 * n2)
    (h1 : PolicyFor in1 (n1 * n2)) (h2 : PolicyFor in2 1) :
    ∃ out, binary2d0d op in1 in2 outp (n1, n2) value1 v2 (n1, n2) result = some out ∧
      Elementwise (fun i c c' => ∀ v1, value1[i]? = some v1 →
        TruthCell outp (NoDataAt in1 value1 i ∨ NoDataAt in2 [v2] 0) (T v1 v2) c c')
        result out := by
  obtain ⟨out, ho, hl, he⟩ := C10_binary_2d0d op in1 in2 outp n1 n2 value1 v2 result hv hr h1 h2
  refine ⟨out, ho, hl, fun i c hc => ?_⟩
  obtain ⟨c', hc', h⟩ := he i c hc
  exact ⟨c', hc', fun v1 e1 => t.cell (h v1 e1)⟩

/-- C17: every operation, 0D/2D. -/
theorem C17_shape_0d2d (n1 n2 : Nat) (v1 : Int) (value2 : List Int) (result : List (Cell Int))
    (hv : value2.length = n1 * n2) (hr : result.length = n1 * n2)
    (h1 : PolicyFor in1 1) (h2 : PolicyFor in2 (n1 * n2)) :
    ∃ out, binary0d2d op in1 in2 outp v1 (n1, n2) value2 (n1, n2) result = some out ∧
      Elementwise (fun i c c' => ∀ v2, value2[i]? = some v2 →
        TruthCell outp (NoDataAt in1 [v1] 0 ∨ NoDataAt in2 value2 i) (T v1 v2) c c')
        result out := by
  obtain ⟨out, ho, hl, he⟩ := C10_binary_0d2d op in1 in2 outp n1 n2 v1 value2 result hv hr h1 h2
  refine ⟨out, ho, hl, fun i c hc => ?_⟩
  obtain ⟨c', hc', h⟩ := he i c hc
  exact ⟨c', hc', fun v2 e2 => t.cell (h v2 e2)⟩

/-- C17: every operation, 2D/2D. -/
theorem C17_shape_2d2d (n1 n2 : Nat) (value1 value2 : List Int) (result : List (Cell Int))
    (hv1 : value1.length = n1 * n2) (hv2 : value2.length = n1 * n2) (hr : result.length = n1 * n2)
    (h1 : PolicyFor in1 (n1 * n2)) (h2 : PolicyFor in2 (n1 * n2)) :
    ∃ out, binary2d2d op in1 in2 outp (n1, n2) value1 (n1, n2) value2 (n1, n2) result = some out ∧
      Elementwise (fun i c c' => ∀ v1 v2, value1[i]? = some v1 → value2[i]? = some v2 →
        TruthCell outp (NoDataAt in1 value1 i ∨ NoDataAt in2 value2 i) (T v1 v2) c c')
        result out := by
  obtain ⟨out, ho, hl, he⟩ :=
    C10_binary_2d2d op in1 in2 outp n1 n2 value1 value2 result hv1 hv2 hr h1 h2
  refine ⟨out, ho, hl, fun i c hc => ?_⟩
  obtain ⟨c', hc', h⟩ := he i c hc
  exact ⟨c', hc', fun v1 v2 e1 e2 => t.cell (h v1 v2 e1 e2)⟩

/-- C17: every operation, 0D/1D. The second value is converted to the first value's type first, so the
conversion must not turn a true value into a false one (it does not if the types are the same). -/
theorem C17_shape_0d1d (conv : Int → Int) (v1 : Int) (value2 : List Int) (result : List (Cell Int))
    (hconv : ∀ v ∈ value2, conv v = 0 ↔ v = 0)
    (hsize : value2.length = result.length) (h1 : PolicyFor in1 1)
    (h2 : PolicyFor in2 value2.length) :
    ∃ out, binary0d1d op conv in1 in2 outp v1 value2 result = some out ∧
      Elementwise (fun i c c' => ∀ v2, value2[i]? = some v2 →
        TruthCell outp (NoDataAt in1 [v1] 0 ∨ NoDataAt in2 value2 i) (T v1 v2) c c')
        result out := by
  obtain ⟨out, ho, hl, he⟩ :=
    C10_binary_0d1d_converted op conv in1 in2 outp v1 value2 result hsize h1 h2
  refine ⟨out, ho, hl, fun i c hc => ?_⟩
  obtain ⟨c', hc', h⟩ := he i c hc
  refine ⟨c', hc', fun v2 e2 => ?_⟩
  rw [← t.congr (hconv v2 (List.mem_of_getElem? e2))]
  exact t.cell (h v2 e2)

/-- C17: every operation, 1D/1D. -/
theorem C17_shape_1d1d (conv : Int → Int) (value1 value2 : List Int) (result : List (Cell Int))
    (hconv : ∀ v ∈ value2, conv v = 0 ↔ v = 0)
    (hsize1 : value1.length = result.length) (hsize2 : value2.length = result.length)
    (h1 : PolicyFor in1 result.length) (h2 : PolicyFor in2 result.length) :
    ∃ out, binary1d1d op conv in1 in2 outp value1 value2 result = some out ∧
      Elementwise (fun i c c' => ∀ v1 v2, value1[i]? = some v1 → value2[i]? = some v2 →
        TruthCell outp (NoDataAt in1 value1 i ∨ NoDataAt in2 value2 i) (T v1 v2) c c')
        result out := by
  obtain ⟨out, ho, hl, he⟩ :=
    C10_binary_1d1d_converted op conv in1 in2 outp value1 value2 result hsize1 hsize2 h1 h2
  refine ⟨out, ho, hl, fun i c hc => ?_⟩
  obtain ⟨c', hc', h⟩ := he i c hc
  refine ⟨c', hc', fun v1 v2 e1 e2 => ?_⟩
  rw [← t.congr (hconv v2 (List.mem_of_getElem? e2))]
  exact t.cell (h v1 v2 e1 e2)

end Shapes

/-- C17: `not` of a single value. -/
theorem C17_not_0d (inp : InPolicy Int) (outp : OutPolicy Int) (v : Int) (c : Cell Int)
    (hp : PolicyFor inp 1) :
    ∃ c', unary0d notOp inp outp v c = some c' ∧
      TruthCell outp (NoDataAt inp [v] 0) (v = 0) c c' := by
  obtain ⟨c', hc', h⟩ := C09_unary_0d notOp inp outp v c hp
  exact ⟨c', hc', C17_not_cell h⟩

/-- C17: `not` of a 1D array. -/
theorem C17_not_1d (inp : InPolicy Int) (outp : OutPolicy Int) (value : List Int)
    (result : List (Cell Int)) (hsize : value.length = result.length)
    (hp : PolicyFor inp value.length) :
    ∃ out, unary1d notOp inp outp value result = some out ∧
      Elementwise (fun i c c' => ∀ v, value[i]? = some v →
        TruthCell outp (NoDataAt inp value i) (v = 0) c c') result out := by
  obtain ⟨out, ho, hl, he⟩ := C09_unary_1d notOp inp outp value result hsize hp
  refine ⟨out, ho, hl, fun i c hc => ?_⟩
  obtain ⟨c', hc', h⟩ := he i c hc
  exact ⟨c', hc', fun v e => C17_not_cell (h v e)⟩

example : binary1d1d xnorOp id (.byMask [0, 0, 1] 1) .skip .markMask [4, 0, 9] [2, 2, 9]
    [⟨7, false⟩, ⟨7, false⟩, ⟨7, false⟩] = some [⟨1, false⟩, ⟨0, false⟩, ⟨7, true⟩] := by decide

example : binary2d0d norOp .skip .skip .markMask (1, 2) [0, 3] 0 (1, 2)
    [⟨7, false⟩, ⟨7, false⟩] = some [⟨1, false⟩, ⟨0, false⟩] := by decide

/-- With two 1D arrays of different value types, the second value is converted to the first value's
type before its truth value is taken: `and` of a `uint8` 1 and a `uint16` 256 gives *false*. -/
theorem C17_and_1d1d_narrowed_false :
    binary1d1d andOp (fun v => v % 256) .skip .skip .dontMark [1] [256] [⟨7, false⟩] =
      some [⟨0, false⟩] := by decide

/-! ### Laws, on arrays

Arrays with a mask as arguments and results. -/

/-- The input no-data policy that belongs to an array with a mask. -/
def policyOf (a : List (Cell Int)) : InPolicy Int :=
  .byMask (a.map fun c => if c.masked then 1 else 0) 1

/-- Apply a binary operation to two masked 2D arrays. -/
def applyBinary (op : LocalOp (Int × Int) Int) (n1 n2 : Nat) (a b r : List (Cell Int)) :
    Option (List (Cell Int)) :=
  binary2d2d op (policyOf a) (policyOf b) .markMask (n1, n2) (a.map Cell.val) (n1, n2)
    (b.map Cell.val) (n1, n2) r

/-- Apply a unary operation to a masked 2D array. -/
def applyUnary (op : LocalOp Int Int) (n1 n2 : Nat) (a r : List (Cell Int)) :
    Option (List (Cell Int)) :=
  unary2d op (policyOf a) .markMask (n1, n2) (a.map Cell.val) (n1, n2) r

theorem policyOf_noData (a : List (Cell Int)) (vals : List Int) (i : Nat) :
    NoDataAt (policyOf a) vals i ↔ ∃ c, a[i]? = some c ∧ c.masked = true := by
  simp only [NoDataAt, policyOf, List.getElem?_map]
  cases a[i]? with
  | none => simp
  | some c => cases h : c.masked <;> simp [h]

theorem policyOf_for {a : List (Cell Int)} {n : Nat} (h : a.length = n) :
    PolicyFor (policyOf a) n := by
  simp [PolicyFor, policyOf, h]

theorem applyBinary_obs {f : Int × Int → Int} {n1 n2 : Nat} {a b r : List (Cell Int)}
    (ha : a.length = n1 * n2) (hb : b.length = n1 * n2) (hr : r.length = n1 * n2)
    (hfresh : ∀ c ∈ r, c.masked = false) :
    ∃ out, applyBinary (totalOp f) n1 n2 a b r = some out ∧ out.length = n1 * n2 ∧
      ∀ (i : Nat) x y, a[i]? = some x → b[i]? = some y → ∃ z, out[i]? = some z ∧
        obs z = (obs x).bind fun v => (obs y).map fun w => f (v, w) := by
  obtain ⟨out, ho, hl, he⟩ := C10_binary_2d2d (totalOp f) (policyOf a) (policyOf b) .markMask n1 n2
    (a.map Cell.val) (b.map Cell.val) r (by simp [ha]) (by simp [hb]) hr (policyOf_for ha)
    (policyOf_for hb)
  refine ⟨out, ho, by omega, fun i x y hx hy => ?_⟩
  have hi : i < n1 * n2 := by
    have := (List.getElem?_eq_some_iff.mp hx).1; omega
  obtain ⟨z, hz, h⟩ := he i r[i] (by simp [hr, hi])
  have h := h x.val y.val (by simp [hx]) (by simp [hy])
  rw [policyOf_noData, policyOf_noData] at h
  refine ⟨z, hz, ?_⟩
  have hrm : r[i].masked = false := hfresh _ (List.getElem_mem _)
  cases hmx : x.masked <;> cases hmy : y.masked
  · have := h.ok (by simp [hx, hy, hmx, hmy]) rfl rfl
    subst this
    simp [obs, hmx, hmy, totalOp, hrm]
  all_goals
    have := h.noData (by simp [hx, hy, hmx, hmy])
    simp [obs, hmx, hmy, this.2]

theorem applyUnary_obs {f : Int → Int} {n1 n2 : Nat} {a r : List (Cell Int)}
    (ha : a.length = n1 * n2) (hr : r.length = n1 * n2) (hfresh : ∀ c ∈ r, c.masked = false) :
    ∃ out, applyUnary (totalOp f) n1 n2 a r = some out ∧ out.length = n1 * n2 ∧
      ∀ (i : Nat) x, a[i]? = some x → ∃ z, out[i]? = some z ∧ obs z = (obs x).map f := by
  obtain ⟨out, ho, hl, he⟩ := C09_unary_2d (totalOp f) (policyOf a) .markMask n1 n2
    (a.map Cell.val) r (by simp [ha]) hr (policyOf_for ha)
  refine ⟨out, ho, by omega, fun i x hx => ?_⟩
  have hi : i < n1 * n2 := by
    have := (List.getElem?_eq_some_iff.mp hx).1; omega
  obtain ⟨z, hz, h⟩ := he i r[i] (by simp [hr, hi])
  have h := h x.val (by simp [hx])
  rw [policyOf_noData] at h
  refine ⟨z, hz, ?_⟩
  have hrm : r[i].masked = false := hfresh _ (List.getElem_mem _)
  cases hmx : x.masked
  · have := h.ok (by simp [hx, hmx]) rfl rfl
    subst this
    simp [obs, hmx, totalOp, hrm]
  · have := h.noData (by simp [hx, hmx])
    simp [obs, hmx, this.2]

theorem obs_eq_of {n : Nat} {p q : List (Cell Int)} (hp : p.length = n) (hq : q.length = n)
    (h : ∀ i < n, ∃ x y, p[i]? = some x ∧ q[i]? = some y ∧ obs x = obs y) :
    p.map obs = q.map obs := by
  apply List.ext_getElem
  · simp [hp, hq]
  · intro i h1 h2
    obtain ⟨x, y, hx, hy, e⟩ := h i (by simpa [hp] using h1)
    simp only [List.getElem_map]
    rw [(List.getElem?_eq_some_iff.mp hx).2, (List.getElem?_eq_some_iff.mp hy).2, e]

/-- The result buffers are as large as the arrays and have nothing masked. -/
def Fresh (n : Nat) (r : List (Cell Int)) : Prop := r.length = n ∧ ∀ c ∈ r, c.masked = false

theorem not_binary_law {f g : Int × Int → Int} {u : Int → Int} {n1 n2 : Nat}
    (hlaw : ∀ x y, u (f (x, y)) = g (u x, u y))
    {a b r1 r2 r3 r4 r5 : List (Cell Int)} (ha : a.length = n1 * n2) (hb : b.length = n1 * n2)
    (h1 : Fresh (n1 * n2) r1) (h2 : Fresh (n1 * n2) r2) (h3 : Fresh (n1 * n2) r3)
    (h4 : Fresh (n1 * n2) r4) (h5 : Fresh (n1 * n2) r5) :
    ∃ p q, (applyBinary (totalOp f) n1 n2 a b r1).bind
        (fun ab => applyUnary (totalOp u) n1 n2 ab r2) = some p ∧
      (applyUnary (totalOp u) n1 n2 a r3).bind (fun na =>
        (applyUnary (totalOp u) n1 n2 b r4).bind (fun nb =>
          applyBinary (totalOp g) n1 n2 na nb r5)) = some q ∧
      p.map obs = q.map obs := by
  obtain ⟨ab, e1, l1, s1⟩ := applyBinary_obs (f := f) ha hb h1.1 h1.2
  obtain ⟨p, e2, l2, s2⟩ := applyUnary_obs (f := u) l1 h2.1 h2.2
  obtain ⟨na, e3, l3, s3⟩ := applyUnary_obs (f := u) ha h3.1 h3.2
  obtain ⟨nb, e4, l4, s4⟩ := applyUnary_obs (f := u) hb h4.1 h4.2
  obtain ⟨q, e5, l5, s5⟩ := applyBinary_obs (f := g) l3 l4 h5.1 h5.2
  refine ⟨p, q, by simp [e1, e2], by simp [e3, e4, e5], obs_eq_of l2 l5 fun i hi => ?_⟩
  obtain ⟨z1, hz1, o1⟩ := s1 i a[i] b[i] (by simp [ha, hi]) (by simp [hb, hi])
  obtain ⟨z2, hz2, o2⟩ := s2 i z1 hz1
  obtain ⟨z3, hz3, o3⟩ := s3 i a[i] (by simp [ha, hi])
  obtain ⟨z4, hz4, o4⟩ := s4 i b[i] (by simp [hb, hi])
  obtain ⟨z5, hz5, o5⟩ := s5 i z3 z4 hz3 hz4
  refine ⟨z2, z5, hz2, hz5, ?_⟩
  rw [o2, o1, o5, o3, o4]
  cases obs a[i] <;> cases obs b[i] <;> simp [hlaw]

theorem binary_as_not_law {f g : Int × Int → Int} {u : Int → Int} {n1 n2 : Nat}
    (hlaw : ∀ x y, g (x, y) = u (f (x, y)))
    {a b r1 r2 r3 : List (Cell Int)} (ha : a.length = n1 * n2) (hb : b.length = n1 * n2)
    (h1 : Fresh (n1 * n2) r1) (h2 : Fresh (n1 * n2) r2) (h3 : Fresh (n1 * n2) r3) :
    ∃ p q, applyBinary (totalOp g) n1 n2 a b r1 = some p ∧
      (applyBinary (totalOp f) n1 n2 a b r2).bind
        (fun ab => applyUnary (totalOp u) n1 n2 ab r3) = some q ∧
      p.map obs = q.map obs := by
  obtain ⟨p, e1, l1, s1⟩ := applyBinary_obs (f := g) ha hb h1.1 h1.2
  obtain ⟨ab, e2, l2, s2⟩ := applyBinary_obs (f := f) ha hb h2.1 h2.2
  obtain ⟨q, e3, l3, s3⟩ := applyUnary_obs (f := u) l2 h3.1 h3.2
  refine ⟨p, q, e1, by simp [e2, e3], obs_eq_of l1 l3 fun i hi => ?_⟩
  obtain ⟨z1, hz1, o1⟩ := s1 i a[i] b[i] (by simp [ha, hi]) (by simp [hb, hi])
  obtain ⟨z2, hz2, o2⟩ := s2 i a[i] b[i] (by simp [ha, hi]) (by simp [hb, hi])
  obtain ⟨z3, hz3, o3⟩ := s3 i z2 hz2
  refine ⟨z1, z3, hz1, hz3, ?_⟩
  rw [o1, o3, o2]
  cases obs a[i] <;> cases obs b[i] <;> simp [hlaw]

section Laws

variable {n1 n2 : Nat} {a b r1 r2 r3 r4 r5 : List (Cell Int)}

/-- De Morgan: not(and(a, b)) = or(not(a), not(b)), including the no-data. -/
theorem C17_not_and (ha : a.length = n1 * n2) (hb : b.length = n1 * n2)
    (h1 : Fresh (n1 * n2) r1) (h2 : Fresh (n1 * n2) r2) (h3 : Fresh (n1 * n2) r3)
    (h4 : Fresh (n1 * n2) r4) (h5 : Fresh (n1 * n2) r5) :
    ∃ p q, (applyBinary andOp n1 n2 a b r1).bind (fun ab => applyUnary notOp n1 n2 ab r2) = some p ∧
      (applyUnary notOp n1 n2 a r3).bind (fun na => (applyUnary notOp n1 n2 b r4).bind (fun nb =>
          applyBinary orOp n1 n2 na nb r5)) = some q ∧ p.map obs = q.map obs :=
  not_binary_law (fun x y => by
    by_cases hx : x = 0 <;> by_cases hy : y = 0 <;> simp [ofBool, toBool_eq, hx, hy]) ha hb h1 h2 h3 h4 h5

/-- De Morgan: not(or(a, b)) = and(not(a), not(b)), including the no-data. -/
theorem C17_not_or (ha : a.length = n1 * n2) (hb : b.length = n1 * n2)
    (h1 : Fresh (n1 * n2) r1) (h2 : Fresh (n1 * n2) r2) (h3 : Fresh (n1 * n2) r3)
    (h4 : Fresh (n1 * n2) r4) (h5 : Fresh (n1 * n2) r5) :
    ∃ p q, (applyBinary orOp n1 n2 a b r1).bind (fun ab => applyUnary notOp n1 n2 ab r2) = some p ∧
      (applyUnary notOp n1 n2 a r3).bind (fun na => (applyUnary notOp n1 n2 b r4).bind (fun nb =>
          applyBinary andOp n1 n2 na nb r5)) = some q ∧ p.map obs = q.map obs :=
  not_binary_law (fun x y => by
    by_cases hx : x = 0 <;> by_cases hy : y = 0 <;> simp [ofBool, toBool_eq, hx, hy]) ha hb h1 h2 h3 h4 h5

/-- nor(a, b) = not(or(a, b)). -/
theorem C17_nor (ha : a.length = n1 * n2) (hb : b.length = n1 * n2)
    (h1 : Fresh (n1 * n2) r1) (h2 : Fresh (n1 * n2) r2) (h3 : Fresh (n1 * n2) r3) :
    ∃ p q, applyBinary norOp n1 n2 a b r1 = some p ∧
      (applyBinary orOp n1 n2 a b r2).bind (fun ab => applyUnary notOp n1 n2 ab r3) = some q ∧
      p.map obs = q.map obs :=
  binary_as_not_law (fun x y => by
    by_cases hx : x = 0 <;> by_cases hy : y = 0 <;> simp [ofBool, toBool_eq, hx, hy]) ha hb h1 h2 h3

/-- xnor(a, b) = not(xor(a, b)). -/
theorem C17_xnor (ha : a.length = n1 * n2) (hb : b.length = n1 * n2)
    (h1 : Fresh (n1 * n2) r1) (h2 : Fresh (n1 * n2) r2) (h3 : Fresh (n1 * n2) r3) :
    ∃ p q, applyBinary xnorOp n1 n2 a b r1 = some p ∧
      (applyBinary xorOp n1 n2 a b r2).bind (fun ab => applyUnary notOp n1 n2 ab r3) = some q ∧
      p.map obs = q.map obs :=
  binary_as_not_law (fun x y => by
    by_cases hx : x = 0 <;> by_cases hy : y = 0 <;> simp [ofBool, toBool_eq, hx, hy]) ha hb h1 h2 h3

example : ((applyBinary andOp 1 3 [⟨4, false⟩, ⟨0, false⟩, ⟨1, true⟩]
      [⟨-1, false⟩, ⟨9, false⟩, ⟨1, false⟩] [⟨5, false⟩, ⟨5, false⟩, ⟨5, false⟩]).bind
        (fun ab => applyUnary notOp 1 3 ab [⟨6, false⟩, ⟨6, false⟩, ⟨6, false⟩])).map (List.map obs) =
    some [some 0, some 1, none] := by decide

end Laws

/-! ### defined -/

variable {P : Type}

/-- What `defined` makes of an element: 1 where there is a value, 0 where there is none. The mask is
not touched. -/
def DefinedCell (nd : Prop) (c c' : Cell Int) : Prop :=
  c'.masked = c.masked ∧ (nd → c'.val = 0) ∧ (¬ nd → c'.val = 1)

/-- C17: `defined`, 1D. -/
theorem C17_defined_1d (inp : InPolicy P) (pvals : List P) (result : List (Cell Int))
    (hsize : pvals.length = result.length) (hp : PolicyFor inp result.length) :
    ∃ out, defined1d inp pvals result = some out ∧
      Elementwise (fun i => DefinedCell (NoDataAt inp pvals i)) result out := by
  obtain ⟨f, hf, hfl, hfe⟩ := C12_disaggregate_1d (fillOp (R := Int)) .skip .dontMark 0 result trivial
  obtain ⟨out, ho, hol, hoe⟩ := C11_nullary_1d (1 : Int) .dontMark inp pvals f (by omega)
    (by rw [hfl]; exact hp)
  refine ⟨out, by simp [defined1d, hf, ho], by omega, fun i c hc => ?_⟩
  obtain ⟨c1, hc1, h1⟩ := hfe i c hc
  obtain ⟨c2, hc2, h2⟩ := hoe i c1 hc1
  have h1 := h1.ok (by simp [NoDataAt]) rfl rfl
  subst h1
  refine ⟨c2, hc2, ?_⟩
  by_cases hn : NoDataAt inp pvals i
  · rw [show c2 = _ from h2.1 hn]
    simp [DefinedCell, hn, fillOp, totalOp]
  · rw [h2.2 hn]
    simp [DefinedCell, hn]

/-- C17: `defined`, 2D. -/
theorem C17_defined_2d (inp : InPolicy P) (pvals : List P) (n1 n2 : Nat) (result : List (Cell Int))
    (hv : pvals.length = n1 * n2) (hr : result.length = n1 * n2) (hp : PolicyFor inp (n1 * n2)) :
    ∃ out, defined2d inp pvals (n1, n2) result = some out ∧
      Elementwise (fun i => DefinedCell (NoDataAt inp pvals i)) result out := by
  obtain ⟨f, hf, hfl, hfe⟩ :=
    C12_disaggregate_2d (fillOp (R := Int)) .skip .dontMark 0 n1 n2 result hr trivial
  obtain ⟨out, ho, hol, hoe⟩ := C11_nullary_2d (1 : Int) .dontMark inp pvals n1 n2 f hv (by omega) hp
  refine ⟨out, by simp [defined2d, hf, ho], by omega, fun i c hc => ?_⟩
  obtain ⟨c1, hc1, h1⟩ := hfe i c hc
  obtain ⟨c2, hc2, h2⟩ := hoe i c1 hc1
  have h1 := h1.ok (by simp [NoDataAt]) rfl rfl
  subst h1
  refine ⟨c2, hc2, ?_⟩
  by_cases hn : NoDataAt inp pvals i
  · rw [show c2 = _ from h2.1 hn]
    simp [DefinedCell, hn, fillOp, totalOp]
  · rw [h2.2 hn]
    simp [DefinedCell, hn]

/-- C17: `defined`, 2D, parallel: the only outcome is the sequential outcome. -/
theorem C17_defined_2d_parallel (inp : InPolicy P) (pvals : List P) (n1 n2 : Nat)
    (result : List (Cell Int)) (hv : pvals.length = n1 * n2) (hr : result.length = n1 * n2)
    (hp : PolicyFor inp (n1 * n2)) (t : Nat) (ht : 1 ≤ t) (o : Option (List (Cell Int))) :
    Defined2dPar t inp pvals (n1, n2) result o ↔ o = defined2d inp pvals (n1, n2) result := by
  obtain ⟨f, hf, hfl, hfe⟩ :=
    C12_disaggregate_2d (fillOp (R := Int)) .skip .dontMark 0 n1 n2 result hr trivial
  have hpar := C04_disaggregate_2d (fillOp (R := Int)) .skip .dontMark 0 n1 n2 result hr trivial t ht
  have hpar2 := C04_nullary_2d (1 : Int) .dontMark inp pvals n1 n2 f hv (by omega) hp t ht
  simp only [Defined2dPar, hpar, hf, defined2d, Option.bind_eq_bind, Option.bind_some]
  constructor
  · rintro (⟨h, _⟩ | ⟨g, hg, h⟩)
    · simp at h
    · cases hg
      exact (hpar2 o).mp h
  · intro h
    exact Or.inr ⟨f, rfl, (hpar2 o).mpr h⟩

example : defined1d (.byMask [0, 1, 0] 1) [10, 20, 30] [⟨5, false⟩, ⟨6, true⟩, ⟨7, false⟩] =
    some [⟨1, false⟩, ⟨0, true⟩, ⟨1, false⟩] := by decide

end Fern
