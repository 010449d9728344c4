import Verif.Spec.PyFloat
import Verif.Spec.Slope

/-!
# Specification of slopes in the Python extension
-/

namespace Fern.PyFloat.Spec

open Fern.Spec

variable {F : Type}

/-- A value that is kept: it is finite, and it isn't the reserved one. -/
def Kept (n : NumOps F) (no v : F) : Prop := n.finite v = true ∧ v ≠ no

/-- All intermediate values are kept. `gx`, `gy`: the weighted sums in both directions. -/
structure KeepsSlope (n : NumOps F) (no : F) (pow : F → F → F) (width height gx gy : F) : Prop where
  widthNotZero : n.isZero width = false
  heightNotZero : n.isZero height = false
  sumX : Kept n no gx
  sumY : Kept n no gy
  quotientX : Kept n no (n.div gx width)
  quotientY : Kept n no (n.div gy height)
  squareX : Kept n no (pow (n.div gx width) (n.ofInt 2))
  squareY : Kept n no (pow (n.div gy height) (n.ofInt 2))
  sum : Kept n no (n.add (pow (n.div gx width) (n.ofInt 2)) (pow (n.div gy height) (n.ofInt 2)))

/-- The weighted sum of the values around cell `(i, j)`, masked and missing ones replaced by the average of the valid
cells around them. -/
noncomputable def weightedSum (n : NumOps F) (isNo : F → Bool) (kernel : List Int) (rows cols : Nat) (value : List F)
    (i j : Nat) : F :=
  productSum n (slopeTerms n ⟨n.ofInt 0, n.accAdd, fun s k => n.narrow (n.accDiv s (n.ofInt k))⟩ (kernel.map n.ofInt) rows cols
    (.detect isNo) value i j)

/-- Weights of the values from north-west to south-east, for the difference between west and east. -/
def weightsX : List Int := [1, 0, -1, 2, 0, -2, 1, 0, -1]

/-- The same for the difference between south and north. -/
def weightsY : List Int := [-1, -2, -1, 0, 0, 0, 1, 2, 1]

/-- `w` is eight times a cell size: rounded to `double`, then to type `t`. -/
def EightTimes (t : Fern.FloatArith.FltTy) (cellSize : Rat) (w : Domains.Flt) : Prop :=
  ∃ d, FloatArith.Spec.Rounded .double (8 * cellSize) d ∧ FloatRaster.Spec.Operand t d w

end Fern.PyFloat.Spec
