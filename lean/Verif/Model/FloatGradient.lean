import Verif.Model.Gradient
import Verif.Model.FloatConvolve

/-!
# Gradients of rasters of `float` and `double`

`gradient_x` and `gradient_y` (`algorithm/algebra/vector/gradient.h:31-52, 88-109`): the type of the values is a floating point
type, and the type of the result is the same type. Distances are of type `double`.
-/

namespace Fern.FloatGradient

open Fern Fern.Domains Fern.FloatArith
open Fern.FloatConvolve (quotient store)

/-- `gradient` (`algorithm/algebra/vector/detail/gradient.h:22-31`): the difference is of the type of the values, the quotient is
of type `double`, and is converted to the type of the values when it is returned. A cell size that is zero is taken to be a
positive zero. `distance1 + distance1`: lines 48 and 199. -/
def fltGradientOps (t : FltTy) (cellSize : Flt) : GradientOps Flt Flt where
  near a b := store t (quotient (minus t b a) cellSize)
  far a b := store t (quotient (minus t b a) (plus .double cellSize cellSize))
  zero := .fin 0

/-- Along the rows, or along the columns. -/
inductive Axis | x | y
  deriving DecidableEq

/-- `gradient_x` and `gradient_y` (`algorithm/algebra/vector/gradient.h:31-52, 88-109`, `detail/gradient.h:338-590`). `cellSize`:
`cell_size` (`feature/core/data_customization_point/masked_raster.h:124-131`) along the axis. -/
def gradientOf (axis : Axis) (m : Execution) (t : FltTy) (cellSize : Flt) (a : GradientArgs Flt) (outp : OutPolicy Flt)
    (rs : Nat × Nat) (result : List (Cell Flt)) : Outcomes (List (Cell Flt)) :=
  match axis, m with
  | .x, .sequential => .one (gradientX (fltGradientOps t cellSize) a outp rs result)
  | .x, .parallel n => ParResult (gradientXTasks (fltGradientOps t cellSize) a outp n rs) result
  | .y, .sequential => .one (gradientY (fltGradientOps t cellSize) a outp rs result)
  | .y, .parallel n => ParResult (gradientYTasks (fltGradientOps t cellSize) a outp n rs) result

end Fern.FloatGradient
