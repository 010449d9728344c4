import Verif.Spec.Gradient
import Verif.Spec.FloatConvolve
import Verif.Model.FloatGradient

/-!
# What gradients are, without rounding
-/

namespace Fern.FloatGradient.Spec

open Fern Fern.Domains Fern.Spec Fern.Casts.Spec Fern.FloatArith Fern.FloatArith.Spec

/-- The number of cells along the axis. -/
def extent (axis : Axis) (a : GradientArgs Flt) : Nat := match axis with | .x => a.cols | .y => a.rows

/-- The number in the cell at a distance along the axis, if it is valid. -/
noncomputable def at' (axis : Axis) (a : GradientArgs Flt) (i j : Nat) (d : Int) : Option Rat :=
  (match axis with | .x => validValue a i (j + d) | .y => validValue a (i + d) j).map number

/-- The valid values are numbers of the type. -/
def Numbers (t : FltTy) (a : GradientArgs Flt) : Prop :=
  ∀ x y v, validValue a x y = some v → ∃ q, v = .fin q ∧ Represents t.num q

/-- The difference between the values before and after a cell, or between the one that is valid and the cell. -/
def difference (prev : Option Rat) (center : Rat) (next : Option Rat) : Rat :=
  next.getD center - prev.getD center

/-- The number of steps between these. -/
def steps (prev next : Option Rat) : Rat := if prev.isSome ∧ next.isSome then 2 else 1

/-- The increase per unit of length. -/
def exactGradient (size : Rat) (prev : Option Rat) (center : Rat) (next : Option Rat) : Rat :=
  difference prev center next / (steps prev next * size)

/-- How far a gradient may be off. -/
def gradientError (t : FltTy) (g : Rat) : Rat := 3 * unit t * |g| + 2 * tiny t

end Fern.FloatGradient.Spec
