import Mathlib.Analysis.Real.Sqrt
import Verif.Spec.FloatFocal
import Verif.Spec.PyFloat

/-!
# What the slope of a raster is, without rounding, and how far from this it may be
-/

namespace Fern.SlopeError.Spec

open Fern Fern.Domains Fern.Spec Fern.FloatArith Fern.FloatArith.Spec
open _root_.Fern.PyFloat.Spec (valueAt)
open _root_.Fern.FloatFocal.Spec (mean)

/-- The numbers of the valid cells around a position in or outside of the raster. -/
noncomputable def validAround (dem : PyFloat.Raster) (x y : Int) : List Rat :=
  (imageCells dem.rows dem.cols).filterMap fun pq =>
    open Classical in
    if Fern.Spec.Near x y pq then (valueAt dem (pq.1 * dem.cols + pq.2)).map number else none

/-- The number of the valid cell in row `x` and column `y`, if there is one. -/
def validAt (dem : PyFloat.Raster) (x y : Int) : Option Rat :=
  if 0 ≤ x ∧ x < dem.rows ∧ 0 ≤ y ∧ y < dem.cols then (valueAt dem (x.toNat * dem.cols + y.toNat)).map number else none

/-- The height of a position: the value of the valid cell, if there is one, or else the mean of the valid cells around it. -/
noncomputable def heightAt (dem : PyFloat.Raster) (x y : Int) : Rat :=
  match validAt dem x y with
  | some h => h
  | none => (mean (validAround dem x y)).getD 0

/-- Horn's difference between west and east: eight times the difference of two cells next to each other. -/
noncomputable def westEast (dem : PyFloat.Raster) (i j : Nat) : Rat :=
  heightAt dem (i - 1) (j - 1) + 2 * heightAt dem i (j - 1) + heightAt dem (i + 1) (j - 1) -
    (heightAt dem (i - 1) (j + 1) + 2 * heightAt dem i (j + 1) + heightAt dem (i + 1) (j + 1))

/-- Horn's difference between south and north. -/
noncomputable def southNorth (dem : PyFloat.Raster) (i j : Nat) : Rat :=
  heightAt dem (i + 1) (j - 1) + 2 * heightAt dem (i + 1) j + heightAt dem (i + 1) (j + 1) -
    (heightAt dem (i - 1) (j - 1) + 2 * heightAt dem (i - 1) j + heightAt dem (i - 1) (j + 1))

/-- The slope, given the differences and eight times the cell sizes. -/
noncomputable def exactSlope (x width y height : Rat) : Real := √((x / width : Rat) ^ 2 + (y / height : Rat) ^ 2)

/-- The valid cells are numbers with magnitude at most `b`. -/
def Heights (b : Rat) (dem : PyFloat.Raster) : Prop := ∀ i v, valueAt dem i = some v → ∃ q, v = .fin q ∧ |q| ≤ b

/-- The error of differences of heights with magnitudes at most `b`. -/
def differenceError (t : FltTy) (b : Rat) : Rat := 224 * unit t * b + 40 * tiny t

/-- The error of differences divided by eight times the cell size. -/
def gradientError (t : FltTy) (b width : Rat) : Rat := (240 * unit t * b + 48 * tiny t) / |width| + tiny t

/-- What is lost because squares of small numbers are zero. -/
def lost : FltTy → Rat
  | .single => 1 / 2 ^ 73
  | .double => 1 / 2 ^ 535

/-- `pow` squares numbers with an error of less than the distance of two numbers. -/
def AccurateSquare (t : FltTy) (pow : Flt → Flt → Flt) : Prop :=
  ∀ x p, Represents t.num x → pow (.fin x) (.fin 2) = .fin p →
    Represents t.num p ∧ 0 ≤ p ∧ |p - x ^ 2| ≤ 2 * unit t * x ^ 2 + 2 * tiny t

/-- `sqrt` gives square roots with an error of less than the distance of two numbers. -/
def AccurateRoot (t : FltTy) (sqrt : Flt → Flt) : Prop :=
  ∀ r : Rat, Represents t.num r → 0 ≤ r →
    ∃ s : Rat, sqrt (.fin r) = .fin s ∧ 0 ≤ s ∧ |(s : Real) - √(r : Real)| ≤ 2 * (unit t : Real) * √(r : Real)

end Fern.SlopeError.Spec
