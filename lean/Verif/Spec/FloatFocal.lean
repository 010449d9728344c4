import Verif.Spec.FloatConvolve
import Verif.Spec.FocalAverage

/-!
# Convolutions in which averages replace missing values, without rounding
-/

namespace Fern.FloatFocal.Spec

open Fern Fern.Domains Fern.Spec Fern.FloatArith Fern.FloatArith.Spec
open _root_.Fern.FloatConvolve.Spec

/-- The mean; of no numbers there is none. -/
def mean (l : List Rat) : Option Rat := if l = [] then none else some (l.sum / l.length)

/-- The magnitudes of the valid values are at most `b`. -/
def Bounded (b : Rat) (inp : InPolicy Flt) (value : List Flt) : Prop :=
  ∀ i v, value[i]? = some v → ¬ NoDataAt inp value i → |number v| ≤ b

/-- What rounding a number with magnitude at most `b` to type `t` can change. -/
def roundingError (t : FltTy) (b : Rat) : Rat := unit t * b + tiny t

/-- The error of the quotient of a sum of at most nine numbers, with magnitudes at most `b`, and their number. -/
def quotientError (b : Rat) : Rat := additionError 9 b + roundingError .double (b + additionError 9 b)

/-- The error of the average, as value of type `v`, of at most nine numbers with magnitudes at most `b`. -/
def averageError (v : FltTy) (b : Rat) : Rat := quotientError b + roundingError v (b + quotientError b)

/-- The mean of the valid cells around a position, if there are any. -/
noncomputable def meanAround {W : Type} (a : ConvolveArgs Flt W) (x y : Int) : Option Rat :=
  mean ((around a x y).map number)

/-- What counts for kernel cell `pq`, above row `i` and column `j`: for missing values the mean of the cells around them,
even if the weight is zero; valid cells only if the weight is not zero. -/
noncomputable def filledTerm {W : Type} (number' : W → Rat) (a : ConvolveArgs Flt W) (i j : Nat) (pq : Nat × Nat) :
    Option (Rat × Rat) :=
  (a.weights[weightAt a.radius pq]?).bind fun w =>
    open Classical in
    if InImage a.rows a.cols a.radius i j pq ∧ ¬ NoDataAt a.noData a.source (below a.cols a.radius i j pq) then
      if number' w = 0 then none
      else (a.source[below a.cols a.radius i j pq]?).map fun x => (number x, number' w)
    else (meanAround a ((i : Int) + pq.1 - a.radius) ((j : Int) + pq.2 - a.radius)).map fun m => (m, number' w)

/-- The numbers and weights that count for a focal cell: those outside of the raster, and then those inside. -/
noncomputable def filled {W : Type} (number' : W → Rat) (a : ConvolveArgs Flt W) (i j : Nat) : List (Rat × Rat) :=
  ((kernelCells a.radius).filter fun pq => !decide (InImage a.rows a.cols a.radius i j pq)).filterMap
    (filledTerm number' a i j) ++
  ((kernelCells a.radius).filter fun pq => decide (InImage a.rows a.cols a.radius i j pq)).filterMap
    (filledTerm number' a i j)

/-- The numbers and weights that count for a focal cell if no-data cells are skipped: the means for the positions outside of the
raster, whatever the weight, and then the valid cells inside with a weight that is not zero. -/
noncomputable def filledOutside {W : Type} (number' : W → Rat) (a : ConvolveArgs Flt W) (i j : Nat) : List (Rat × Rat) :=
  ((kernelCells a.radius).filter fun pq => !decide (InImage a.rows a.cols a.radius i j pq)).filterMap
    (filledTerm number' a i j) ++ counted number' a i j

end Fern.FloatFocal.Spec
