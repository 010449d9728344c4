import Verif.Model.FocalAverage
import Verif.Spec.Convolve
/-
The average of the cells around a position in or outside of the image.
-/
namespace Fern.Spec

variable {V W : Type}

/-- All cells of the image, row by row. -/
def imageCells (rows cols : Nat) : List (Nat × Nat) :=
  (List.range rows).flatMap (fun p => (List.range cols).map (fun q => (p, q)))

/-- Not further than one row and one column away. -/
def Near (x y : Int) (pq : Nat × Nat) : Prop :=
  (x - 1 ≤ pq.1 ∧ pq.1 ≤ x + 1) ∧ (y - 1 ≤ pq.2 ∧ pq.2 ≤ y + 1)

/-- The valid cells of the image around position `(x, y)`. -/
noncomputable def around (a : ConvolveArgs V W) (x y : Int) : List V :=
  (imageCells a.rows a.cols).filterMap (fun pq =>
    open Classical in
    if Near x y pq ∧ ¬ NoDataAt a.noData a.source (pq.1 * a.cols + pq.2) then
      a.source[pq.1 * a.cols + pq.2]?
    else none)

/-- The average of some values; of no values there is none. -/
def averageOf (avg : AverageOps V) : List V → Option V
  | [] => none
  | l => some (avg.divide (l.foldl avg.add avg.zero) l.length)

/-- The value of a position: the average of the cells around it. -/
noncomputable def focalAverage (avg : AverageOps V) (a : ConvolveArgs V W) (x y : Int) : Option V :=
  averageOf avg (around a x y)

end Fern.Spec
