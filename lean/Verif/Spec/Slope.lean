import Verif.Model.Outcomes
import Verif.Spec.FocalAverage
/-
What the slope of a raster is. Only the types of the model are used here.
-/
namespace Fern.Spec

variable {F : Type}

/-- The value of position `(x, y)`: that of the cell if there is a valid one, the average of the valid
cells around the position otherwise. -/
noncomputable def surface (avg : AverageOps F) (rows cols : Nat) (inp : InPolicy F) (value : List F)
    (x y : Int) : Option F :=
  open Classical in
  if 0 ≤ x ∧ x < rows ∧ 0 ≤ y ∧ y < cols ∧ ¬ NoDataAt inp value (x.toNat * cols + y.toNat) then
    value[x.toNat * cols + y.toNat]?
  else focalAverage avg (⟨rows, cols, value, inp, 1, []⟩ : ConvolveArgs F F) x y

/-- Sum of `value * weight`, in the order of the list, converted in the end. -/
def productSum (n : NumOps F) (l : List (F × F)) : F :=
  n.narrow (l.foldl (fun s vw => n.accAdd s (n.mul vw.1 vw.2)) (n.ofInt 0))

/-- The values below a kernel of radius 1 with their weights, those outside of the raster first.
Missing values are replaced by averages. -/
noncomputable def slopeTerms (n : NumOps F) (avg : AverageOps F) (kernel : List F) (rows cols : Nat)
    (inp : InPolicy F) (value : List F) (i j : Nat) : List (F × F) :=
  let a : ConvolveArgs F F := ⟨rows, cols, value, inp, 1, kernel⟩
  terms (n.accOps) a (fun x y => focalAverage avg a x y) (focalAverage avg a) i j

/-- The slope given the sums of differences in both directions. -/
def slopeValue (n : NumOps F) (pow : F → F → F) (sqrt : F → F) (width height gx gy : F) : F :=
  sqrt (n.add (pow (n.div gx width) (n.ofInt 2)) (pow (n.div gy height) (n.ofInt 2)))

/-- All intermediate values are within range. -/
structure HasSlope (n : NumOps F) (pow : F → F → F) (width height gx gy : F) : Prop where
  widthNotZero : n.isZero width = false
  heightNotZero : n.isZero height = false
  sumX : n.finite gx = true
  sumY : n.finite gy = true
  quotientX : n.finite (n.div gx width) = true
  quotientY : n.finite (n.div gy height) = true
  squareX : n.finite (pow (n.div gx width) (n.ofInt 2)) = true
  squareY : n.finite (pow (n.div gy height) (n.ofInt 2)) = true
  sum : n.finite (n.add (pow (n.div gx width) (n.ofInt 2)) (pow (n.div gy height) (n.ofInt 2))) = true

end Fern.Spec
