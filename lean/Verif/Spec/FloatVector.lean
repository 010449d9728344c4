import Verif.Spec.Vector
import Verif.Spec.FloatArith

/-!
# What Laplacians and Lax averages are, without rounding
-/

namespace Fern.FloatVector.Spec

open Fern Fern.Domains Fern.Spec Fern.Casts.Spec Fern.FloatArith.Spec

/-- The values of the valid cells are numbers of type `double`. -/
def Doubles (inp : InPolicy Flt) (value : List Flt) : Prop :=
  ∀ i v, value[i]? = some v → ¬ NoDataAt inp value i → ∃ q, v = .fin q ∧ Represents .f64 q

/-- The values of the valid cells are multiples of a power of two: integers up to `b` times `2 ^ e`. -/
def Multiples (e b : Int) (inp : InPolicy Flt) (value : List Flt) : Prop :=
  ∀ i v, value[i]? = some v → ¬ NoDataAt inp value i → ∃ k : Int, v = .fin (k * 2 ^ e) ∧ |k| ≤ b

/-- The valid neighbours of a cell: their numbers and weights. -/
noncomputable def neighbours (rows cols : Nat) (inp : InPolicy Flt) (value : List Flt) (i j : Nat) : List (Rat × Int) :=
  (vectorNeighbours rows cols inp value i j).map fun vw => (number vw.1, vw.2)

/-- The weighted sum of the differences with the neighbours, divided by the area. -/
def exactLaplacian (area v : Rat) (l : List (Rat × Int)) : Rat :=
  (l.map fun vw => (vw.2 : Rat) * (vw.1 - v)).sum / area

/-- The weighted sum of magnitudes of the neighbours and of the cell, divided by the area. -/
def laplacianScale (area v : Rat) (l : List (Rat × Int)) : Rat :=
  (l.map fun vw => (vw.2 : Rat) * (|vw.1| + |v|)).sum / |area|

/-- The weighted mean of the neighbours. -/
def exactMean (l : List (Rat × Int)) : Rat :=
  (l.map fun vw => (vw.2 : Rat) * vw.1).sum / (l.map fun vw => (vw.2 : Rat)).sum

/-- The average of the cell and of the weighted mean of its neighbours. -/
def exactLax (fraction v : Rat) (l : List (Rat × Int)) : Rat := (1 - fraction) * v + fraction * exactMean l

/-- A number that the magnitudes of a cell and its neighbours don't exceed. -/
def BoundedBy (b v : Rat) (l : List (Rat × Int)) : Prop := |v| ≤ b ∧ ∀ vw ∈ l, |vw.1| ≤ b

end Fern.FloatVector.Spec
