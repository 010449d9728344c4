import Verif.Model.Outcomes
import Verif.Spec.Convolve
/-
What the Laplacian and the Lax average of a raster are. Only the types of the model are used here.
-/
namespace Fern.Spec

variable {F : Type}

/-- The neighbours of a cell, as offsets in rows and columns, with their weights: 3 for those that
share a side, 2 for those that share a corner. -/
def vectorOffsets : List (Int × Int × Int) :=
  [(-1, -1, 2), (-1, 0, 3), (-1, 1, 2), (0, -1, 3), (0, 1, 3), (1, -1, 2), (1, 0, 3), (1, 1, 2)]

/-- The value and weight of a neighbour of cell `(i, j)`, if it exists and is not no-data. -/
noncomputable def vectorNeighbour (rows cols : Nat) (inp : InPolicy F) (value : List F) (i j : Nat)
    (d : Int × Int × Int) : Option (F × Int) :=
  open Classical in
  if 0 ≤ (i : Int) + d.1 ∧ (i : Int) + d.1 < rows ∧ 0 ≤ (j : Int) + d.2.1 ∧ (j : Int) + d.2.1 < cols ∧
      ¬ NoDataAt inp value (((i : Int) + d.1).toNat * cols + ((j : Int) + d.2.1).toNat) then
    (value[((i : Int) + d.1).toNat * cols + ((j : Int) + d.2.1).toNat]?).map (fun v => (v, d.2.2))
  else none

/-- The valid neighbours of cell `(i, j)` with their weights. -/
noncomputable def vectorNeighbours (rows cols : Nat) (inp : InPolicy F) (value : List F)
    (i j : Nat) : List (F × Int) :=
  vectorOffsets.filterMap (vectorNeighbour rows cols inp value i j)

/-- The weighted sum of the neighbours. -/
def weightedSum (n : NumOps F) (l : List (F × Int)) : F :=
  l.foldl (fun s vw => n.add s (n.mul vw.1 (n.ofInt vw.2))) (n.ofInt 0)

/-- The sum of the weights of the neighbours. -/
def weightSum (l : List (F × Int)) : Int := (l.map Prod.snd).sum

/-- Small integers are represented exactly, as they are by floating point numbers. -/
structure SmallInts (n : NumOps F) (atMost20 : F → Bool) : Prop where
  oneMul : ∀ k, 0 ≤ k → k ≤ 20 → n.mul (n.ofInt 1) (n.ofInt k) = n.ofInt k
  add : ∀ a b, 0 ≤ a → 0 ≤ b → a + b ≤ 20 → n.add (n.ofInt a) (n.ofInt b) = n.ofInt (a + b)
  isZero : ∀ k, 0 ≤ k → k ≤ 20 → (n.isZero (n.ofInt k) = true ↔ k = 0)
  atMost : ∀ k, 0 ≤ k → k ≤ 20 → atMost20 (n.ofInt k) = true

/-- The Laplacian of a cell with value `v` and valid neighbours `l`:
(weighted sum - sum of weights * v) / area. -/
def laplacianValue (n : NumOps F) (area v : F) (l : List (F × Int)) : F :=
  n.div (n.sub (weightedSum n l) (n.mul (n.ofInt (weightSum l)) v)) area

/-- There is a Laplacian: there are valid neighbours, the area is not zero, and all (intermediate)
values are within the range of the floating point type. -/
structure HasLaplacian (n : NumOps F) (area v : F) (l : List (F × Int)) : Prop where
  any : l ≠ []
  notZero : n.isZero area = false
  sum : n.finite (weightedSum n l) = true
  product : n.finite (n.mul (n.ofInt (weightSum l)) v) = true
  difference : n.finite (n.sub (weightedSum n l) (n.mul (n.ofInt (weightSum l)) v)) = true
  value : n.finite (laplacianValue n area v l) = true

/-- The Lax average of a cell with value `v` and valid neighbours `l`:
(1 - fraction) * v + fraction * (weighted sum / sum of weights). -/
def laxValue (n : NumOps F) (fraction oneMinus v : F) (l : List (F × Int)) : F :=
  n.add (n.mul oneMinus v)
    (n.mul fraction (n.div (weightedSum n l) (n.ofInt (weightSum l))))

/-- There is a Lax average: there are valid neighbours and all (intermediate) values that are looked
at are within the range of the floating point type. -/
structure HasLax (n : NumOps F) (fraction oneMinus v : F) (l : List (F × Int)) : Prop where
  any : l ≠ []
  sum : n.finite (weightedSum n l) = true
  left : n.finite (n.mul oneMinus v) = true
  right : n.finite (n.mul fraction (n.div (weightedSum n l) (n.ofInt (weightSum l)))) = true
  value : n.finite (laxValue n fraction oneMinus v l) = true

end Fern.Spec
