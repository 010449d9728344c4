/-
Kernels as tables of weights.
-/
namespace Fern.Spec

/-- The rows form a square with sides of `2 * radius + 1` cells. -/
def SquareTable {T : Type} (radius : Nat) (rows : List (List T)) : Prop :=
  rows.length = 2 * radius + 1 ∧ ∀ row ∈ rows, row.length = 2 * radius + 1

/-- The weight in a row and a column of a table. -/
def tableAt {T : Type} (rows : List (List T)) (i j : Nat) : Option T := (rows[i]?).bind fun row => row[j]?

end Fern.Spec
