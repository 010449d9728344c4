import Mathlib.Algebra.Order.Field.Basic
import Mathlib.Algebra.Order.BigOperators.Group.List
import Mathlib.Algebra.BigOperators.Group.List.Basic
import Mathlib.Tactic.Ring
import Mathlib.Tactic.FieldSimp
import Mathlib.Tactic.Linarith

/-
The mean and the variance of numbers, in exact arithmetic.
-/
namespace Fern.Spec

variable {K : Type} [Field K]

/-- The mean. -/
def exactMean (xs : List K) : K := xs.sum / xs.length

/-- The sum of the squared distances to `c`. -/
def squaresAbout (c : K) (xs : List K) : K := (xs.map fun x => (x - c) ^ 2).sum

/-- The mean of the squared distances to the mean. -/
def exactVariance (xs : List K) : K := squaresAbout (exactMean xs) xs / xs.length

end Fern.Spec
