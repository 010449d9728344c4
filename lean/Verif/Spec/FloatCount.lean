import Verif.Model.Domains
/-
What it means to count floating point numbers.
-/
namespace Fern.Spec

open Domains

/-- The numbers are equal. What is not a number is equal to nothing. -/
def SameNumber (a v : Flt) : Prop := a ≠ .nan ∧ a = v

instance (a v : Flt) : Decidable (SameNumber a v) := inferInstanceAs (Decidable (_ ∧ _))

/-- How many of the values are equal to `v`. -/
def occurrences (l : List Flt) (v : Flt) : Nat := (l.filter fun a => decide (SameNumber a v)).length

end Fern.Spec
