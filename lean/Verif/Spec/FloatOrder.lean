import Verif.Spec.FloatArith

/-!
# What order statistics of floating point numbers have to establish
-/

namespace Fern.FloatOrder.Spec

open Fern Fern.Domains Fern.Spec Fern.Casts.Spec Fern.FloatArith Fern.FloatArith.Spec

/-- The number, if it is one, is a number of the type. -/
def IsValue (t : FltTy) (v : Flt) : Prop := ∀ q, v = .fin q → Represents t.num q

/-- The largest of the values that aren't NaN. -/
def Largest (vs : List Flt) (m : Flt) : Prop := m ∈ vs ∧ m ≠ .nan ∧ ∀ v ∈ vs, v ≠ .nan → Flt.le v m = true

/-- The smallest of the values that aren't NaN. -/
def Smallest (vs : List Flt) (m : Flt) : Prop := m ∈ vs ∧ m ≠ .nan ∧ ∀ v ∈ vs, v ≠ .nan → Flt.le m v = true

/-- The largest number of the type. -/
def LargestNumber (t : FltTy) (q : Rat) : Prop := Represents t.num q ∧ ∀ q', Represents t.num q' → q' ≤ q

/-- The values, sorted. -/
def SortedValues (vs l : List Flt) : Prop := List.Perm l vs ∧ l.Pairwise fun a b => Flt.le a b = true

end Fern.FloatOrder.Spec
