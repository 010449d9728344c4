import Verif.Spec.IntRaster
/-! What an element-wise operation of two arguments does to a result, given what it does for a pair of
valid values. -/
namespace Fern.PairLoop.Spec

open Fern.Spec

variable {α β γ : Type}

/-- There is a pair of valid values with the property. -/
def SomePair (U : α → β → Prop) (in1 : InPolicy α) (in2 : InPolicy β) (a1 : Arg α) (a2 : Arg β)
    (n : Nat) : Prop :=
  ∃ i < n, ¬ (a1.NoData in1 i ∨ a2.NoData in2 i) ∧
    ∃ v1 v2, a1.HasAt i v1 ∧ a2.HasAt i v2 ∧ U v1 v2

/-- The element of the result at position `i`: it is marked if one of the values is no-data, and
otherwise `P` of the values. -/
def EachPair (P : α → β → Cell γ → Cell γ → Prop) (in1 : InPolicy α) (in2 : InPolicy β)
    (outp : OutPolicy γ) (a1 : Arg α) (a2 : Arg β) (i : Nat) (c c' : Cell γ) : Prop :=
  (a1.NoData in1 i ∨ a2.NoData in2 i → Marked outp c c') ∧
  (¬ (a1.NoData in1 i ∨ a2.NoData in2 i) → ∃ v1 v2, a1.HasAt i v1 ∧ a2.HasAt i v2 ∧ P v1 v2 c c')

/-- All values of the argument have the property. -/
def AllValues (T : α → Prop) : Arg α → Prop
  | .scalar v => T v
  | .array l => ∀ v ∈ l, T v

end Fern.PairLoop.Spec
