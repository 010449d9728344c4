import Verif.Spec.LocalOps
/-
Specification of the Boolean operations.
-/
namespace Fern.Spec

/-- An element as a user sees it: no value if it is masked. -/
def obs {V : Type} (c : Cell V) : Option V := if c.masked then none else some c.val

/-- 0 or 1. -/
def bit (b : Prop) [Decidable b] : Int := if b then 1 else 0

/-- Either marked as no-data, or the truth value `b` as 0 or 1. -/
def TruthCell (outp : OutPolicy Int) (nd : Prop) (b : Prop) (c c' : Cell Int) : Prop :=
  (nd → Marked outp c c') ∧
  (¬ nd → c'.masked = c.masked ∧ (b → c'.val = 1) ∧ (¬ b → c'.val = 0))

end Fern.Spec
