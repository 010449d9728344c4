import Verif.Spec.LocalOps
namespace Fern.Spec

variable {V : Type}

/-- Destination element `d` after copying the range to `position`. -/
def CopyCell (inp : InPolicy V) (outp : OutPolicy V) (source : List V) (range : IndexRange)
    (position d : Nat) (c c' : Cell V) : Prop :=
  (∀ k, d = position + k → range.b + k < range.e →
    (NoDataAt inp source (range.b + k) → Marked outp c c') ∧
    (¬ NoDataAt inp source (range.b + k) →
      ∃ v, source[range.b + k]? = some v ∧ c' = ⟨v, c.masked⟩)) ∧
  ((d < position ∨ position + (range.e - range.b) ≤ d) → c' = c)

end Fern.Spec
