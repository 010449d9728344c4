import Mathlib.Order.Defs.LinearOrder
import Verif.Spec.Select
namespace Fern.Spec

variable {V : Type} [LinearOrder V]

/-- `x` is `v` limited to `[lo, hi]`: within the bounds, unchanged if it already was, otherwise the
bound it exceeds. -/
def Limited (lo hi v x : V) : Prop :=
  lo ≤ x ∧ x ≤ hi ∧ (lo ≤ v → v ≤ hi → x = v) ∧ (v < lo → x = lo) ∧ (hi < v → x = hi)

/-- The bounds can be used at position `i`: both valid, lower not above upper. -/
def BoundsOk (inL inU : InPolicy V) (lower upper : Arg V) (i : Nat) : Prop :=
  ¬ lower.NoData inL i ∧ ¬ upper.NoData inU i ∧
    ∀ lo hi, lower.HasAt i lo → upper.HasAt i hi → lo ≤ hi

/-- Result element of `clamp`. -/
def Clamp (outp : OutPolicy V) (inV : InPolicy V) (value lower upper : Arg V) (i : Nat)
    (c c' : Cell V) : Prop :=
  (value.NoData inV i → Marked outp c c') ∧
  (¬ value.NoData inV i → ∃ v lo hi x, value.HasAt i v ∧ lower.HasAt i lo ∧ upper.HasAt i hi ∧
    Limited lo hi v x ∧ Becomes x c c')

/-- Sequential execution gives an array of which each element at position `i` is related to the
original element by `P i`. -/
def ComputesSequential {γ : Type} (loop : Option (ElemLoop γ)) (P : Nat → γ → γ → Prop)
    (res : List γ) : Prop :=
  ∃ out, runSeq loop res = some out ∧ Elementwise P res out

end Fern.Spec
