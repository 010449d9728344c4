import Verif.Model.ElemLoop
import Verif.Spec.LocalOps
/-
What it means that an element-wise operation, run sequentially or in parallel, does what it should.
-/
namespace Fern.Spec

/-- Started with result array `res`, the operation gives, sequentially and in every schedule of every
parallel run, one and the same array, of which each element at position `i` is related to the
original element by `P i`. -/
def Computes {γ : Type} (loop : Option (ElemLoop γ)) (P : Nat → γ → γ → Prop) (res : List γ) : Prop :=
  ∃ out, runSeq loop res = some out ∧ Elementwise P res out ∧
    ∀ t, 1 ≤ t → ∀ o, ParResult (runTasks t loop) res o ↔ o = some out

/-- The same for an operation of which only the parallel version is considered. -/
def ComputesParallel {γ : Type} (loop : Option (ElemLoop γ)) (P : Nat → γ → γ → Prop)
    (res : List γ) : Prop :=
  ∃ out, Elementwise P res out ∧
    ∀ t, 1 ≤ t → ∀ o, ParResult (runTasks t loop) res o ↔ o = some out

end Fern.Spec
