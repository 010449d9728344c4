import Verif.Spec.FloatArith
import Verif.Spec.Variance
import Verif.Model.Accumulators

/-!
# How far a variance may be off
-/

namespace Fern.FloatSpread.Spec

open Fern Fern.Domains Fern.FloatArith Fern.FloatArith.Spec

/-- The states that an accumulator can have after getting the values, in this order: added one by one, or by merging
accumulators that got a part of them. -/
inductive Accumulated {S V R : Type} (A : Accumulator S V R) : List V → S → Prop
  | init : Accumulated A [] A.init
  | add (vs : List V) (s s' : S) (v : V) (ok : Bool) : Accumulated A vs s → A.add s v = some (s', ok) → Accumulated A (vs ++ [v]) s'
  | merge (vs vs' : List V) (s s' s'' : S) (ok : Bool) : Accumulated A vs s → Accumulated A vs' s' →
      A.merge s s' = some (s'', ok) → Accumulated A (vs ++ vs') s''

/-- How far the mean of `n` values with mean magnitude `a` may be off. -/
def meanError (t : FltTy) (n : Nat) (a : Rat) : Rat := ((1 + unit t) ^ n - 1) * a + tiny t

/-- How far the variance `v` of `n` values may be off, if the mean is off by `d`. -/
def varianceError (t : FltTy) (n : Nat) (v d : Rat) : Rat :=
  ((1 + unit t) ^ (n + 3) - 1) * (v + d ^ 2) + d ^ 2 + ((1 + unit t) ^ n + 1) * tiny t

/-- A bound for the sum of the squared distances of `n` values with variance `v`, if the mean is off by `d`. -/
def squaresBound (t : FltTy) (n : Nat) (v d : Rat) : Rat :=
  (1 + unit t) ^ (n - 1) * ((1 + unit t) ^ 3 * (n * (v + d ^ 2)) + n * tiny t)

/-- A number that isn't negative, infinity, or NaN. -/
def NotNegative (f : Flt) : Prop := f = .nan ∨ f = .inf ∨ ∃ r, f = .fin r ∧ 0 ≤ r

end Fern.FloatSpread.Spec
