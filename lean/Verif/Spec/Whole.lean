import Verif.Model.Whole

/-! Which whole number a number is rounded to. -/

namespace Fern.FloatArith.Spec

open Fern Fern.Domains

/-- The whole number that `x` is rounded to: the largest one that is not larger, the smallest one that is not smaller, the
one without the fraction, the nearest one and of two such the one with the larger magnitude. -/
def IsWhole : Whole → Rat → Int → Prop
  | .floor, x, k => (k : Rat) ≤ x ∧ ∀ j : Int, (j : Rat) ≤ x → j ≤ k
  | .ceil, x, k => x ≤ k ∧ ∀ j : Int, x ≤ j → k ≤ j
  | .trunc, x, k => 0 ≤ x * k ∧ |(k : Rat)| ≤ |x| ∧ ∀ j : Int, |(j : Rat)| ≤ |x| → |j| ≤ |k|
  | .round, x, k => ∀ j : Int, j ≠ k → |x - k| < |x - j| ∨ (|x - k| = |x - j| ∧ |j| < |k|)

end Fern.FloatArith.Spec
