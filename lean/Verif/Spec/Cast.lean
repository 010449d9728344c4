import Verif.Model.Cast
import Verif.Spec.CInt

/-! What casting should do. -/

namespace Fern.Casts.Spec

open Fern Fern.Domains Fern.Spec

/-- A value of a number type. -/
def OfType (t : NumTy) : Flt → Prop
  | .fin q => Represents t q
  | _ => t = .f32 ∨ t = .f64

/-- The negated value. -/
def opposite : Flt → Flt
  | .fin q => .fin (-q)
  | .inf => .negInf
  | .negInf => .inf
  | .nan => .nan

/-- `n` is `q` without its fraction. -/
def IntegerPart (q : Rat) (n : Int) : Prop :=
  (0 ≤ q → (n : Rat) ≤ q ∧ q < n + 1) ∧ (q ≤ 0 → q ≤ n ∧ (n : Rat) - 1 < q)

/-- `r` is a value with property `P` that is nearest to `x`. -/
def Nearest (P : Rat → Prop) (x r : Rat) : Prop := P r ∧ ∀ m, P m → |x - r| ≤ |x - m|

/-- The types that the policy supports. -/
def Supported (s r : NumTy) : Prop :=
  s = .bool ∨ (s = r ∧ (s = .f32 ∨ s = .f64)) ∨
    ∃ a b, s = .int a ∧ r = .int b ∧ ((Signed a ∧ Signed b) ∨ (Unsigned a ∧ Unsigned b)) ∧ a.bits ≤ b.bits

end Fern.Casts.Spec
