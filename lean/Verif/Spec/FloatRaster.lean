import Verif.Model.FloatRaster
import Verif.Spec.FloatArith
import Verif.Spec.PairLoop
/-! What arithmetic on arrays of floating point numbers should do. -/
namespace Fern.FloatRaster.Spec

open Fern.Domains Fern.Spec Fern.FloatArith
open Fern.IntRaster (ArithOp Checks)
open Fern.Casts.Spec (IntegerPart opposite)
open Fern.FloatArith.Spec (Rounded)

/-- One of the types is an integer type. -/
def Mixed (t1 t2 : NumTy) : Prop := (∃ i, t1 = .int i) ∨ ∃ i, t2 = .int i

/-- Not infinite and not NaN. -/
def IsNumber (v : Flt) : Prop := ∃ q, v = .fin q

/-- `w` is the value `v` as operand of type `r`: rounded. -/
def Operand (r : FltTy) (v w : Flt) : Prop := (∃ q, v = .fin q ∧ Rounded r q w) ∨ (¬ IsNumber v ∧ w = v)

/-- The exact result; there is none for division by zero. -/
def exact : ArithOp → Rat → Rat → Option Rat
  | .add, x, y => some (x + y)
  | .subtract, x, y => some (x - y)
  | .multiply, x, y => some (x * y)
  | .divide, x, y => if y = 0 then none else some (x / y)

/-- Infinity or a positive number. -/
def Positive (v : Flt) : Prop := v = .inf ∨ ∃ q : Rat, v = .fin q ∧ 0 < q

/-- Minus infinity or a negative number. -/
def Negative (v : Flt) : Prop := v = .negInf ∨ ∃ q : Rat, v = .fin q ∧ q < 0

/-- Infinity or minus infinity. -/
def IsInfinite (v : Flt) : Prop := v = .inf ∨ v = .negInf

/-- Sums, if one of the operands is infinite or NaN. -/
def SpecialSum (a b z : Flt) : Prop :=
  (a = .nan ∨ b = .nan ∨ (IsInfinite a ∧ b = opposite a) → z = .nan) ∧
  (¬ (a = .nan ∨ b = .nan ∨ (IsInfinite a ∧ b = opposite a)) →
    (IsInfinite a → z = a) ∧ (IsInfinite b → z = b))

/-- An infinite product or quotient has the sign that it should have. -/
def InfiniteSigned (a b z : Flt) : Prop :=
  (Positive a ∧ Positive b ∨ Negative a ∧ Negative b → z = .inf) ∧
  (Positive a ∧ Negative b ∨ Negative a ∧ Positive b → z = .negInf)

/-- Products, if one of the operands is infinite or NaN. -/
def SpecialProduct (a b z : Flt) : Prop :=
  (a = .nan ∨ b = .nan ∨ a = .fin 0 ∨ b = .fin 0 → z = .nan) ∧
  (¬ (a = .nan ∨ b = .nan ∨ a = .fin 0 ∨ b = .fin 0) → InfiniteSigned a b z)

/-- Quotients, if one of the operands is infinite or NaN, and the divisor is not zero. -/
def SpecialQuotient (a b z : Flt) : Prop :=
  (a = .nan ∨ b = .nan ∨ (IsInfinite a ∧ IsInfinite b) → z = .nan) ∧
  (¬ (a = .nan ∨ b = .nan ∨ (IsInfinite a ∧ IsInfinite b)) →
    (IsInfinite b → z = .fin 0) ∧ (IsInfinite a → InfiniteSigned a b z))

/-- `z` is the result that the standard IEEE 754 prescribes. -/
def Result (r : FltTy) (op : ArithOp) (a b z : Flt) : Prop :=
  (∀ x y q, a = .fin x → b = .fin y → exact op x y = some q → Rounded r q z) ∧
  (¬ (IsNumber a ∧ IsNumber b) → match op with
    | .add => SpecialSum a b z
    | .subtract => SpecialSum a (opposite b) z
    | .multiply => SpecialProduct a b z
    | .divide => SpecialQuotient a b z)

/-- Division by zero. -/
def ByZero (op : ArithOp) (v2 : Flt) : Prop := op = .divide ∧ v2 = .fin 0

/-- An assertion fails: for a division by zero that is not prevented by the domain policy, and for a
difference of an integer and an infinite value or NaN, if the range is checked. -/
def Fails (op : ArithOp) (k : Checks) (t1 t2 : NumTy) (v1 v2 : Flt) : Prop :=
  (ByZero op v2 ∧ k.domain = false) ∨
  (op = .subtract ∧ Mixed t1 t2 ∧ k.range = true ∧ ¬ (IsNumber v1 ∧ IsNumber v2))

/-- The results that are not reported as out of range. -/
def Accepted (op : ArithOp) (k : Checks) (t1 t2 : NumTy) (z : Flt) : Prop :=
  k.range = false ∨ IsNumber z ∨ (op = .add ∧ Mixed t1 t2)

/-- The element of the result for a pair of valid values. -/
def PairCell (op : ArithOp) (k : Checks) (t1 t2 : NumTy) (r : FltTy) (outp : OutPolicy Flt) (v1 v2 : Flt)
    (c c' : Cell Flt) : Prop :=
  (ByZero op v2 → Marked outp c c') ∧
  (¬ ByZero op v2 → ∃ a b z, Operand r v1 a ∧ Operand r v2 b ∧ Result r op a b z ∧
    (Accepted op k t1 t2 z → c' = ⟨z, c.masked⟩) ∧
    (¬ Accepted op k t1 t2 z → Marked outp ⟨z, c.masked⟩ c'))

/-- Conversion of a floating point number or an integer to another type: to integers without fraction, if
the type has this integer; to floating point numbers rounded. -/
def ConvertsTo (r : NumTy) (v w : Flt) : Prop :=
  (∃ t q n, r = .int t ∧ v = .fin q ∧ IntegerPart q n ∧ Fits t n ∧ w = .fin n) ∨
  ∃ t : FltTy, r = t.num ∧ Operand t v w

/-- `w` is what remains of the value `v` of type `t2` after passing through type `t1`. -/
def Passed (t1 t2 : NumTy) (v w : Flt) : Prop := ∃ u, ConvertsTo t1 v u ∧ ConvertsTo t2 u w

/-- What fails in the 1D versions. -/
def Fails1d (op : ArithOp) (k : Checks) (t1 t2 : NumTy) (v1 v2 : Flt) : Prop :=
  ∀ w, Passed t1 t2 v2 w → Fails op k t1 t2 v1 w

/-- The element of the result in the 1D versions. -/
def PairCell1d (op : ArithOp) (k : Checks) (t1 t2 : NumTy) (r : FltTy) (outp : OutPolicy Flt) (v1 v2 : Flt)
    (c c' : Cell Flt) : Prop :=
  ∃ w, Passed t1 t2 v2 w ∧ PairCell op k t1 t2 r outp v1 w c c'

end Fern.FloatRaster.Spec
