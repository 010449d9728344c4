/-
The integer types of the C++ code and the arithmetic on them, as far as the algorithms use them:
integral promotion, the usual arithmetic conversions, conversion between integer types, and the
operators `+ - * /`, unary `-`, `< <= > >= == !=`.

Platform: LP64 as used by the project (`int` has 32 bits; fixed width types of 8 to 64 bits; two's
complement; conversion to a signed type that cannot represent the value wraps, as GCC and Clang
document and C++20 requires).
-/
namespace Fern

/-- `uint8_t`, `int8_t`, ..., `uint64_t`, `int64_t`. -/
inductive IntTy | u8 | i8 | u16 | i16 | u32 | i32 | u64 | i64
  deriving DecidableEq, Repr

namespace IntTy

/-- Number of bits. -/
def bits : IntTy → Nat
  | u8 | i8 => 8
  | u16 | i16 => 16
  | u32 | i32 => 32
  | u64 | i64 => 64

/-- `std::is_signed`, `TypeTraits<T>::number_category` (`core/type_traits.h:70-310`). -/
def signed : IntTy → Bool
  | i8 | i16 | i32 | i64 => true
  | u8 | u16 | u32 | u64 => false

/-- `TypeTraits<T>::min()` (`core/type_traits.h:83-296`). -/
def min (t : IntTy) : Int := if t.signed then -2 ^ (t.bits - 1) else 0

/-- `TypeTraits<T>::max()` (`core/type_traits.h:88-301`). -/
def max (t : IntTy) : Int := if t.signed then 2 ^ (t.bits - 1) - 1 else 2 ^ t.bits - 1

/-- Conversion of an integer value to type `t`. -/
def wrap (t : IntTy) (v : Int) : Int :=
  if t.signed then (v + 2 ^ (t.bits - 1)) % 2 ^ t.bits - 2 ^ (t.bits - 1) else v % 2 ^ t.bits

/-- Integral promotion: all values of the types with less than 32 bits fit in an `int`. -/
def promote (t : IntTy) : IntTy := if t.bits < 32 then i32 else t

/-- Usual arithmetic conversions of promoted types. -/
def convert (t1 t2 : IntTy) : IntTy :=
  if t1.signed == t2.signed then (if t1.bits < t2.bits then t2 else t1)
  else if t1.signed then (if t2.bits < t1.bits then t1 else t2)
  else (if t1.bits < t2.bits then t2 else t1)

/-- The type in which an operator with operands of types `t1` and `t2` is evaluated. -/
def common (t1 t2 : IntTy) : IntTy := convert t1.promote t2.promote

/-- The result of an arithmetic operator evaluated in the promoted type `t`, `v` being the
mathematical result: overflow of a signed type is undefined behaviour (`none`), unsigned types
wrap. -/
def arith (t : IntTy) (v : Int) : Option Int :=
  if t.signed then (if t.min ≤ v ∧ v ≤ t.max then some v else none) else some (t.wrap v)

end IntTy

open IntTy

/-- `v1 + v2`. -/
def cAdd (t1 t2 : IntTy) (v1 v2 : Int) : Option Int :=
  (common t1 t2).arith ((common t1 t2).wrap v1 + (common t1 t2).wrap v2)

/-- `v1 - v2`. -/
def cSub (t1 t2 : IntTy) (v1 v2 : Int) : Option Int :=
  (common t1 t2).arith ((common t1 t2).wrap v1 - (common t1 t2).wrap v2)

/-- `v1 * v2`. -/
def cMul (t1 t2 : IntTy) (v1 v2 : Int) : Option Int :=
  (common t1 t2).arith ((common t1 t2).wrap v1 * (common t1 t2).wrap v2)

/-- `v1 / v2`: truncates; division by zero is undefined behaviour. -/
def cDiv (t1 t2 : IntTy) (v1 v2 : Int) : Option Int :=
  if (common t1 t2).wrap v2 = 0 then none
  else (common t1 t2).arith (((common t1 t2).wrap v1).tdiv ((common t1 t2).wrap v2))

/-- `-v`. -/
def cNeg (t : IntTy) (v : Int) : Option Int := t.promote.arith (-(t.promote.wrap v))

/-- `v1 < v2`. -/
def cLt (t1 t2 : IntTy) (v1 v2 : Int) : Bool := (common t1 t2).wrap v1 < (common t1 t2).wrap v2
/-- `v1 <= v2`. -/
def cLe (t1 t2 : IntTy) (v1 v2 : Int) : Bool := (common t1 t2).wrap v1 ≤ (common t1 t2).wrap v2
/-- `v1 > v2`. -/
def cGt (t1 t2 : IntTy) (v1 v2 : Int) : Bool := (common t1 t2).wrap v1 > (common t1 t2).wrap v2
/-- `v1 >= v2`. -/
def cGe (t1 t2 : IntTy) (v1 v2 : Int) : Bool := (common t1 t2).wrap v1 ≥ (common t1 t2).wrap v2
/-- `v1 == v2`. -/
def cEq (t1 t2 : IntTy) (v1 v2 : Int) : Bool := (common t1 t2).wrap v1 == (common t1 t2).wrap v2
/-- `v1 != v2`. -/
def cNe (t1 t2 : IntTy) (v1 v2 : Int) : Bool := (common t1 t2).wrap v1 != (common t1 t2).wrap v2

end Fern
