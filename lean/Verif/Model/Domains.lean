import Verif.Model.CInt
import Verif.Model.LocalOps

/-!
# Domains and ranges of the elementary functions

Model of the out-of-domain and out-of-range policies of `algorithm/algebra/elementary` and
`algorithm/trigonometry`. The functions of the C++ library themselves are parameters; the policies use
comparison, `std::trunc`, `std::round`, `std::modf`, `std::remainder` and `std::isfinite`, which are exact.
-/

namespace Fern.Domains

/-- A floating point value. The two zeros are not distinguished: no policy does. -/
inductive Flt
  | fin (x : Rat)
  | inf
  | negInf
  | nan
  deriving DecidableEq

namespace Flt

/-- `a <= b` -/
def le : Flt → Flt → Bool
  | .nan, _ | _, .nan => false
  | .negInf, _ | _, .inf => true
  | .inf, _ | _, .negInf => false
  | .fin x, .fin y => decide (x ≤ y)

/-- `a < b` -/
def lt : Flt → Flt → Bool
  | .nan, _ | _, .nan => false
  | .inf, _ | _, .negInf => false
  | .negInf, _ | _, .inf => true
  | .fin x, .fin y => decide (x < y)

/-- `is_equal` (`core/math.h:16-60`). -/
def eq : Flt → Flt → Bool
  | .fin x, .fin y => decide (x = y)
  | .inf, .inf | .negInf, .negInf => true
  | _, _ => false

/-- `std::isfinite` -/
def isFinite : Flt → Bool
  | .fin _ => true
  | _ => false

end Flt

open Flt

/-- Rounding towards zero. -/
def truncRat (x : Rat) : Int := if 0 ≤ x then x.floor else x.ceil

/-- `std::trunc` -/
def trunc : Flt → Flt
  | .fin x => .fin (truncRat x)
  | x => x

/-- Rounding to the nearest integer, away from zero if there are two. -/
def roundRat (x : Rat) : Int := if 0 ≤ x then (x + 1 / 2).floor else (x - 1 / 2).ceil

/-- `std::round` -/
def round : Flt → Flt
  | .fin x => .fin (roundRat x)
  | x => x

/-- The fractional part of `std::modf`. -/
def fractional : Flt → Flt
  | .fin x => .fin (x - truncRat x)
  | .inf | .negInf => .fin 0
  | .nan => .nan

/-- `sqrt::OutOfDomainPolicy` (`algorithm/algebra/elementary/sqrt.h:40-44`). -/
def sqrtDomain (x : Flt) : Bool := le (.fin 0) x

/-- `log::OutOfDomainPolicy` (`algorithm/algebra/elementary/log.h:32-36`); `log2.h` and `log10.h` have the
same. -/
def logDomain (x : Flt) : Bool := le (.fin 0) x

/-- `acos::OutOfDomainPolicy` (`algorithm/trigonometry/acos.h:41-48`). -/
def acosDomain (x : Flt) : Bool := le (.fin (-1)) x && le x (.fin 1)

/-- `asin::OutOfDomainPolicy` (`algorithm/trigonometry/asin.h:41-48`). -/
def asinDomain (x : Flt) : Bool := le (.fin (-1)) x && le x (.fin 1)

/-- `sin::OutOfDomainPolicy`, `cos::OutOfDomainPolicy` (`algorithm/trigonometry/sin.h:38-42`,
`cos.h:38-42`). -/
def sinDomain (x : Flt) : Bool := x.isFinite

/-- `pow::OutOfDomainPolicy` (`algorithm/algebra/elementary/pow.h:45-62`). -/
def powDomain (base exponent : Flt) : Bool :=
  if lt base (.fin 0) then eq (fractional exponent) (.fin 0)
  else !(eq base (.fin 0) && lt exponent (.fin 0))

/-- `pow::OutOfRangePolicy`, `tgamma::OutOfRangePolicy` and, for floating point numbers,
`factorial::OutOfRangePolicy` (`algorithm/algebra/elementary/pow.h:89-95`, `tgamma.h:70-75`,
`detail/factorial.h:116-122`). -/
def finiteRange (result : Flt) : Bool := result.isFinite

/-- `tgamma::OutOfDomainPolicy` (`algorithm/algebra/elementary/tgamma.h:40-44`). -/
def tgammaDomain (x : Flt) : Bool := le (.fin 0) x || !eq (trunc x) x

/-- `factorial::OutOfDomainPolicy` of floating point numbers
(`algorithm/algebra/elementary/detail/factorial.h:57-61`). -/
def factorialFloatDomain (x : Flt) : Bool := le (.fin 0) x && eq (trunc x) x

/-- The integer `std::remainder` uses: the nearest to the quotient, the even one if there are two. -/
def nearestEven (x : Rat) : Int :=
  let n := (x + 1 / 2).floor
  if x + 1 / 2 = n ∧ n % 2 ≠ 0 then n - 1 else n

/-- `static_cast<int64_t>`: undefined (`none`) if the value is out of range. -/
def toInt64 (x : Rat) : Option Int :=
  if -2 ^ 63 ≤ truncRat x ∧ truncRat x < 2 ^ 63 then some (truncRat x) else none

/-- `tan::OutOfDomainPolicy` (`algorithm/trigonometry/tan.h:42-62`). `halfPi`: the number
`half_pi<Value>()`; `div`: division of floating point numbers. `none`: undefined behaviour. -/
def tanDomain (halfPi : Rat) (div : Rat → Rat → Rat) : Flt → Option Bool
  | .fin x =>
    if x - nearestEven (x / halfPi) * halfPi ≠ 0 then some true
    else (toInt64 (div x halfPi)).map fun q => decide (q.tmod 2 = 0)
  | _ => some false

/-! ### Factorials of integers -/

/-- `std::numeric_limits<T>::max()` converted to `double`: the largest values of the types of 64 bits are
rounded up. -/
def maxAsDouble (t : IntTy) : Rat := if t.bits = 64 then (t.max + 1 : Int) else (t.max : Int)

/-- Conversion of a floating point number to an integer: undefined (`none`) if the value is out of range. -/
def toInteger (t : IntTy) : Flt → Option Int
  | .fin x => if t.min ≤ truncRat x ∧ truncRat x ≤ t.max then some (truncRat x) else none
  | _ => none

/-- `factorial::OutOfDomainPolicy` of integers (`algorithm/algebra/elementary/detail/factorial.h:39-43`). -/
def factorialDomain (v : Int) : Bool := decide (0 ≤ v)

/-- `factorial::detail::Algorithm` (`algorithm/algebra/elementary/detail/factorial.h:136-145`). `gamma`:
`std::tgamma` of an integer. -/
def factorialValue (gamma : Int → Flt) (t : IntTy) (v : Int) : Option Int :=
  (IntTy.arith (IntTy.common t t) (v + 1)).bind fun a => toInteger t (round (gamma a))

/-- `factorial::OutOfRangePolicy` of integers (`algorithm/algebra/elementary/detail/factorial.h:88-107`). -/
def factorialRange (gamma : Int → Flt) (t : IntTy) (v : Int) : Option Bool :=
  (IntTy.arith (IntTy.common t .i32) (v + 1)).map fun a => le (round (gamma a)) (.fin (maxAsDouble t))

/-- What becomes of a value: no-data, or the value of the result. -/
inductive FactorialCell
  | noData
  | value (v : Int)
  deriving DecidableEq

/-- The part of the loop of `unary_local_operation` that deals with a value
(`algorithm/core/unary_local_operation.h:87-107`), for `factorial` with its two policies. -/
def factorialCell (gamma : Int → Flt) (t : IntTy) (v : Int) : Option FactorialCell :=
  if !factorialDomain v then some .noData
  else (factorialValue gamma t v).bind fun r => (factorialRange gamma t v).map fun b =>
    if !b then .noData else .value r

/-! ### The operations -/

/-- `sqrt` (`algorithm/algebra/elementary/detail/sqrt.h:22-105`) with its policy; `f`: `std::sqrt`. -/
def sqrtOp (f : Flt → Flt) : LocalOp Flt Flt := ⟨sqrtDomain, f, fun _ _ => true⟩

/-- `log` (`algorithm/algebra/elementary/detail/log.h:20-67`) with its policy; `f`: `std::log`. -/
def logOp (f : Flt → Flt) : LocalOp Flt Flt := ⟨logDomain, f, fun _ _ => true⟩

/-- `acos` and `asin` (`algorithm/trigonometry/detail/acos.h:20-67`, `asin.h:20-67`) with their policies; `f`:
`std::acos`, `std::asin`. -/
def acosOp (f : Flt → Flt) : LocalOp Flt Flt := ⟨acosDomain, f, fun _ _ => true⟩

@[inherit_doc acosOp]
def asinOp (f : Flt → Flt) : LocalOp Flt Flt := ⟨asinDomain, f, fun _ _ => true⟩

/-- `sin` and `cos` (`algorithm/trigonometry/detail/sin.h:20-67`, `cos.h:20-67`) with their policy; `f`: `std::sin`,
`std::cos`. -/
def sinOp (f : Flt → Flt) : LocalOp Flt Flt := ⟨sinDomain, f, fun _ _ => true⟩

/-- `tgamma` (`algorithm/algebra/elementary/detail/tgamma.h:21-64`) with its policies; `f`: `std::tgamma`. -/
def tgammaOp (f : Flt → Flt) : LocalOp Flt Flt := ⟨tgammaDomain, f, fun _ r => finiteRange r⟩

/-- `factorial` of floating point numbers (`algorithm/algebra/elementary/detail/factorial.h:132-175`) with its policies;
`f`: the rounded `std::tgamma` of the number plus one. -/
def factorialFloatOp (f : Flt → Flt) : LocalOp Flt Flt := ⟨factorialFloatDomain, f, fun _ r => finiteRange r⟩

/-- `pow` (`algorithm/algebra/elementary/detail/pow.h:22-72`) with its policies; `f`: `std::pow`. -/
def powOp (f : Flt → Flt → Flt) : LocalOp (Flt × Flt) Flt :=
  ⟨fun a => powDomain a.1 a.2, fun a => f a.1 a.2, fun _ r => finiteRange r⟩

end Fern.Domains
