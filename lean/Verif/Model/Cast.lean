import Verif.Model.ResultValue
import Verif.Model.Domains
import Mathlib.Data.Int.Log
import Mathlib.Data.Rat.Floor

/-!
# Casting, signs, elementwise extremes

Model of `algorithm/core/cast.h`, `algorithm/core/detail/cast.h`, `algorithm/core/sign.h` and
`algorithm/statistic/{binary_min, binary_max}.h`.

Values of all types are given by `Flt`: a `bool` and an integer by the number, a floating point value by the number it
stands for, or as infinity or NaN (the sign of zero is left out). Conversion to a floating point type rounds as in
IEEE 754, to nearest and to even.
-/

namespace Fern.Casts

open Fern Fern.Domains

/-- The exponent of the last bit of the values near to `x`, with `p` bits and no exponents less than `lo`. -/
def lastBit (p : Nat) (lo : Int) (x : Rat) : Int := max lo (Int.log 2 |x| + 1 - p)

/-- Rounding to the floating point values with `p` bits and exponents of the last bit from `lo` to `hi`. -/
def roundTo (p : Nat) (lo hi : Int) (x : Rat) : Flt :=
  let e := lastBit p lo x
  let r := (nearestEven (x / 2 ^ e) : Rat) * 2 ^ e
  if 2 ^ (hi + p) ≤ |r| then (if 0 < x then .inf else .negInf) else .fin r

/-- A number as `float`. -/
def toFloat (x : Rat) : Flt := roundTo 24 (-149) 104 x

/-- A number as `double`. -/
def toDouble (x : Rat) : Flt := roundTo 53 (-1074) 971 x

/-- `static_cast<r>(value)` for a value of type `s` (`algorithm/core/detail/cast.h:191-207`).
`none`: undefined behaviour. -/
def castTo (s r : NumTy) (x : Flt) : Option Flt :=
  match r with
  | .bool => some (if x = .fin 0 then .fin 0 else .fin 1)
  | .int t =>
    match s with
    | .bool | .int _ =>
      match x with
      | .fin q => some (.fin (t.wrap q.floor))
      | _ => none
    | .f32 | .f64 => (toInteger t x).map fun i => .fin i
  | .f32 =>
    match x with
    | .fin q => some (toFloat q)
    | x => some x
  | .f64 =>
    match x with
    | .fin q => some (toDouble q)
    | x => some x

/-- `cast::OutOfRangePolicy` (`algorithm/core/cast.h:30-52`, `algorithm/core/detail/cast.h:22-188`). `none`: it does
not compile, because there is no specialization (`base_class` makes one integer category of the signed and the
unsigned one, so that the two specializations from these to floating point are not used), or because a static
assertion fails. -/
def castWithinRange : NumTy → NumTy → Option Bool
  | .bool, _ => some true
  | .int s, .int r =>
    if s.signed = r.signed then (if s.bits ≤ r.bits then some true else none) else none
  | .f32, .f32 => some true
  | .f64, .f64 => some true
  | _, _ => none

/-- `cast` with `cast::OutOfRangePolicy` (`algorithm/core/detail/cast.h:210-229`), for types for which that compiles.
Simplified: a value whose cast is undefined behaviour is kept; that does not occur for these types. -/
def castOp (s r : NumTy) : LocalOp Flt Flt :=
  ⟨fun _ => true, fun x => (castTo s r x).getD x, fun _ _ => (castWithinRange s r).getD false⟩

/-- `sign` of an integer (`algorithm/core/sign.h:16-45`). -/
def signInt (t : IntTy) (x : Int) : Int := if t.signed then (if 0 ≤ x then 1 else -1) else 1

/-- `sign` of a floating point number. -/
def signFlt (x : Flt) : Int := if Flt.le (.fin 0) x then 1 else -1

/-- `std::min` with a comparison (`algorithm/statistic/detail/binary_min.h:34`). -/
def stdMin {α : Type} (lt : α → α → Bool) (a b : α) : α := if lt b a then b else a

/-- `std::max` with a comparison (`algorithm/statistic/detail/binary_max.h:34`). -/
def stdMax {α : Type} (lt : α → α → Bool) (a b : α) : α := if lt a b then b else a

/-- `binary_min` (`algorithm/statistic/detail/binary_min.h:21-59`): no domain, no range. -/
def minOp {α : Type} (lt : α → α → Bool) : LocalOp (α × α) α :=
  ⟨fun _ => true, fun a => stdMin lt a.1 a.2, fun _ _ => true⟩

/-- `binary_max` (`algorithm/statistic/detail/binary_max.h:21-59`). -/
def maxOp {α : Type} (lt : α → α → Bool) : LocalOp (α × α) α :=
  ⟨fun _ => true, fun a => stdMax lt a.1 a.2, fun _ _ => true⟩

end Fern.Casts
