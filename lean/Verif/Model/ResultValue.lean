import Verif.Model.CInt
/-
The value type of the result of binary operations: `algorithm/core/detail/result_value.h`,
`algorithm/core/result_type.h:50-56`, `core/typelist.h`.
-/
namespace Fern

open IntTy

/-- `fern::core::find` (`core/typelist.h:98-154`): index of the type in the list (a type that is not
in the list does not compile: `none`). -/
def typelistFind (t : IntTy) : List IntTy → Nat → Option Nat
  | [], _ => none
  | t' :: ts, i => if t' = t then some i else typelistFind t ts (i + 1)

/-- `UnsignedTypes` (`algorithm/core/detail/result_value.h:131-132`). -/
def unsignedTypes : List IntTy := [u8, u16, u32, u64]
/-- `SignedTypes` (`algorithm/core/detail/result_value.h:133`). -/
def signedTypes : List IntTy := [i8, i16, i32, i64]

/-- Largest type (`boost::mpl::max_element` of the sizes, `result_value.h:72-79, 96-103`). -/
def largestType (t1 t2 : IntTy) : IntTy := if t1.bits < t2.bits then t2 else t1

/-- `ResultValue<A1, A2, unsigned_integer_tag, signed_integer_tag>`
(`algorithm/core/detail/result_value.h:119-147`). -/
def resultUnsignedSigned (a1 a2 : IntTy) : Option IntTy := do
  let i ← typelistFind a1 unsignedTypes 0
  let type1 ← signedTypes[Nat.min (i + 1) (signedTypes.length - 1)]?
  if type1.bits > a2.bits then type1 else a2

/-- `ResultValue` for two integer types (`algorithm/core/detail/result_value.h:60-162`). -/
def resultInt (a1 a2 : IntTy) : Option IntTy :=
  match a1.signed, a2.signed with
  | false, false => some (largestType a1 a2)
  | true, true => some (largestType a1 a2)
  | false, true => resultUnsignedSigned a1 a2
  | true, false => resultUnsignedSigned a2 a1

/-- Number types. -/
inductive NumTy | bool | int (t : IntTy) | f32 | f64
  deriving DecidableEq, Repr

/-- `ResultValue` (`algorithm/core/detail/result_value.h:23-250`). Combinations without
specialization do not compile: `none`. -/
def resultValue : NumTy → NumTy → Option NumTy
  | .bool, .bool => some .bool
  | .int a, .int b => (resultInt a b).map .int
  | .f32, .f32 => some .f32
  | .f32, .f64 => some .f64
  | .f64, .f32 => some .f64
  | .f64, .f64 => some .f64
  | .f32, .int _ => some .f32
  | .f64, .int _ => some .f64
  | .int _, .f32 => some .f32
  | .int _, .f64 => some .f64
  | .bool, _ => none
  | _, .bool => none

end Fern
