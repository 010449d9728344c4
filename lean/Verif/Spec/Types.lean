import Verif.Spec.CInt
import Verif.Model.Types

/-!
# Sets of types

A collection of flags is read as the set of the flags that are set.
-/

namespace Fern.Spec

/-- The number type a value type stands for; characters and strings are none. -/
def numberType : ValueType → Option NumTy
  | .bool => some .bool
  | .char => none
  | .uint8 => some (.int .u8)
  | .int8 => some (.int .i8)
  | .uint16 => some (.int .u16)
  | .int16 => some (.int .i16)
  | .uint32 => some (.int .u32)
  | .int32 => some (.int .i32)
  | .uint64 => some (.int .u64)
  | .int64 => some (.int .i64)
  | .float32 => some .f32
  | .float64 => some .f64
  | .string => none

/-- Both are number types and `d` can represent every value of `m`. -/
def Dominates (d m : ValueType) : Prop :=
  ∃ D M, numberType d = some D ∧ numberType m = some M ∧ RepresentsAll D M

end Fern.Spec
