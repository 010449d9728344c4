import Verif.Model.ResultValue
import Mathlib.Data.Rat.Defs
/-
Which values a type can represent, stated with plain numbers.
-/
namespace Fern.Spec

/-- The values of an integer type. -/
def Fits (t : IntTy) (v : Int) : Prop :=
  match t with
  | .u8 => 0 ≤ v ∧ v ≤ 255
  | .i8 => -128 ≤ v ∧ v ≤ 127
  | .u16 => 0 ≤ v ∧ v ≤ 65535
  | .i16 => -32768 ≤ v ∧ v ≤ 32767
  | .u32 => 0 ≤ v ∧ v ≤ 4294967295
  | .i32 => -2147483648 ≤ v ∧ v ≤ 2147483647
  | .u64 => 0 ≤ v ∧ v ≤ 18446744073709551615
  | .i64 => -9223372036854775808 ≤ v ∧ v ≤ 9223372036854775807

instance (t : IntTy) (v : Int) : Decidable (Fits t v) := by
  unfold Fits; cases t <;> infer_instance

/-- The type is one of `uint8_t .. uint64_t`. -/
def Unsigned (t : IntTy) : Prop := t = .u8 ∨ t = .u16 ∨ t = .u32 ∨ t = .u64

/-- The type is one of `int8_t .. int64_t`. -/
def Signed (t : IntTy) : Prop := t = .i8 ∨ t = .i16 ∨ t = .i32 ∨ t = .i64

/-- The type has 8 or 16 bits. -/
def Narrow (t : IntTy) : Prop := t = .u8 ∨ t = .i8 ∨ t = .u16 ∨ t = .i16

/-- Finite values of a binary floating point type with `p` bits of precision and exponents
(of the least significant bit) from `lo` to `hi`: `m * 2^e`. -/
def FloatValue (p : Nat) (lo hi : Int) (v : Rat) : Prop :=
  ∃ (m : Int) (e : Int), -2 ^ p < m ∧ m < 2 ^ p ∧ lo ≤ e ∧ e ≤ hi ∧
    ∃ k : Nat, (e = k ∧ v = m * 2 ^ k) ∨ (e = -k ∧ v * 2 ^ k = m)

/-- The finite values of a number type. `float` and `double` are IEEE binary32 and binary64. -/
def Represents (t : NumTy) (v : Rat) : Prop :=
  match t with
  | .bool => v = 0 ∨ v = 1
  | .int t => ∃ i : Int, v = i ∧ Fits t i
  | .f32 => FloatValue 24 (-149) 104 v
  | .f64 => FloatValue 53 (-1074) 971 v

/-- Every value of `a` is a value of `b`. -/
def RepresentsAll (b a : NumTy) : Prop := ∀ v, Represents a v → Represents b v

end Fern.Spec
