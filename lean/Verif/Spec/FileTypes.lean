import Verif.Model.FileTypes

/-!
# Numbers as they are kept in files
-/

namespace Fern.Spec

open Fern.FileTypes

/-- The nearest number of a type of integers. -/
def nearest (t : IntTy) (v : Int) : Int := max t.min (min t.max v)

/-- The number that is kept if the second one is written where the first one was: the type stays, integers that do not fit
become the nearest number that does. -/
def kept (narrow : Rat → Rat) : Number → Number → Number
  | .int t _, .int t' v => .int t (if t = t' then v else nearest t v)
  | .float32 _, .float32 v => .float32 v
  | .float32 _, .float64 v => .float32 (narrow v)
  | .float64 _, .float32 v => .float64 v
  | .float64 _, .float64 v => .float64 v
  | old, _ => old

/-- A dataset holds a number: written by a computer with either order of bytes. -/
def Holds (d : Stored) (n : Number) : Prop :=
  ∃ big, nativeType big n.valueType = some d.type ∧ d.space = .scalar ∧ d.value = raw n

/-- The types of which numbers can be kept. -/
def IsNumberType (v : ValueType) : Prop := v ≠ .bool ∧ v ≠ .char ∧ v ≠ .string

end Fern.Spec
