import Verif.Model.FloatArith

/-!
# Rounding to whole numbers

Model of `algorithm/algebra/elementary/{floor, ceil, round, trunc}.h`. The functions of the standard library do what the
standard says; signs of zeros are left out.
-/

namespace Fern.FloatArith

open Fern Fern.Domains

/-- A function of finite values; others are left as they are. -/
def wholeOf (f : Rat → Int) : Flt → Flt
  | .fin x => .fin (f x)
  | x => x

/-- `std::floor` (`algorithm/algebra/elementary/detail/floor.h:36`) -/
def floorFlt : Flt → Flt := wholeOf Rat.floor

/-- `std::ceil` (`algorithm/algebra/elementary/detail/ceil.h:36`) -/
def ceilFlt : Flt → Flt := wholeOf Rat.ceil

/-- `std::trunc` (`algorithm/algebra/elementary/detail/trunc.h:36`) -/
def truncFlt : Flt → Flt := wholeOf truncRat

/-- `std::round` (`algorithm/algebra/elementary/detail/round.h:36`) -/
def roundFlt : Flt → Flt := wholeOf roundRat

/-- The four operations. -/
inductive Whole | floor | ceil | trunc | round
  deriving DecidableEq

/-- The unary local operation (`algorithm/algebra/elementary/detail/floor.h:43-62` and the same lines of the others): no
domain, no range. -/
def wholeOp (w : Whole) : LocalOp Flt Flt :=
  ⟨fun _ => true, match w with
    | .floor => floorFlt
    | .ceil => ceilFlt
    | .trunc => truncFlt
    | .round => roundFlt, fun _ _ => true⟩

end Fern.FloatArith
