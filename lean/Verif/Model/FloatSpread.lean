import Verif.Model.Variance
import Verif.Model.FloatArith

/-!
# Variance and standard deviation of floating point numbers

`accumulator::Variance<T, T>` and `accumulator::StandardDeviation<T, T>` for `float` and `double`. Each operation is rounded by
itself: there are no fused multiplications and additions.
-/

namespace Fern.FloatSpread

open Fern Fern.Domains Fern.FloatArith

/-- `static_cast<T>(value)` of a count (`algorithm/accumulator/mean.h:176`, `algorithm/accumulator/variance.h:149`) is rounded. A
count is not zero where it is divided by. -/
def divideBy (t : FltTy) (x : Flt) (n : Nat) : Option Flt := over t x (t.round n)

/-- The arithmetic of the accumulators: `sum += value` (`algorithm/accumulator/sum.h:126-131`), `square(mean - value)`
(`algorithm/accumulator/variance.h:53-60, 145-147`), and the divisions (`mean.h:168-180`, `variance.h:149`). -/
def fltSpreadOps (t : FltTy) : SpreadOps Flt where
  zero := .fin 0
  add x v := some (plus t x v)
  squareOfDifference m v := some (times t (minus t m v) (minus t m v))
  div := divideBy t

end Fern.FloatSpread
