import Verif.Model.Accumulators
import Verif.Model.FloatArith

/-!
# Order statistics of floating point numbers

`accumulator::Max<T, T>`, `accumulator::Min<T, T>`, `accumulator::Range<T, T>` and `accumulator::Median<T, T>` for `float` and
`double`. Zeros have no sign.
-/

namespace Fern.FloatOrder

open Fern Fern.Domains Fern.FloatArith

/-- `std::numeric_limits<T>::max()`, and `-std::numeric_limits<T>::lowest()`. -/
def largest (t : FltTy) : Rat := (2 ^ t.bits - 1) * 2 ^ t.hi

/-- `std::max(a, b)` (`algorithm/accumulator/max.h:118`): `a < b ? b : a`. -/
def stdMax (a b : Flt) : Flt := if Flt.lt a b then b else a

/-- `std::min(a, b)` (`algorithm/accumulator/min.h:118`): `b < a ? b : a`. -/
def stdMin (a b : Flt) : Flt := if Flt.lt b a then b else a

/-- `accumulator::Max<T, T>` (`algorithm/accumulator/max.h:62-150`). The default constructed maximum is `lowest()`, not minus
infinity. -/
def maxAcc (t : FltTy) : Accumulator Flt Flt Flt where
  init := .fin (-largest t)
  add s v := some (stdMax s v, true)
  merge s s' := some (stdMax s s', true)
  result s := some s

/-- `accumulator::Min<T, T>` (`algorithm/accumulator/min.h:62-150`). The default constructed minimum is `max()`. -/
def minAcc (t : FltTy) : Accumulator Flt Flt Flt where
  init := .fin (largest t)
  add s v := some (stdMin s v, true)
  merge s s' := some (stdMin s s', true)
  result s := some s

/-- `accumulator::Range<T, T>` (`algorithm/accumulator/range.h:61-156`): a `Min` and a `Max`. -/
def rangeAcc (t : FltTy) : Accumulator (Flt × Flt) Flt Flt where
  init := ((minAcc t).init, (maxAcc t).init)
  add s v := do
    let (x, _) ← (minAcc t).add s.1 v
    let (y, _) ← (maxAcc t).add s.2 v
    some ((x, y), true)
  merge s s' := do
    let (x, _) ← (minAcc t).merge s.1 s'.1
    let (y, _) ← (maxAcc t).merge s.2 s'.2
    some ((x, y), true)
  result s := do
    let x ← (minAcc t).result s.1
    let y ← (maxAcc t).result s.2
    some (minus t y x)

/-- `std::sort` (`algorithm/accumulator/median.h:139`). If some of the values are NaN then, unless all are, `<` either is no strict
weak ordering, so that the behaviour is undefined, or the order is unspecified: `none`. -/
def sortValues (values : List Flt) : Option (List Flt) :=
  if .nan ∈ values then
    if ∀ v ∈ values, v = .nan then some values else none
  else some (values.mergeSort Flt.le)

/-- `Median::operator()()` (`algorithm/accumulator/median.h:133-155`). -/
def medianResult (t : FltTy) (values : List Flt) : Option Flt :=
  if values = [] then none
  else do
    let sorted ← sortValues values
    let center := sorted.length / 2
    if sorted.length % 2 = 1 then sorted[center]?
    else do
      let x ← sorted[center - 1]?
      let y ← sorted[center]?
      over t (plus t x y) (.fin 2)

/-- `accumulator::Median<T, T>` (`algorithm/accumulator/median.h:65-173`). That asking for the result sorts the (mutable) values is
left out: the next result sorts them again. -/
def medianAcc (t : FltTy) : Accumulator (List Flt) Flt Flt where
  init := []
  add s v := some (s ++ [v], true)
  merge s s' := some (s ++ s', true)
  result := medianResult t

end Fern.FloatOrder
