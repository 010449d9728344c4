import Verif.Model.Accumulators
/-
`accumulator::Variance<T, T>` (`algorithm/accumulator/variance.h`) and
`accumulator::StandardDeviation<T, T>` (`algorithm/accumulator/standard_deviation.h`), for any number
type `T`.
-/
namespace Fern

/-- The arithmetic that the accumulators use. `none`: undefined behaviour. -/
structure SpreadOps (T : Type) where
  zero : T
  /-- `sum += value` -/
  add : T → T → Option T
  /-- `square(mean - value)` -/
  squareOfDifference : T → T → Option T
  /-- `sum / static_cast<T>(count)` -/
  div : T → Nat → Option T

/-- The state: the layered `Sum` and `Count` of the layered `Mean`, and the values
(`algorithm/accumulator/variance.h:64-66`). That the count wraps is left out. -/
structure SpreadState (T : Type) where
  sum : T
  count : Nat
  values : List T
  deriving DecidableEq

/-- `Mean::operator()()` (`algorithm/accumulator/mean.h:168-180`). -/
def SpreadState.mean {T : Type} (o : SpreadOps T) (s : SpreadState T) : Option T :=
  if 0 < s.count then o.div s.sum s.count else none

/-- The loop of `Variance::operator()()` (`algorithm/accumulator/variance.h:145-147`). -/
def squaresLoop {T : Type} (o : SpreadOps T) (mean : T) : T → List T → Option T
  | r, [] => some r
  | r, v :: vs =>
    (o.squareOfDifference mean v).bind fun x => (o.add r x).bind fun r => squaresLoop o mean r vs

/-- `Variance<T, T>`: the default constructor (`algorithm/accumulator/variance.h:74-83`),
`operator()(value)` (122-131), `operator|=` (161-173) and `operator()()` (137-152). There is no version
with an out of range policy. -/
def varianceAcc {T : Type} (o : SpreadOps T) : Accumulator (SpreadState T) T T where
  init := ⟨o.zero, 0, []⟩
  add s v := (o.add s.sum v).map fun x => (⟨x, s.count + 1, s.values ++ [v]⟩, true)
  merge s s' := (o.add s.sum s'.sum).map fun x => (⟨x, s.count + s'.count, s.values ++ s'.values⟩, true)
  result s :=
    if s.values = [] then none
    else
      (s.mean o).bind fun m => (squaresLoop o m o.zero s.values).bind fun r => o.div r s.values.length

/-- The constructor that gets a value (`algorithm/accumulator/variance.h:92-101`), and assignment of a
value (109-116). -/
def varianceOf {T : Type} (v : T) : SpreadState T := ⟨v, 1, [v]⟩

/-- `StandardDeviation<T, T>` (`algorithm/accumulator/standard_deviation.h:56-147`): a layered
`Variance`, of whose result the square root is taken. -/
def standardDeviationAcc {T : Type} (o : SpreadOps T) (sqrt : T → T) :
    Accumulator (SpreadState T) T T where
  init := (varianceAcc o).init
  add := (varianceAcc o).add
  merge := (varianceAcc o).merge
  result s := ((varianceAcc o).result s).map sqrt

open IntTy in
/-- The arithmetic of an integer type. -/
def intSpreadOps (t : IntTy) : SpreadOps Int where
  zero := 0
  add x v := (cAdd t t.promote x v).map t.wrap
  squareOfDifference m v := (cSub t t m v).bind fun d => cMul t.promote t.promote d d
  div x n := (cDiv t t x (t.wrap n)).map t.wrap

end Fern
