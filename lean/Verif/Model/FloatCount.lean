import Verif.Model.Aggregate
import Verif.Model.Domains
/-
`count` of floating point numbers, and of a single value.
-/
namespace Fern

open Domains

/-- `operation_0d` of `binary_aggregate_operation` (`algorithm/core/binary_aggregate_operation.h:30-46, 318-351`). The
two input no-data policies are those of the two arguments. -/
def binaryAggregate0d {V R : Type} (B : BinaryAggregate V R) (p q : InPolicy V) (v value : V) (outp : OutPolicy R)
    (c : Cell R) : Option (Cell R) := do
  if (← p.isNoData0 v) then some (outp.mark c)
  else if (← q.isNoData0 value) then some (outp.mark c)
  else some ⟨B.init v value, c.masked⟩

/-- `count` of floating point numbers (`algorithm/statistic/detail/count.h:22-53,80-98`) with results of type `r`: the
first value is compared with `is_equal` (`core/math.h:16-46`), the others with `==`. -/
def countFlt (r : IntTy) : BinaryAggregate Flt Int where
  init a v := if Flt.eq a v then 1 else 0
  calculate a v x := (cAdd r .i32 x (if Flt.eq a v then 1 else 0)).map r.wrap
  withinRange _ _ _ := true

end Fern
