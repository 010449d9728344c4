import Verif.Model.Arith
import Verif.Model.ElemLoop
/-
Elementary arithmetic of whole arrays of integers: `algebra::add`, `subtract`, `multiply` and `divide`
(`algorithm/algebra/elementary/{add,subtract,multiply,divide}.h`), carried out by
`algorithm/core/binary_local_operation.h`.

`Model/Arith.lean` has the arithmetic of one pair of values and `Model/LocalOps.lean` the loops for
algorithms that always deliver a value. Here the two are put together, with undefined behaviour of one
element (`none`) being undefined behaviour of the operation.
-/
namespace Fern.IntRaster

open IntTy

/-- The operations of two arguments. -/
inductive ArithOp | add | subtract | multiply | divide
  deriving DecidableEq, Repr

/-- The policies chosen by the caller: `domain` says that `divide::OutOfDomainPolicy` is used and not
`DiscardDomainErrors` (`algorithm/policy/discard_domain_errors.h:15-35`), `range` that the operation's
`OutOfRangePolicy` is used and not `DiscardRangeErrors`
(`algorithm/policy/discard_range_errors.h:15-35`), which both always answer yes. -/
structure Checks where
  domain : Bool
  range : Bool
  deriving DecidableEq, Repr

/-- `OutOfDomainPolicy::within_domain(v1, v2)`. Only `divide` has a domain: the others use
`DiscardDomainErrors` (`detail/add.h:279`, `detail/subtract.h:296`, `detail/multiply.h:315`). -/
def ArithOp.withinDomain (op : ArithOp) (t2 : IntTy) (v2 : Int) : Bool :=
  match op with
  | .divide => divDomain t2 v2
  | _ => true

/-- `algorithm(v1, v2, r)`: the value stored (`detail/subtract.h:259-273`, `detail/multiply.h:278-293`,
`detail/divide.h:240-255`). -/
def ArithOp.compute (op : ArithOp) (t2 r : IntTy) (v1 v2 : Int) : Option Int :=
  match op with
  | .add => addCompute r v1 v2
  | .subtract => subCompute r v1 v2
  | .multiply => mulCompute r v1 v2
  | .divide => divCompute t2 r v1 v2

/-- `OutOfRangePolicy::within_range(v1, v2, r)` (the structs `within_range` in `detail/add.h`, `detail/subtract.h`,
`detail/multiply.h` and `detail/divide.h`; lines with the definitions used). -/
def ArithOp.withinRange (op : ArithOp) (t1 t2 r : IntTy) (v1 v2 x : Int) : Option Bool :=
  match op with
  | .add => some (addRange t1 t2 r v1 v2 x)
  | .subtract => some (subRange t1 t2 r v1 v2 x)
  | .multiply => mulRange t1 t2 r v1 v2
  | .divide => some divRange

/-- The part of the loop bodies after the no-data tests
(`algorithm/core/binary_local_operation.h:49-67` and repeated in all variants): what is done to the
element of the result, `none` being undefined behaviour. The range is only tested if the policy says
so; the result it is tested for is the one that was just stored. -/
def pairActs (op : ArithOp) (k : Checks) (t1 t2 r : IntTy) (outp : OutPolicy Int) (v1 v2 : Int) :
    Option (List (Cell Int → Cell Int)) :=
  if k.domain && !op.withinDomain t2 v2 then some [outp.mark]
  else do
    let x ← op.compute t2 r v1 v2
    let within ← if k.range then op.withinRange t1 t2 r v1 v2 x else some true
    some [storeAct x, fun c => if within then c else outp.mark c]

section

variable (op : ArithOp) (k : Checks) (t1 t2 r : IntTy) (in1 in2 : InPolicy Int)
  (outp : OutPolicy Int)

/-- `operation_0d_0d` (`algorithm/core/binary_local_operation.h:31-69`). -/
def arith0d0d (v1 v2 : Int) (c : Cell Int) : Option (Cell Int) :=
  run0d (do
    if ← in1.isNoData0 v1 then some [outp.mark]
    else if ← in2.isNoData0 v2 then some [outp.mark]
    else pairActs op k t1 t2 r outp v1 v2) c

/-- Body of the loops of `operation_1d_0d` and `operation_2d_0d`
(`algorithm/core/binary_local_operation.h:81-132, 260-331`). -/
def arrayScalarActs (nd2 : Bool) (value1 : List Int) (v2 : Int) (i : Nat) :
    Option (List (Cell Int → Cell Int)) := do
  if nd2 then some [outp.mark]
  else if ← in1.isNoData value1 i then some [outp.mark]
  else pairActs op k t1 t2 r outp (← value1[i]?) v2

/-- Body of the loops of `operation_0d_2d` (`algorithm/core/binary_local_operation.h:343-414`). -/
def scalarArrayActs (nd1 : Bool) (v1 : Int) (value2 : List Int) (i : Nat) :
    Option (List (Cell Int → Cell Int)) := do
  if nd1 then some [outp.mark]
  else if ← in2.isNoData value2 i then some [outp.mark]
  else pairActs op k t1 t2 r outp v1 (← value2[i]?)

/-- The second value in the 1D versions: lines 172 and 225 declare it with the first value's type, and
the algorithm and the policies take it with its own type again. -/
def through (v2 : Int) : Int := t2.wrap (t1.wrap v2)

/-- Body of the loop of `operation_0d_1d` (`algorithm/core/binary_local_operation.h:144-196`). -/
def scalarArray1dActs (nd1 : Bool) (v1 : Int) (value2 : List Int) (i : Nat) :
    Option (List (Cell Int → Cell Int)) := do
  if nd1 then some [outp.mark]
  else if ← in2.isNoData value2 i then some [outp.mark]
  else pairActs op k t1 t2 r outp v1 (through t1 t2 (← value2[i]?))

/-- Body of the loop of `operation_1d_1d` (`algorithm/core/binary_local_operation.h:208-248`). -/
def arrayArray1dActs (value1 value2 : List Int) (i : Nat) :
    Option (List (Cell Int → Cell Int)) := do
  if ← in1.isNoData value1 i then some [outp.mark]
  else if ← in2.isNoData value2 i then some [outp.mark]
  else pairActs op k t1 t2 r outp (← value1[i]?) (through t1 t2 (← value2[i]?))

/-- Body of the loop of `operation_2d_2d` (`algorithm/core/binary_local_operation.h:426-476`). -/
def arrayArrayActs (value1 value2 : List Int) (i : Nat) :
    Option (List (Cell Int → Cell Int)) := do
  if ← in1.isNoData value1 i then some [outp.mark]
  else if ← in2.isNoData value2 i then some [outp.mark]
  else pairActs op k t1 t2 r outp (← value1[i]?) (← value2[i]?)

/-- 1D/0D (`algorithm/core/binary_local_operation.h:551-650`). -/
def arith1d0d (value1 : List Int) (v2 : Int) (size : Nat) : Option (ElemLoop (Cell Int)) := do
  assert' (value1.length == size)
  some (.d1 value1.length (arrayScalarActs op k t1 t2 r in1 outp (← in2.isNoData0 v2) value1 v2))

/-- 0D/1D (`algorithm/core/binary_local_operation.h:736-833`; the parallel version does not compare the
sizes, which is left out here: see `binary0d1dTasks`). -/
def arith0d1d (v1 : Int) (value2 : List Int) (size : Nat) : Option (ElemLoop (Cell Int)) := do
  assert' (value2.length == size)
  some (.d1 value2.length (scalarArray1dActs op k t1 t2 r in2 outp (← in1.isNoData0 v1) v1 value2))

/-- 1D/1D (`algorithm/core/binary_local_operation.h:919-1020`). -/
def arith1d1d (value1 value2 : List Int) (size : Nat) : Option (ElemLoop (Cell Int)) := do
  assert' (value1.length == value2.length)
  assert' (value2.length == size)
  some (.d1 value1.length (arrayArray1dActs op k t1 t2 r in1 in2 outp value1 value2))

/-- 2D/0D (`algorithm/core/binary_local_operation.h:1106-1211`). -/
def arith2d0d (vs1 : Nat × Nat) (value1 : List Int) (v2 : Int) (rs : Nat × Nat) :
    Option (ElemLoop (Cell Int)) := do
  assertSame vs1 rs
  some (.d2 vs1.1 vs1.2 rs.2 (arrayScalarActs op k t1 t2 r in1 outp (← in2.isNoData0 v2) value1 v2))

/-- 0D/2D (`algorithm/core/binary_local_operation.h:1297-1402`). -/
def arith0d2d (v1 : Int) (vs2 : Nat × Nat) (value2 : List Int) (rs : Nat × Nat) :
    Option (ElemLoop (Cell Int)) := do
  assertSame vs2 rs
  some (.d2 vs2.1 vs2.2 rs.2 (scalarArrayActs op k t1 t2 r in2 outp (← in1.isNoData0 v1) v1 value2))

/-- 2D/2D (`algorithm/core/binary_local_operation.h:1488-1597`). -/
def arith2d2d (vs1 : Nat × Nat) (value1 : List Int) (vs2 : Nat × Nat) (value2 : List Int)
    (rs : Nat × Nat) : Option (ElemLoop (Cell Int)) := do
  assertSame vs1 vs2
  assertSame vs1 rs
  some (.d2 vs1.1 vs1.2 rs.2 (arrayArrayActs op k t1 t2 r in1 in2 outp value1 value2))

end

end Fern.IntRaster
