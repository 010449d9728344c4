import Verif.Model.FloatArith
import Verif.Model.IntRaster
import Verif.Model.PairLoop
/-
Elementary arithmetic of whole arrays of which at least one has floating point numbers: `algebra::add`,
`subtract`, `multiply` and `divide` (`algorithm/algebra/elementary/{add,subtract,multiply,divide}.h`),
carried out by `algorithm/core/binary_local_operation.h`.

`Model/FloatArith.lean` has the arithmetic of one pair of values. Integers are values `.fin i` here.
-/
namespace Fern.FloatRaster

open Fern.Domains Fern.Casts Fern.FloatArith
open Fern.IntRaster (ArithOp Checks)

/-- `OutOfDomainPolicy::within_domain(v1, v2)`. Only `divide` has a domain (`divide.h:71-76`). -/
def withinDomain (op : ArithOp) (v2 : Flt) : Bool :=
  match op with
  | .divide => divFltDomain v2
  | _ => true

/-- `algorithm(v1, v2, r)` (`detail/add.h:242-258`, `detail/subtract.h:256-276`,
`detail/multiply.h:276-294`, `detail/divide.h:236-257`): the value stored. `none`: an assertion fails. -/
def compute (op : ArithOp) (t1 t2 : NumTy) (r : FltTy) (v1 v2 : Flt) : Option Flt := do
  let a ← castTo t1 r.num v1
  let b ← castTo t2 r.num v2
  match op with
  | .add => some (plus r a b)
  | .subtract => some (minus r a b)
  | .multiply => some (times r a b)
  | .divide => do
    assert' (divFltDomain v2)
    over r a b

/-- `OutOfRangePolicy::within_range(v1, v2, r)` (`detail/add.h:161-234`, `detail/subtract.h:167-252`,
`detail/multiply.h:198-272`, `detail/divide.h:160-232`). `none`: an assertion fails. -/
def withinRange (op : ArithOp) (t1 t2 : NumTy) (x : Flt) : Option Bool :=
  match op with
  | .add => some (addFltRange t1 t2 x)
  | .subtract => subFltRange t1 t2 x
  | .multiply => some x.isFinite
  | .divide => some x.isFinite

/-- The part of the loop bodies after the no-data tests
(`algorithm/core/binary_local_operation.h:49-67` and repeated in all variants). -/
def pairActs (op : ArithOp) (k : Checks) (t1 t2 : NumTy) (r : FltTy) (outp : OutPolicy Flt) (v1 v2 : Flt) :
    Option (List (Cell Flt → Cell Flt)) :=
  if k.domain && !withinDomain op v2 then some [outp.mark]
  else do
    let x ← compute op t1 t2 r v1 v2
    let within ← if k.range then withinRange op t1 t2 x else some true
    some [storeAct x, fun c => if within then c else outp.mark c]

/-- The second value in the 1D versions: lines 172 and 225 of `binary_local_operation.h` declare it with
the first value's type, and the algorithm and the policies take it with its own type again. `none`: a
conversion is undefined behaviour. -/
def through (t1 t2 : NumTy) (v2 : Flt) : Option Flt := (castTo t2 t1 v2).bind (castTo t1 t2)

/-- The same as `pairActs` in `operation_0d_1d` and `operation_1d_1d`
(`algorithm/core/binary_local_operation.h:172-193, 225-245`). -/
def pairActs1d (op : ArithOp) (k : Checks) (t1 t2 : NumTy) (r : FltTy) (outp : OutPolicy Flt)
    (v1 v2 : Flt) : Option (List (Cell Flt → Cell Flt)) :=
  (through t1 t2 v2).bind (pairActs op k t1 t2 r outp v1)

section

variable (op : ArithOp) (k : Checks) (t1 t2 : NumTy) (r : FltTy) (in1 in2 : InPolicy Flt)
  (outp : OutPolicy Flt)

/-- Two scalars (`operation_0d_0d`, `algorithm/core/binary_local_operation.h:31`). -/
def arith0d0d (v1 v2 : Flt) (c : Cell Flt) : Option (Cell Flt) :=
  PairLoop.pair0d0d (pairActs op k t1 t2 r outp) in1 in2 outp v1 v2 c

/-- 1D/0D (`operation_1d_0d`, `algorithm/core/binary_local_operation.h:81`) -/
def arith1d0d (value1 : List Flt) (v2 : Flt) (size : Nat) : Option (ElemLoop (Cell Flt)) :=
  PairLoop.pair1d0d (pairActs op k t1 t2 r outp) in1 in2 outp value1 v2 size

/-- 0D/1D (`operation_0d_1d`, `algorithm/core/binary_local_operation.h:144`) -/
def arith0d1d (v1 : Flt) (value2 : List Flt) (size : Nat) : Option (ElemLoop (Cell Flt)) :=
  PairLoop.pair0d1d (pairActs1d op k t1 t2 r outp) in1 in2 outp v1 value2 size

/-- 1D/1D (`operation_1d_1d`, `algorithm/core/binary_local_operation.h:208`) -/
def arith1d1d (value1 value2 : List Flt) (size : Nat) : Option (ElemLoop (Cell Flt)) :=
  PairLoop.pair1d1d (pairActs1d op k t1 t2 r outp) in1 in2 outp value1 value2 size

/-- 2D/0D (`operation_2d_0d`, `algorithm/core/binary_local_operation.h:260`) -/
def arith2d0d (vs1 : Nat × Nat) (value1 : List Flt) (v2 : Flt) (rs : Nat × Nat) :
    Option (ElemLoop (Cell Flt)) :=
  PairLoop.pair2d0d (pairActs op k t1 t2 r outp) in1 in2 outp vs1 value1 v2 rs

/-- 0D/2D (`operation_0d_2d`, `algorithm/core/binary_local_operation.h:343`) -/
def arith0d2d (v1 : Flt) (vs2 : Nat × Nat) (value2 : List Flt) (rs : Nat × Nat) :
    Option (ElemLoop (Cell Flt)) :=
  PairLoop.pair0d2d (pairActs op k t1 t2 r outp) in1 in2 outp v1 vs2 value2 rs

/-- 2D/2D (`operation_2d_2d`, `algorithm/core/binary_local_operation.h:426`) -/
def arith2d2d (vs1 : Nat × Nat) (value1 : List Flt) (vs2 : Nat × Nat) (value2 : List Flt)
    (rs : Nat × Nat) : Option (ElemLoop (Cell Flt)) :=
  PairLoop.pair2d2d (pairActs op k t1 t2 r outp) in1 in2 outp vs1 value1 vs2 value2 rs

end

end Fern.FloatRaster
