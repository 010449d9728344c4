import Verif.Model.PyOps
import Verif.Model.FloatRaster

/-!
# Raster operations of the Python extension, with floating point numbers

The parts of `python/feature/masked_raster.cc`, `python/algorithm/algebra/elementary` and `python/algorithm/core` that
`Verif.Model.PyOps` leaves out: rasters of floating point numbers, and numbers that Python passes as `double`. Integers
are values `.fin i` here. The loops are run sequentially: what the other execution policies do follows from C118, C04 and
C73.
-/

namespace Fern.PyFloat

open Fern Fern.Domains Fern.Casts Fern.FloatArith
open Fern.PyOps (Out Arith Comparison)

/-- `python::MaskedRaster`, `python::detail::MaskedRaster<T>` (`python/feature/detail/masked_raster.h:20-80`), of any
value type. -/
structure Raster where
  type : NumTy
  rows : Nat
  cols : Nat
  origin : Rat × Rat
  cellSizes : Rat × Rat
  values : List Flt
  deriving DecidableEq

/-- A number in Python: an integer, passed as `int64_t`, or a floating point number, passed as `double`. -/
inductive Number
  | int (n : Int)
  | real (v : Flt)
  deriving DecidableEq

/-- The type of the C++ argument. -/
def Number.type : Number → NumTy
  | .int _ => .int .i64
  | .real _ => .f64

/-- The value of the C++ argument. -/
def Number.value : Number → Flt
  | .int n => .fin n
  | .real v => v

/-- The value types with a case in `SWITCH_ON_VALUE_TYPE` and the like (`python/core/switch_on_value_type.h`). -/
def switched : NumTy → Bool
  | .int t => PyOps.switched t
  | .f32 | .f64 => true
  | .bool => false

/-- The value reserved for no-data (`core/type_traits.h:345-348, 388-391`): for floating point numbers, `min()` is
`std::numeric_limits<T>::min()`, the smallest positive normal number. There are no rasters of `bool`. -/
def noData : NumTy → Flt
  | .int t => .fin (PyOps.noData t)
  | .f32 => .fin (1 / 2 ^ 126)
  | .f64 => .fin (1 / 2 ^ 1022)
  | .bool => .fin 0

/-- `is_no_data` (`core/type_traits.h:448-454`). -/
def isNoData (t : NumTy) (v : Flt) : Bool := Flt.eq v (noData t)

/-- `DetectNoData<MaskedRaster<T>>` -/
def detect (t : NumTy) : InPolicy Flt := .detect (isNoData t)

/-- `MarkNoData<MaskedRaster<T>>` -/
def mark (t : NumTy) : OutPolicy Flt := .markValue (noData t)

/-! ### Construction -/

/-- `MaskedRaster::MaskedRaster(sizes, origin, cell_sizes, value_type)` (`python/feature/masked_raster.cc:51-81`). -/
def fromSizes (type : NumTy) (rows cols : Nat) (origin cellSizes : Rat × Rat) : Out Raster :=
  if !switched type then .assertion
  else .ok ⟨type, rows, cols, origin, cellSizes, List.replicate (rows * cols) (.fin 0)⟩

/-- `boost::python::extract<T>`: integers are extracted from integers that the type can represent, floating point numbers
from all numbers; these are converted to `double` first. `none`: an exception. -/
def extract (t : NumTy) (x : Number) : Option Flt :=
  match t, x with
  | .int t, .int n => if t.min ≤ n ∧ n ≤ t.max then some (.fin n) else none
  | .int _, .real _ => none
  | .bool, _ => none
  | t, .int n =>
    match toDouble n with
    | .fin q => castTo .f64 t (.fin q)
    | _ => none
  | t, .real v => castTo .f64 t v

/-- The inner loop of `copy` (`python/feature/masked_raster.cc:35-47`) from column `k` on, for `n` columns. -/
def copyRow (t : NumTy) (row : List Number) (mask : List Bool) (k : Nat) : Nat → Option (List Flt)
  | 0 => some []
  | n + 1 => do
    let v ← if ← mask[k]? then some (noData t) else (row[k]?).bind (extract t)
    some (v :: (← copyRow t row mask (k + 1) n))

/-- The outer loop of `copy` (`python/feature/masked_raster.cc:28-48`) from row `k` on, for `n` rows. -/
def copyRows (t : NumTy) (values : List (List Number)) (mask : List (List Bool)) (cols : Nat) (k : Nat) :
    Nat → Option (List Flt)
  | 0 => some []
  | n + 1 => do
    let row ← copyRow t (← values[k]?) (← mask[k]?) 0 cols
    some (row ++ (← copyRows t values mask cols (k + 1) n))

/-- `MaskedRaster::MaskedRaster(values, mask, origin, cell_sizes, value_type)`
(`python/feature/masked_raster.cc:86-121`). -/
def fromLists (type : NumTy) (values : List (List Number)) (mask : List (List Bool)) (origin cellSizes : Rat × Rat) :
    Out Raster :=
  match values[0]? with
  | none => .error
  | some first =>
    if !switched type then .assertion
    else match copyRows type values mask first.length 0 values.length with
      | none => .error
      | some vs => .ok ⟨type, values.length, first.length, origin, cellSizes, vs⟩

/-! ### Addition and multiplication -/

/-- The operation on pairs of values. -/
def arithOp : Arith → IntRaster.ArithOp
  | .add => .add
  | .multiply => .multiply

/-- `add::OutOfRangePolicy` and `multiply::OutOfRangePolicy`; there is no domain policy. -/
def checks : IntRaster.Checks := ⟨false, true⟩

/-- The elements of a new result: `_data(new T[..])` (`python/feature/detail/masked_raster.h:96-99`) is not
initialised. -/
def uninitialised (garbage : Nat → Flt) (rows cols : Nat) : List (Cell Flt) :=
  (List.range (rows * cols)).map fun i => ⟨garbage i, false⟩

/-- The result of an operation, if no assertion fails. -/
def finish (cells : Option (List (Cell Flt))) (type : NumTy) (rows cols : Nat) (origin cellSizes : Rat × Rat) :
    Out Raster :=
  match cells with
  | none => .assertion
  | some cells => .ok ⟨type, rows, cols, origin, cellSizes, cells.map Cell.val⟩

/-- An integer. -/
def toInt : Flt → Int
  | .fin q => q.floor
  | _ => 0

/-- A raster of integers, as in `Verif.Model.PyOps`. -/
def ints (t : IntTy) (r : Raster) : PyOps.Raster :=
  ⟨t, r.rows, r.cols, r.origin, r.cellSizes, r.values.map toInt⟩

/-- The other way around. -/
def embed (r : PyOps.Raster) : Raster :=
  ⟨.int r.type, r.rows, r.cols, r.origin, r.cellSizes, r.values.map fun i : Int => .fin i⟩

/-- The result of an operation on rasters of integers. -/
def embedOut : Out PyOps.Raster → Out Raster
  | .ok r => .ok (embed r)
  | .error => .error
  | .assertion => .assertion
  | .undefined => .undefined

/-- `add(raster, raster)`, `multiply(raster, raster)` (`python/algorithm/algebra/elementary/add_raster_raster.cc:23-73,
106-138`, `multiply.cc:24-44, 102-116, 183-215`). -/
def rasterRaster (o : Arith) (garbage : Nat → Flt) (l r : Raster) : Out Raster :=
  if !(switched l.type && switched r.type) then .assertion
  else match l.type, r.type with
    | .int t1, .int t2 => embedOut (PyOps.rasterRaster o (fun i => toInt (garbage i)) (ints t1 l) (ints t2 r))
    | t1, t2 =>
      match resultType t1 t2 with
      | none => .assertion
      | some t =>
        finish
          (runSeq (FloatRaster.arith2d2d (arithOp o) checks t1 t2 t (detect t1) (detect t2) (mark t.num)
            (l.rows, l.cols) l.values (r.rows, r.cols) r.values (l.rows, l.cols))
            (uninitialised garbage l.rows l.cols))
          t.num l.rows l.cols l.origin l.cellSizes

/-- `add(raster, number)`, `multiply(raster, number)` (`python/algorithm/algebra/elementary/add_raster_number.cc`,
`multiply.cc:47-65, 119-133, 256-286`): `static_cast` of the number to the type of the raster comes first. -/
def rasterNumber (o : Arith) (garbage : Nat → Flt) (l : Raster) (x : Number) : Out Raster :=
  if !switched l.type then .assertion
  else match castTo x.type l.type x.value with
    | none => .undefined
    | some v =>
      match l.type with
      | .int t => embedOut (PyOps.rasterNumber o (fun i => toInt (garbage i)) (ints t l) (toInt v))
      | t1 =>
        match resultType t1 t1 with
        | none => .assertion
        | some t =>
          finish
            (runSeq (FloatRaster.arith2d0d (arithOp o) checks t1 t1 t (detect t1) .skip (mark t.num)
              (l.rows, l.cols) l.values v (l.rows, l.cols))
              (uninitialised garbage l.rows l.cols))
            t.num l.rows l.cols l.origin l.cellSizes

/-- `add(number, raster)`, `multiply(number, raster)` (`python/algorithm/algebra/elementary/add_number_raster.cc`,
`multiply.cc:68-86, 136-150, 221-251`). -/
def numberRaster (o : Arith) (garbage : Nat → Flt) (x : Number) (r : Raster) : Out Raster :=
  if !switched r.type then .assertion
  else match castTo x.type r.type x.value with
    | none => .undefined
    | some v =>
      match r.type with
      | .int t => embedOut (PyOps.numberRaster o (fun i => toInt (garbage i)) (toInt v) (ints t r))
      | t2 =>
        match resultType t2 t2 with
        | none => .assertion
        | some t =>
          finish
            (runSeq (FloatRaster.arith0d2d (arithOp o) checks t2 t2 t .skip (detect t2) (mark t.num)
              v (r.rows, r.cols) r.values (r.rows, r.cols))
              (uninitialised garbage r.rows r.cols))
            t.num r.rows r.cols r.origin r.cellSizes

/-- The right hand side of an assignment: the raster on the left hand side itself, or another one. -/
inductive Other
  | self
  | raster (r : Raster)

/-- `fa::algebra::add<fa::add::OutOfRangePolicy>`, `fa::algebra::multiply<fa::multiply::OutOfRangePolicy>` for two
values of the same floating point type. -/
def fltOp (o : Arith) (t : FltTy) : LocalOp (Flt × Flt) Flt where
  withinDomain _ := true
  compute a :=
    match o with
    | .add => plus t a.1 a.2
    | .multiply => times t a.1 a.2
  withinRange _ x :=
    match o with
    | .add => addFltRange t.num t.num x
    | .multiply => x.isFinite

/-- The right hand side, for integers. -/
def intsOther (t : IntTy) : Other → PyOps.Other
  | .self => .self
  | .raster r => .raster (ints t r)

/-- `iadd`, `imultiply` (`python/algorithm/algebra/elementary/add_raster_raster.cc:46-56, 78-101`,
`multiply.cc:89-99, 155-178`): the result is the raster on the left hand side. The types of the rasters must be the
same. -/
def inPlace (o : Arith) (self : Raster) (other : Other) : Out Raster :=
  let t := self.type
  let (sameType, sameSizes) :=
    match other with
    | .self => (true, true)
    | .raster r => (r.type == t, r.rows == self.rows && r.cols == self.cols)
  let (operand, policy) : Operand Flt × OperandPolicy Flt :=
    match other with
    | .self => (.own, .ownValue (isNoData t))
    | .raster r => (.array r.values, .bound (detect t) r.values)
  if !sameType then .assertion
  else if !switched t then .assertion
  else match t with
    | .int i => embedOut (PyOps.inPlace o (ints i self) (intsOther i other))
    | _ =>
      match resultType t t with
      | none => .assertion
      | some f =>
        if !sameSizes then .assertion
        else
          finish
            (ownSeq2d (ownBinaryActs (fltOp o f) (.ownValue (isNoData t)) policy (mark t) .own operand) self.rows
              self.cols self.cols (self.values.map fun v => ⟨v, false⟩))
            t self.rows self.cols self.origin self.cellSizes

/-! ### Comparison -/

/-- `a < b` of two values of floating point types. -/
def Comparison.flt : Comparison → Flt → Flt → Bool
  | .less, a, b => Flt.lt a b
  | .greater, a, b => Flt.lt b a

/-- `value1 < value2`, `value1 > value2` (`algorithm/algebra/elementary/detail/less.h`, `greater.h`): if one of the
values is a floating point number, both are converted to the larger of the floating point types. -/
def Comparison.elem (c : Comparison) (t1 t2 : NumTy) (a b : Flt) : Bool :=
  match t1, t2 with
  | .int i1, .int i2 => PyOps.Comparison.elem c i1 i2 (toInt a) (toInt b)
  | t1, t2 =>
    match resultType t1 t2 with
    | none => false
    | some t =>
      match castTo t1 t.num a, castTo t2 t.num b with
      | some a, some b => Comparison.flt c a b
      | _, _ => false

/-- `fa::algebra::less`, `fa::algebra::greater` with a result of type `uint8_t`: no domain or range errors. -/
def Comparison.op (c : Comparison) (t1 t2 : NumTy) : LocalOp (Flt × Flt) Flt where
  withinDomain _ := true
  compute a := if Comparison.elem c t1 t2 a.1 a.2 then .fin 1 else .fin 0
  withinRange _ _ := true

/-- `less(raster, raster)`, `greater(raster, raster)` (`python/algorithm/algebra/elementary/less.cc:24-44, 89-103,
140-172`, `greater.cc`). -/
def compareRasters (c : Comparison) (garbage : Nat → Flt) (l r : Raster) : Out Raster :=
  if !(switched l.type && switched r.type) then .assertion
  else
    finish
      (binary2d2d (Comparison.op c l.type r.type) (detect l.type) (detect r.type) (mark (.int .u8)) (l.rows, l.cols)
        l.values (r.rows, r.cols) r.values (l.rows, l.cols) (uninitialised garbage l.rows l.cols))
      (.int .u8) l.rows l.cols l.origin l.cellSizes

/-- `less(raster, number)`, `greater(raster, number)` (`less.cc:47-65, 106-119, 213-243`): the number is not
converted. -/
def compareNumber (c : Comparison) (garbage : Nat → Flt) (l : Raster) (x : Number) : Out Raster :=
  if !switched l.type then .assertion
  else
    finish
      (binary2d0d (Comparison.op c l.type x.type) (detect l.type) .skip (mark (.int .u8)) (l.rows, l.cols) l.values
        x.value (l.rows, l.cols) (uninitialised garbage l.rows l.cols))
      (.int .u8) l.rows l.cols l.origin l.cellSizes

/-- `less(number, raster)`, `greater(number, raster)` (`less.cc:68-86, 122-135, 178-208`). -/
def numberCompare (c : Comparison) (garbage : Nat → Flt) (x : Number) (r : Raster) : Out Raster :=
  if !switched r.type then .assertion
  else
    finish
      (binary0d2d (Comparison.op c x.type r.type) .skip (detect r.type) (mark (.int .u8)) x.value (r.rows, r.cols)
        r.values (r.rows, r.cols) (uninitialised garbage r.rows r.cols))
      (.int .u8) r.rows r.cols r.origin r.cellSizes

/-! ### Choice -/

/-- The answers of `DetectNoData` about a condition, as a mask: conditions are given by their truth values in
`Verif.Model.Select`. -/
def conditionPolicy (c : Raster) : InPolicy Bool :=
  .byMask (c.values.map fun v => if isNoData c.type v then 1 else 0) 1

/-- The truth values of a condition: every value but zero is true. -/
def truth (c : Raster) : List Bool := c.values.map fun v => !Flt.eq v (.fin 0)

/-- `if_(raster, raster, raster)` (`python/algorithm/core/if_raster_raster.cc:24-112`). -/
def ifRasters (garbage : Nat → Flt) (c t f : Raster) : Out Raster :=
  if t.type != f.type then .assertion
  else if !(switched c.type && switched t.type) then .assertion
  else
    finish
      (runSeq (ifThenElse2d2d2d (conditionPolicy c) (detect t.type) (detect f.type) (mark t.type) (c.rows, c.cols)
        (truth c) (t.rows, t.cols) t.values (f.rows, f.cols) f.values (c.rows, c.cols))
        (uninitialised garbage c.rows c.cols))
      t.type c.rows c.cols c.origin c.cellSizes

/-- The C++ argument for a number passed to `if_`: the overloads for `double` are registered after those for `int64_t`
(`python/algorithm/core/python_extension.cc:50-54`) and Boost.Python tries them first; they accept integers. `none`: the
integer is too large for `double`, an exception. -/
def ifArgument : Number → Option Number
  | .real v => some (.real v)
  | .int n =>
    match toDouble n with
    | .fin q => some (.real (.fin q))
    | _ => none

/-- `if_(raster, raster, number)` (`python/algorithm/core/if_raster_number.cc:24-115`): the number is converted to the
type of the raster. -/
def ifRasterNumber (garbage : Nat → Flt) (c t : Raster) (x : Number) : Out Raster :=
  match ifArgument x with
  | none => .error
  | some x =>
    if !(switched c.type && switched t.type) then .assertion
    else match castTo x.type t.type x.value with
      | none => .undefined
      | some v =>
        finish
          (runSeq (ifThenElse2d2d0d (conditionPolicy c) (detect t.type) .skip (mark t.type) (c.rows, c.cols)
            (truth c) (t.rows, t.cols) t.values v (c.rows, c.cols))
            (uninitialised garbage c.rows c.cols))
          t.type c.rows c.cols c.origin c.cellSizes

/-- `if_(raster, number, raster)` (`python/algorithm/core/if_number_raster.cc`). -/
def ifNumberRaster (garbage : Nat → Flt) (c : Raster) (x : Number) (f : Raster) : Out Raster :=
  match ifArgument x with
  | none => .error
  | some x =>
    if !(switched c.type && switched f.type) then .assertion
    else match castTo x.type f.type x.value with
      | none => .undefined
      | some v =>
        finish
          (runSeq (ifThenElse2d0d2d (conditionPolicy c) .skip (detect f.type) (mark f.type) (c.rows, c.cols)
            (truth c) v (f.rows, f.cols) f.values (c.rows, c.cols))
            (uninitialised garbage c.rows c.cols))
          f.type c.rows c.cols c.origin c.cellSizes

end Fern.PyFloat
