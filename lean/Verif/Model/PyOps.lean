import Verif.Model.Arith
import Verif.Model.InPlace
import Verif.Model.Select

/-!
# Raster operations of the Python extension

Model of `python/feature/masked_raster.cc` (construction) and of `python/algorithm/algebra/elementary` and
`python/algorithm/core` (the operations), for rasters of integers; numbers are those that Python passes as `int64_t`.
The loops are those of `Verif.Model.LocalOps`, `Verif.Model.InPlace` and `Verif.Model.Select`, run sequentially: what
the other execution policies do follows from C04 and C73. Coordinates and cell sizes are only passed on.
-/

namespace Fern.PyOps

open Fern IntTy

/-- `python::MaskedRaster`, `python::detail::MaskedRaster<T>` (`python/feature/detail/masked_raster.h:20-80`). -/
structure Raster where
  type : IntTy
  rows : Nat
  cols : Nat
  origin : Rat × Rat
  cellSizes : Rat × Rat
  values : List Int
  deriving DecidableEq

/-- What a function does: `error` is an exception in Python. -/
inductive Out (α : Type)
  | ok (a : α)
  | error
  | assertion
  | undefined
  deriving DecidableEq

/-- The value types with a case in `SWITCH_ON_VALUE_TYPE`, `SWITCH_ON_VALUE_TYPE1` and `SWITCH_ON_VALUE_TYPE2`
(`python/core/switch_on_value_type.h`): the other cases assert. -/
def switched : IntTy → Bool
  | .u8 | .u32 | .i32 | .u64 | .i64 => true
  | .i8 | .u16 | .i16 => false

/-- The value reserved for no-data (`core/type_traits.h`, `set_no_data`). -/
def noData (t : IntTy) : Int := if t.signed then t.min else t.max

/-- `is_no_data` -/
def isNoData (t : IntTy) (v : Int) : Bool := v == noData t

/-- `DetectNoData<MaskedRaster<T>>` -/
def detect (t : IntTy) : InPolicy Int := .detect (isNoData t)

/-- `MarkNoData<MaskedRaster<T>>` -/
def mark (t : IntTy) : OutPolicy Int := .markValue (noData t)

/-! ### Construction -/

/-- `MaskedRaster::MaskedRaster(sizes, origin, cell_sizes, value_type)` (`python/feature/masked_raster.cc:51-81`). -/
def fromSizes (type : IntTy) (rows cols : Nat) (origin cellSizes : Rat × Rat) : Out Raster :=
  if !switched type then .assertion
  else .ok ⟨type, rows, cols, origin, cellSizes, List.replicate (rows * cols) 0⟩

/-- The inner loop of `copy` (`python/feature/masked_raster.cc:35-47`) from column `k` on, for `n` columns; `none`: an
exception because there is no such element, or because a value is not one of the type. -/
def copyRow (t : IntTy) (row : List Int) (mask : List Bool) (k : Nat) : Nat → Option (List Int)
  | 0 => some []
  | n + 1 => do
    let v ← if ← mask[k]? then some (noData t)
      else do
        let v ← row[k]?
        if t.min ≤ v ∧ v ≤ t.max then some v else none
    some (v :: (← copyRow t row mask (k + 1) n))

/-- The outer loop of `copy` (`python/feature/masked_raster.cc:28-48`) from row `k` on, for `n` rows. -/
def copyRows (t : IntTy) (values : List (List Int)) (mask : List (List Bool)) (cols : Nat) (k : Nat) :
    Nat → Option (List Int)
  | 0 => some []
  | n + 1 => do
    let row ← copyRow t (← values[k]?) (← mask[k]?) 0 cols
    some (row ++ (← copyRows t values mask cols (k + 1) n))

/-- `MaskedRaster::MaskedRaster(values, mask, origin, cell_sizes, value_type)`
(`python/feature/masked_raster.cc:86-121`): the number of columns is the length of the first row. -/
def fromLists (type : IntTy) (values : List (List Int)) (mask : List (List Bool)) (origin cellSizes : Rat × Rat) :
    Out Raster :=
  match values[0]? with
  | none => .error
  | some first =>
    if !switched type then .assertion
    else match copyRows type values mask first.length 0 values.length with
      | none => .error
      | some vs => .ok ⟨type, values.length, first.length, origin, cellSizes, vs⟩

/-! ### Addition and multiplication -/

/-- `add` or `multiply`. -/
inductive Arith
  | add
  | multiply

/-- What becomes of two values. -/
def Arith.elem : Arith → IntTy → IntTy → Int → Int → Option Outcome
  | .add => addElem
  | .multiply => mulElem

/-- `fa::algebra::add<fa::add::OutOfRangePolicy>`, `fa::algebra::multiply<fa::multiply::OutOfRangePolicy>`. -/
def Arith.op : Arith → IntTy → IntTy → IntTy → LocalOp (Int × Int) Int
  | .add => addOp
  | .multiply => mulOp

/-- The elements of a new result: `_data(new T[..])` (`python/feature/detail/masked_raster.h:96-99`) is not
initialised. -/
def uninitialised (garbage : Nat → Int) (rows cols : Nat) : List (Cell Int) :=
  (List.range (rows * cols)).map fun i => ⟨garbage i, false⟩

/-- The result of an operation, if the sizes are right; `undefinedAt`: cells for which the behaviour is undefined. -/
def finish (cells : Option (List (Cell Int))) (undefinedAt : Bool) (type : IntTy) (rows cols : Nat)
    (origin cellSizes : Rat × Rat) : Out Raster :=
  match cells with
  | none => .assertion
  | some cells => if undefinedAt then .undefined else .ok ⟨type, rows, cols, origin, cellSizes, cells.map Cell.val⟩

/-- `add(raster, raster)`, `multiply(raster, raster)` (`python/algorithm/algebra/elementary/add_raster_raster.cc:23-73,
106-138`, `multiply.cc:24-44, 102-116, 183-215`). The types always have a result type. -/
def rasterRaster (o : Arith) (garbage : Nat → Int) (l r : Raster) : Out Raster :=
  if !(switched l.type && switched r.type) then .assertion
  else match resultInt l.type r.type with
    | none => .assertion
    | some t =>
      finish
        (binary2d2d (o.op l.type r.type t) (detect l.type) (detect r.type) (mark t) (l.rows, l.cols) l.values
          (r.rows, r.cols) r.values (l.rows, l.cols) (uninitialised garbage l.rows l.cols))
        ((l.values.zip r.values).any fun p =>
          !isNoData l.type p.1 && !isNoData r.type p.2 && (o.elem l.type r.type p.1 p.2).isNone)
        t l.rows l.cols l.origin l.cellSizes

/-- `add(raster, number)`, `multiply(raster, number)` (`python/algorithm/algebra/elementary/add_raster_number.cc`,
`multiply.cc:47-65, 119-133, 256-286`): the number is converted to the type of the raster first. -/
def rasterNumber (o : Arith) (garbage : Nat → Int) (l : Raster) (n : Int) : Out Raster :=
  if !switched l.type then .assertion
  else match resultInt l.type l.type with
    | none => .assertion
    | some t =>
      finish
        (binary2d0d (o.op l.type l.type t) (detect l.type) .skip (mark t) (l.rows, l.cols) l.values (l.type.wrap n)
          (l.rows, l.cols) (uninitialised garbage l.rows l.cols))
        (l.values.any fun v => !isNoData l.type v && (o.elem l.type l.type v (l.type.wrap n)).isNone)
        t l.rows l.cols l.origin l.cellSizes

/-- `add(number, raster)`, `multiply(number, raster)` (`python/algorithm/algebra/elementary/add_number_raster.cc`,
`multiply.cc:68-86, 136-150, 221-251`). -/
def numberRaster (o : Arith) (garbage : Nat → Int) (n : Int) (r : Raster) : Out Raster :=
  if !switched r.type then .assertion
  else match resultInt r.type r.type with
    | none => .assertion
    | some t =>
      finish
        (binary0d2d (o.op r.type r.type t) .skip (detect r.type) (mark t) (r.type.wrap n) (r.rows, r.cols) r.values
          (r.rows, r.cols) (uninitialised garbage r.rows r.cols))
        (r.values.any fun v => !isNoData r.type v && (o.elem r.type r.type (r.type.wrap n) v).isNone)
        t r.rows r.cols r.origin r.cellSizes

/-- The right hand side of an assignment: the raster on the left hand side itself, or another one. -/
inductive Other
  | self
  | raster (r : Raster)

/-- In place: calculating the result, or asking the range policy afterwards, is undefined. -/
def Arith.undefinedInPlace (o : Arith) (t : IntTy) (own2 : Bool) (a b : Int) : Bool :=
  match o with
  | .add => (addCompute t a b).isNone
  | .multiply =>
    match mulCompute t a b with
    | none => true
    | some x => (mulRange t t t x (if own2 then x else b)).isNone

/-- `iadd`, `imultiply` (`python/algorithm/algebra/elementary/add_raster_raster.cc:46-56, 78-101`,
`multiply.cc:89-99, 155-178`): the result is the raster on the left hand side. The types of the rasters must be the
same. -/
def inPlace (o : Arith) (self : Raster) (other : Other) : Out Raster :=
  let t := self.type
  let (sameType, sameSizes) :=
    match other with
    | .self => (true, true)
    | .raster r => (r.type == t, r.rows == self.rows && r.cols == self.cols)
  let (operand, policy, values) : Operand Int × OperandPolicy Int × List Int :=
    match other with
    | .self => (.own, .ownValue (isNoData t), self.values)
    | .raster r => (.array r.values, .bound (detect t) r.values, r.values)
  if !sameType then .assertion
  else if !switched t then .assertion
  else if !sameSizes then .assertion
  else
    finish
      (ownSeq2d (ownBinaryActs (o.op t t t) (.ownValue (isNoData t)) policy (mark t) .own operand) self.rows self.cols
        self.cols (self.values.map fun v => ⟨v, false⟩))
      ((self.values.zip values).any fun p =>
        !isNoData t p.1 && !isNoData t p.2 && o.undefinedInPlace t operand.isOwn p.1 p.2)
      t self.rows self.cols self.origin self.cellSizes

/-! ### Comparison -/

/-- `less` or `greater`. -/
inductive Comparison
  | less
  | greater

/-- The comparison of two values. -/
def Comparison.elem : Comparison → IntTy → IntTy → Int → Int → Bool
  | .less => lessElem
  | .greater => greaterElem

/-- `fa::algebra::less`, `fa::algebra::greater` with a result of type `uint8_t`: no domain or range errors. -/
def Comparison.op (c : Comparison) (t1 t2 : IntTy) : LocalOp (Int × Int) Int where
  withinDomain _ := true
  compute a := if c.elem t1 t2 a.1 a.2 then 1 else 0
  withinRange _ _ := true

/-- `less(raster, raster)`, `greater(raster, raster)` (`python/algorithm/algebra/elementary/less.cc:24-44, 89-103,
140-172`, `greater.cc`). -/
def compareRasters (c : Comparison) (garbage : Nat → Int) (l r : Raster) : Out Raster :=
  if !(switched l.type && switched r.type) then .assertion
  else
    finish
      (binary2d2d (c.op l.type r.type) (detect l.type) (detect r.type) (mark .u8) (l.rows, l.cols) l.values
        (r.rows, r.cols) r.values (l.rows, l.cols) (uninitialised garbage l.rows l.cols))
      false .u8 l.rows l.cols l.origin l.cellSizes

/-- `less(raster, number)`, `greater(raster, number)` (`less.cc:47-65, 106-119, 213-243`): the number is not
converted. -/
def compareNumber (c : Comparison) (garbage : Nat → Int) (l : Raster) (n : Int) : Out Raster :=
  if !switched l.type then .assertion
  else
    finish
      (binary2d0d (c.op l.type .i64) (detect l.type) .skip (mark .u8) (l.rows, l.cols) l.values n
        (l.rows, l.cols) (uninitialised garbage l.rows l.cols))
      false .u8 l.rows l.cols l.origin l.cellSizes

/-- `less(number, raster)`, `greater(number, raster)` (`less.cc:68-86, 122-135, 178-208`). -/
def numberCompare (c : Comparison) (garbage : Nat → Int) (n : Int) (r : Raster) : Out Raster :=
  if !switched r.type then .assertion
  else
    finish
      (binary0d2d (c.op .i64 r.type) .skip (detect r.type) (mark .u8) n (r.rows, r.cols) r.values
        (r.rows, r.cols) (uninitialised garbage r.rows r.cols))
      false .u8 r.rows r.cols r.origin r.cellSizes

/-! ### Choice -/

/-- The answers of `DetectNoData` about a condition, as a mask: conditions are given by their truth values in
`Verif.Model.Select`. -/
def conditionPolicy (c : Raster) : InPolicy Bool :=
  .byMask (c.values.map fun v => if isNoData c.type v then 1 else 0) 1

/-- The truth values of a condition. -/
def truth (c : Raster) : List Bool := c.values.map fun v => v != 0

/-- `if_(raster, raster, raster)` (`python/algorithm/core/if_raster_raster.cc:24-112`): the result has the sizes and
coordinates of the condition. -/
def ifRasters (garbage : Nat → Int) (c t f : Raster) : Out Raster :=
  if t.type != f.type then .assertion
  else if !(switched c.type && switched t.type) then .assertion
  else
    finish
      (runSeq (ifThenElse2d2d2d (conditionPolicy c) (detect t.type) (detect f.type) (mark t.type) (c.rows, c.cols)
        (truth c) (t.rows, t.cols) t.values (f.rows, f.cols) f.values (c.rows, c.cols))
        (uninitialised garbage c.rows c.cols))
      false t.type c.rows c.cols c.origin c.cellSizes

/-- `if_(raster, raster, number)` (`python/algorithm/core/if_raster_number.cc:24-115`): the number is converted to the
type of the raster. -/
def ifRasterNumber (garbage : Nat → Int) (c t : Raster) (n : Int) : Out Raster :=
  if !(switched c.type && switched t.type) then .assertion
  else
    finish
      (runSeq (ifThenElse2d2d0d (conditionPolicy c) (detect t.type) .skip (mark t.type) (c.rows, c.cols)
        (truth c) (t.rows, t.cols) t.values (t.type.wrap n) (c.rows, c.cols))
        (uninitialised garbage c.rows c.cols))
      false t.type c.rows c.cols c.origin c.cellSizes

/-- `if_(raster, number, raster)` (`python/algorithm/core/if_number_raster.cc`). -/
def ifNumberRaster (garbage : Nat → Int) (c : Raster) (n : Int) (f : Raster) : Out Raster :=
  if !(switched c.type && switched f.type) then .assertion
  else
    finish
      (runSeq (ifThenElse2d0d2d (conditionPolicy c) .skip (detect f.type) (mark f.type) (c.rows, c.cols)
        (truth c) (f.type.wrap n) (f.rows, f.cols) f.values (c.rows, c.cols))
        (uninitialised garbage c.rows c.cols))
      false f.type c.rows c.cols c.origin c.cellSizes

end Fern.PyOps
