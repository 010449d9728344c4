import Verif.Model.PyOps

/-!
# Python programs with rasters

Model of what Python code can do with rasters of integers: the operators that `python/algorithm/__init__.py.in` defines,
the functions that operate in place, and `raster_as_numpy_array`. What the operations calculate is in
`Verif.Model.PyOps`. Here it is about which raster is calculated, and about the names that refer to it.

Trusted is what is documented of Python and of Boost.Python:

* `a + b` calls `__add__` of `a`, and `__radd__` of `b` if `a` is a number; `n < b` calls `__gt__` of `b`, and so on;
* `a += b` calls `__iadd__` of `a` if there is such a method, and binds name `a` to the result; otherwise it is
  `a = a + b`. The method for `*=` is called `__imul__`;
* an object that no name refers to is deleted;
* `reference_existing_object`: the resulting object refers to the C++ object that the function returned, and does not
  keep this from being deleted.

Simplified: numbers are integers; the uninitialised memory of results has the same contents for all of them; a program
ends at the first exception.
-/

namespace Fern.PySession

open Fern PyOps

/-- Going on if there is a result. -/
def _root_.Fern.PyOps.Out.andThen {α β : Type} : Out α → (α → Out β) → Out β
  | .ok a, f => f a
  | .error, _ => .error
  | .assertion, _ => .assertion
  | .undefined, _ => .undefined

/-- Python objects. `reference`: an object that refers to the handle (`MaskedRasterHandle`) within another object. -/
inductive Object
  | number (n : Int)
  | raster (r : Raster)
  | reference (owner : Nat)
  deriving DecidableEq

/-- Numpy arrays: the type of the elements, the shape and the elements in row-major order. -/
structure NumpyArray where
  type : IntTy
  shape : Nat × Nat
  elements : List Int
  deriving DecidableEq

/-- All objects that were made so far (those that are deleted are still in the list), the object that each name refers
to, and the arrays that were made. -/
structure State where
  objects : List Object
  names : List (String × Nat)
  arrays : List NumpyArray
  deriving DecidableEq

/-- No names. -/
def State.empty : State := ⟨[], [], []⟩

/-- The object that a name refers to. -/
def State.find (s : State) (x : String) : Option Nat := (s.names.find? fun p => p.1 == x).map Prod.snd

/-- `del x` -/
def State.unbind (s : State) (x : String) : State := { s with names := s.names.filter fun p => p.1 != x }

/-- Let a name refer to an object. -/
def State.bind (s : State) (x : String) (o : Nat) : State := { s with names := (x, o) :: (s.unbind x).names }

/-- Let a name refer to a new object. -/
def State.new (s : State) (x : String) (v : Object) : State :=
  { s with objects := s.objects ++ [v] }.bind x s.objects.length

/-- There is a name for an object. -/
def State.alive (s : State) (o : Nat) : Bool := s.names.any fun p => s.find p.1 == some o

/-- Numbers and rasters. -/
inductive Value
  | number (n : Int)
  | raster (r : Raster)
  deriving DecidableEq

/-- An object that holds a value. -/
def Value.object : Value → Object
  | .number n => .number n
  | .raster r => .raster r

/-- What a name refers to: the object that holds the value, and the value. Using a reference to the handle within an
object that is deleted is undefined. -/
def State.get (s : State) (x : String) : Out (Nat × Value) :=
  match s.find x with
  | none => .error
  | some o =>
    match s.objects[o]? with
    | none => .undefined
    | some (.number n) => .ok (o, .number n)
    | some (.raster r) => .ok (o, .raster r)
    | some (.reference owner) =>
      if s.alive owner then
        match s.objects[owner]? with
        | some (.raster r) => .ok (owner, .raster r)
        | _ => .undefined
      else .undefined

/-- The operators: `+`, `*`, `<` and `>`. -/
inductive Operator
  | add
  | multiply
  | less
  | greater
  deriving DecidableEq

/-- Functions `add`, `multiply`, `less` and `greater` of `fern.algorithm`
(`python/algorithm/algebra/elementary/__init__.py.in:17-113`), for two rasters
(`python/algorithm/algebra/elementary/python_extension.cc:116-140`). -/
def callRasters (garbage : Nat → Int) : Operator → Raster → Raster → Out Raster
  | .add => rasterRaster .add garbage
  | .multiply => rasterRaster .multiply garbage
  | .less => compareRasters .less garbage
  | .greater => compareRasters .greater garbage

/-- These functions for a raster and a number. A number that is not an `int64_t` is an exception. -/
def callNumber (garbage : Nat → Int) (f : Operator) (l : Raster) (n : Int) : Out Raster :=
  if IntTy.i64.min ≤ n ∧ n ≤ IntTy.i64.max then
    match f with
    | .add => rasterNumber .add garbage l n
    | .multiply => rasterNumber .multiply garbage l n
    | .less => compareNumber .less garbage l n
    | .greater => compareNumber .greater garbage l n
  else .error

/-- Methods `__add__`, `__mul__`, `__lt__` and `__gt__` of rasters (`python/algorithm/__init__.py.in:18, 22, 26, 27`). -/
def method (garbage : Nat → Int) (f : Operator) (self : Raster) : Value → Out Raster
  | .raster r => callRasters garbage f self r
  | .number n => callNumber garbage f self n

/-- The method of the right hand side that is called if the left hand side is a number:
`__radd__ = add`, `__rmul__ = multiply` (`python/algorithm/__init__.py.in:19, 23`), `__gt__` for `<` and `__lt__` for
`>`. -/
def Operator.reflected : Operator → Operator
  | .add => .add
  | .multiply => .multiply
  | .less => .greater
  | .greater => .less

/-- Python's own operators for numbers; truth values are numbers. -/
def Operator.numbers : Operator → Int → Int → Int
  | .add, a, b => a + b
  | .multiply, a, b => a * b
  | .less, a, b => if a < b then 1 else 0
  | .greater, a, b => if b < a then 1 else 0

/-- `a + b`, `a * b`, `a < b`, `a > b` -/
def operate (garbage : Nat → Int) (f : Operator) : Value → Value → Out Value
  | .raster l, b => (method garbage f l b).andThen fun q => .ok (.raster q)
  | .number n, .raster r => (method garbage f.reflected r (.number n)).andThen fun q => .ok (.raster q)
  | .number n, .number m => .ok (.number (f.numbers n m))

/-- Expressions; `raster`: `MaskedRaster(values, mask, origin, cell_sizes, value_type)`. -/
inductive Expr
  | name (x : String)
  | number (n : Int)
  | raster (type : IntTy) (values : List (List Int)) (mask : List (List Bool)) (origin cellSizes : Rat × Rat)
  | operate (f : Operator) (a b : Expr)

/-- The value of an expression. -/
def eval (garbage : Nat → Int) (s : State) : Expr → Out Value
  | .name x => (s.get x).andThen fun p => .ok p.2
  | .number n => .ok (.number n)
  | .raster type values mask origin cellSizes =>
    (fromLists type values mask origin cellSizes).andThen fun r => .ok (.raster r)
  | .operate f a b => (eval garbage s a).andThen fun v => (eval garbage s b).andThen fun w => operate garbage f v w

/-- The object that an expression refers to, if it is a name. -/
def holder (s : State) : Expr → Option Nat
  | .name x =>
    match s.get x with
    | .ok p => some p.1
    | _ => none
  | _ => none

/-- Functions `iadd` and `imultiply` (`python/algorithm/algebra/elementary/__init__.py.in:36-53, 115-132`,
`python_extension.cc:114-115, 122-123`): the argument at the left hand side, a raster held by object `o`, is changed; the
other one must be a raster. -/
def callInPlace (garbage : Nat → Int) (f : Arith) (s : State) (o : Nat) (r : Raster) (e : Expr) : Out State :=
  (eval garbage s e).andThen fun v =>
    match v with
    | .number _ => .error
    | .raster r' =>
      (inPlace f r (if holder s e = some o then .self else .raster r')).andThen fun q =>
        .ok { s with objects := s.objects.set o (.raster q) }

/-- `raster_as_numpy_array` (`python/feature/numpy.cc:29-78`): a copy. Not modelled is what Boost.Python does if a
`MaskedRaster` is wanted and the object is a reference to a handle. -/
def asArray (r : Raster) : Out NumpyArray :=
  if switched r.type then .ok ⟨r.type, (r.rows, r.cols), r.values⟩ else .assertion

/-- Statements: `x = e`, `x += e`, `x *= e`, `iadd(x, e)` or `imultiply(x, e)`, `raster_as_numpy_array(x)` and
`del x`. -/
inductive Statement
  | assign (x : String) (e : Expr)
  | plus (x : String) (e : Expr)
  | times (x : String) (e : Expr)
  | call (f : Arith) (x : String) (e : Expr)
  | look (x : String)
  | delete (x : String)

/-- `x = e`: a name at the right hand side makes both names refer to the same object. -/
def assign (garbage : Nat → Int) (s : State) (x : String) : Expr → Out State
  | .name y =>
    match s.find y with
    | none => .error
    | some o => .ok (s.bind x o)
  | e => (eval garbage s e).andThen fun v => .ok (s.new x v.object)

/-- A statement. There is a method `__iadd__` (`python/algorithm/__init__.py.in:20`), but none that is called `__imul__`:
`__imult__` (`python/algorithm/__init__.py.in:24`) is not a name that Python knows of. -/
def exec (garbage : Nat → Int) (s : State) : Statement → Out State
  | .assign x e => assign garbage s x e
  | .plus x e =>
    (s.get x).andThen fun p =>
      match p.2 with
      | .number _ => assign garbage s x (.operate .add (.name x) e)
      | .raster r => (callInPlace garbage .add s p.1 r e).andThen fun s' => .ok (s'.new x (.reference p.1))
  | .times x e => assign garbage s x (.operate .multiply (.name x) e)
  | .call f x e =>
    (s.get x).andThen fun p =>
      match p.2 with
      | .number _ => .error
      | .raster r => callInPlace garbage f s p.1 r e
  | .look x =>
    match s.find x with
    | none => .error
    | some o =>
      match s.objects[o]? with
      | some (.raster r) => (asArray r).andThen fun a => .ok { s with arrays := s.arrays ++ [a] }
      | some (.number _) => .error
      | _ => .undefined
  | .delete x => if (s.find x).isSome then .ok (s.unbind x) else .error

/-- A program. -/
def run (garbage : Nat → Int) (s : State) : List Statement → Out State
  | [] => .ok s
  | c :: rest => (exec garbage s c).andThen fun s' => run garbage s' rest

end Fern.PySession
