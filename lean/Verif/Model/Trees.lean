import Verif.Model.FloatArith
import Verif.Model.Print

/-!
# Trees of expressions

`expression_tree/*.h`: trees of operations on constants and rasters that are evaluated later, and written to a stream.
The classes `Array` and `Operation` with other results than the six of `Expression` are not used by trees, and are not
modelled; neither are the categories (`category.h`, `operation.h`), which nothing looks at.
-/

namespace Fern.Trees

open Fern Fern.Domains Fern.FloatArith

/-- The types of the values of data (`expression_tree/data.h:19-29`). -/
inductive Num | i32 | i64 | f64
  deriving DecidableEq

/-- The integer type. -/
def Num.int : Num → Option IntTy
  | .i32 => some .i32
  | .i64 => some .i64
  | .f64 => none

/-- A value: of an integer type, or of `double`. -/
inductive Val
  | int (i : Int)
  | flt (x : Flt)
  deriving DecidableEq

/-- `T()` -/
def Num.zero : Num → Val
  | .i32 | .i64 => .int 0
  | .f64 => .flt (.fin 0)

/-- A raster with a mask (`expression_tree/raster.h:21-84`): the numbers of rows and columns, and the cells row by row. -/
structure Rast where
  rows : Nat
  cols : Nat
  cells : List (Val × Bool)
  deriving DecidableEq

/-- `Data` (`expression_tree/data.h:19-29`). -/
inductive Data
  | const (t : Num) (v : Val)
  | raster (t : Num) (r : Rast)
  deriving DecidableEq

/-- The types of data. -/
inductive Ty
  | const (t : Num)
  | raster (t : Num)
  deriving DecidableEq

/-- The algorithms: `Plus<Constant<U>, Constant<V>>` (`plus.h:40-62`), `Plus<Raster<U>, Raster<V>>` and
`Plus<Operation<Raster<U>>, Raster<V>>`, which do the same (`plus.h:99-205`), `Times` (`times.h:26-44`), `Sqrt`
(`sqrt.h:25-40`) and `Slope` (`slope.h:25-40`) of constants. -/
inductive Alg
  | plus (u v : Num)
  | plusRaster (u v : Num)
  | times (u v : Num)
  | sqrt (u : Num)
  | slope (u : Num)
  deriving DecidableEq

/-- The type of a sum or product of values (`decltype(U() + V())`, `plus.h:33`, `times.h:33`). -/
def join : Num → Num → Num
  | .f64, _ | _, .f64 => .f64
  | .i64, _ | _, .i64 => .i64
  | .i32, .i32 => .i32

/-- A value converted to `double`. -/
def widen : Val → Flt
  | .int i => Casts.toDouble i
  | .flt x => x

/-- An operation on two values of types `u` and `v`: with integers if both are integers (overflow is undefined:
`none`), with `double` otherwise. -/
def arith (int : Int → Int → Int) (flt : Flt → Flt → Flt) (u v : Num) (x y : Val) : Option Val :=
  match (join u v).int, x, y with
  | some t, .int a, .int b => if t.min ≤ int a b ∧ int a b ≤ t.max then some (.int (int a b)) else none
  | some _, _, _ => none
  | none, x, y => some (.flt (flt (widen x) (widen y)))

/-- `x + y` -/
def plusVal (u v : Num) (x y : Val) : Option Val := arith (· + ·) (plus .double) u v x y

/-- `x * y` -/
def timesVal (u v : Num) (x y : Val) : Option Val := arith (· * ·) (times .double) u v x y

/-- Why there is no result: an exception because data has another type than the algorithm expects (`boost::bad_get`), a
failing assertion, or undefined behaviour. -/
inductive Fault | badGet | assertion | undefined
  deriving DecidableEq

/-- `boost::get<Constant<T> const&>(data)` -/
def getConst (t : Num) : Data → Except Fault Val
  | .const u v => if u = t then .ok v else .error .badGet
  | .raster _ _ => .error .badGet

/-- `boost::get<Raster<T> const&>(data)` -/
def getRaster (t : Num) : Data → Except Fault Rast
  | .raster u r => if u = t then .ok r else .error .badGet
  | .const _ _ => .error .badGet

/-- A result that may be undefined. -/
def defined {α : Type} : Option α → Except Fault α
  | some a => .ok a
  | none => .error .undefined

/-- One cell of the sum of rasters (`expression_tree/plus.h:140-145`): the result starts with zero, not masked. -/
def plusCell (u v : Num) (x y : Val × Bool) : Option (Val × Bool) :=
  if x.2 || y.2 then some ((join u v).zero, true) else (plusVal u v x.1 y.1).map fun z => (z, false)

/-- The cells of the sum, one after the other (`expression_tree/plus.h:138-147`). -/
def plusCells (u v : Num) : List (Val × Bool) → List (Val × Bool) → Option (List (Val × Bool))
  | x :: l, y :: k => (plusCell u v x y).bind fun z => (plusCells u v l k).map (z :: ·)
  | _, _ => some []

/-- `Plus<Raster<U>, Raster<V>>::operator()` (`expression_tree/plus.h:112-151`). -/
def plusRast (u v : Num) (x y : Rast) : Except Fault Rast :=
  if x.rows = y.rows ∧ x.cols = y.cols then
    (defined (plusCells u v x.cells y.cells)).map fun l => ⟨x.rows, x.cols, l⟩
  else .error .assertion

/-- `Implementation::evaluate` (`expression_tree/implementation.h:32-36`, `66-72`, `90-97`) with the algorithms. `root` is
`std::sqrt`. -/
def Alg.evaluate (root : Flt → Flt) : Alg → List Data → Except Fault Data
  | .plus u v, [x, y] => do
    let a ← getConst u x
    let b ← getConst v y
    let c ← defined (plusVal u v a b)
    .ok (.const (join u v) c)
  | .plusRaster u v, [x, y] => do
    let a ← getRaster u x
    let b ← getRaster v y
    let c ← plusRast u v a b
    .ok (.raster (join u v) c)
  | .times u v, [x, y] => do
    let a ← getConst u x
    let b ← getConst v y
    let c ← defined (timesVal u v a b)
    .ok (.const (join u v) c)
  | .sqrt u, [x] => do
    let a ← getConst u x
    .ok (.const .f64 (.flt (root (widen a))))
  | .slope u, [x] => do
    let _ ← getConst u x
    .ok (.const .f64 (.flt (.fin 0)))
  | _, _ => .error .assertion

/-- `Expression` (`expression_tree/ast.h:24-60`): data, or an operation with its declared result, its name, its
implementation and its arguments. -/
inductive Expr
  | data (d : Data)
  | op (result : Ty) (name : Str) (alg : Alg) (args : List Expr)

mutual
/-- `evaluate` (`expression_tree/evaluate_visitor.h:43-104`). -/
def evaluate (root : Flt → Flt) : Expr → Except Fault Data
  | .data d => .ok d
  | .op _ _ alg args =>
    match evaluateAll root args with
    | .ok l => alg.evaluate root l
    | .error f => .error f
/-- The arguments, from left to right (`expression_tree/evaluate_visitor.h:82-86`). -/
def evaluateAll (root : Flt → Flt) : List Expr → Except Fault (List Data)
  | [] => .ok []
  | e :: l =>
    match evaluate root e with
    | .ok d =>
      match evaluateAll root l with
      | .ok k => .ok (d :: k)
      | .error f => .error f
    | .error f => .error f
end

/-- The name of a type (`expression_tree/stream_visitor.h:17-39`). -/
def Num.text : Num → Str
  | .i32 => "int32_t".toList
  | .i64 => "int64_t".toList
  | .f64 => "double".toList

/-- How a value is written. `fmt`: how a `double` is. -/
def Val.text (fmt : Flt → Str) : Val → Str
  | .int i => formatInt i
  | .flt x => fmt x

mutual
/-- `StreamVisitor` (`expression_tree/stream_visitor.h:54-109`). `none`: there is no overload for rasters; a raster is
converted to `Data` again, and so on without end. -/
def visit (fmt : Flt → Str) : Expr → Option Str
  | .data (.const t v) => some (t.text ++ '(' :: v.text fmt ++ [')'])
  | .data (.raster _ _) => none
  | .op _ name _ args => (visitArgs fmt args).map fun s => name ++ '(' :: s ++ [')']
/-- The arguments (`expression_tree/stream_visitor.h:92-100`). -/
def visitArgs (fmt : Flt → Str) : List Expr → Option Str
  | [] => some []
  | e :: l => (visit fmt e).bind fun s => (visitRest fmt l).map fun r => s ++ r
/-- The arguments after the first one. -/
def visitRest (fmt : Flt → Str) : List Expr → Option Str
  | [] => some []
  | e :: l => (visit fmt e).bind fun s => (visitRest fmt l).map fun r => ", ".toList ++ s ++ r
end

/-- `stream` (`expression_tree/stream_visitor.h:112-125`). -/
def stream (fmt : Flt → Str) (e : Expr) : Option Str := (visit fmt e).map fun s => '(' :: s ++ [')']

end Fern.Trees
