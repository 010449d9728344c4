import Verif.Model.PyFloat
import Verif.Spec.PyOps
import Verif.Spec.FloatRaster

/-! What raster operations of the Python extension are about, if there are floating point numbers. -/

namespace Fern.PyFloat.Spec

open Fern Fern.Spec Fern.Domains Fern.FloatArith
open Fern.PyOps (Out Arith Comparison)
open Fern.Casts.Spec (OfType)
open Fern.FloatRaster.Spec (Result IsNumber Mixed)

/-- The value that marks masked cells: for floating point numbers, the smallest positive normal number. -/
def reserved : NumTy → Flt
  | .int t => .fin (PyOps.Spec.reserved t)
  | .f32 => .fin ((2 : Rat) ^ (-126 : Int))
  | .f64 => .fin ((2 : Rat) ^ (-1022 : Int))
  | .bool => .fin 0

/-- The supported value types. -/
def Supported : NumTy → Prop
  | .int t => PyOps.Spec.Supported t
  | .f32 | .f64 => True
  | .bool => False

/-- A raster as Python code can make it: it has a value for each cell, of its type. -/
structure WellFormed (r : Raster) : Prop where
  size : r.values.length = r.rows * r.cols
  fits : ∀ v ∈ r.values, OfType r.type v

/-- The value of cell `i`, in row-major order; `none`: the cell is masked, or there is none. -/
def valueAt (r : Raster) (i : Nat) : Option Flt :=
  (r.values[i]?).bind fun v => if v = reserved r.type then none else some v

/-- Raster `q` has the rows, columns and coordinates of raster `l`. -/
structure Placed (q l : Raster) : Prop where
  rows : q.rows = l.rows
  cols : q.cols = l.cols
  origin : q.origin = l.origin
  cellSizes : q.cellSizes = l.cellSizes

/-- An operation results in a raster of type `t` with the rows, columns and coordinates of raster `l`, each cell of which
is as `cell` says. -/
def Gives (result : Out Raster) (t : NumTy) (l : Raster) (cell : Nat → Option Flt → Prop) : Prop :=
  ∃ q, result = .ok q ∧ q.type = t ∧ Placed q l ∧ WellFormed q ∧ ∀ i, cell i (valueAt q i)

/-- The cell of a raster of type `t` that gets value `x` of this type. -/
def unlessReserved (t : NumTy) (x : Flt) : Option Flt := if x = reserved t then none else some x

/-- A cell for two cells: it is masked if one of both is. -/
def Both (a b : Option Flt) (P : Flt → Flt → Option Flt → Prop) (x : Option Flt) : Prop :=
  (a = none ∨ b = none → x = none) ∧ ∀ v w, a = some v → b = some w → P v w x

/-- A cell for one cell: it is masked if this one is. -/
def One (a : Option Flt) (P : Flt → Option Flt → Prop) (x : Option Flt) : Prop :=
  (a = none → x = none) ∧ ∀ v, a = some v → P v x

/-- The sum or product of values of types `t1` and `t2` as floating point number of type `t`: infinities and NaN are
masked, except if it is a sum with an integer; so are results equal to the value that marks masked cells. -/
def ArithCell (o : Arith) (t1 t2 : NumTy) (t : FltTy) (v w : Flt) (x : Option Flt) : Prop :=
  ∃ a b z, FloatRaster.Spec.Operand t v a ∧ FloatRaster.Spec.Operand t w b ∧ Result t (arithOp o) a b z ∧
    (IsNumber z ∨ (o = .add ∧ Mixed t1 t2) → x = unlessReserved t.num z) ∧
    (¬ (IsNumber z ∨ (o = .add ∧ Mixed t1 t2)) → x = none)

/-- Two rasters that an operation can be applied to. -/
structure Matching (l r : Raster) : Prop where
  left : WellFormed l
  right : WellFormed r
  rows : r.rows = l.rows
  cols : r.cols = l.cols
  leftType : Supported l.type
  rightType : Supported r.type

/-- The right hand side of an assignment, `self` being the left hand side. -/
def operand (self : Raster) : Other → Raster
  | .self => self
  | .raster r => r

/-- `a` is less than `b`: neither is NaN. -/
def Below (a b : Flt) : Prop :=
  (∃ x y, a = .fin x ∧ b = .fin y ∧ x < y) ∨
  (a = .negInf ∧ (IsNumber b ∨ b = .inf)) ∨ ((IsNumber a ∨ a = .negInf) ∧ b = .inf)

/-- The comparison of `a` and `b`. -/
def Holds : Comparison → Flt → Flt → Prop
  | .less, a, b => Below a b
  | .greater, a, b => Below b a

/-- The cell of a comparison of two values, both converted to floating point type `t`. -/
def CompareCell (c : Comparison) (t : FltTy) (v w : Flt) (x : Option Flt) : Prop :=
  ∃ a b, FloatRaster.Spec.Operand t v a ∧ FloatRaster.Spec.Operand t w b ∧
    (Holds c a b → x = some (.fin 1)) ∧ (¬ Holds c a b → x = some (.fin 0))

/-- A number as Python can pass it. -/
def Passable : Number → Prop
  | .int n => Fits .i64 n
  | .real v => OfType .f64 v

/-- The element of a list of rows. -/
def element {α : Type} (rows : List (List α)) (r c : Nat) : Option α := (rows[r]?).bind fun row => row[c]?

/-- `w` is number `x` as value of floating point type `t`: it is converted to `double` first. -/
def AsFloat (t : FltTy) : Number → Flt → Prop
  | .int n, w => ∃ d, FloatRaster.Spec.Operand .double (.fin n) d ∧ IsNumber d ∧ FloatRaster.Spec.Operand t d w
  | .real v, w => FloatRaster.Spec.Operand t v w

/-- `w` is number `x` as element of a raster of type `t`. -/
def Extracted (t : NumTy) (x : Number) (w : Flt) : Prop :=
  (∃ i n, t = .int i ∧ x = .int n ∧ Fits i n ∧ w = .fin n) ∨ ∃ f : FltTy, t = f.num ∧ AsFloat f x w

/-- Lists from which a raster can be made: there is a mask for all cells, and a value for the type for those that are not
masked. -/
def Complete (t : NumTy) (values : List (List Number)) (mask : List (List Bool)) (cols : Nat) : Prop :=
  ∀ r c, r < values.length → c < cols →
    element mask r c = some true ∨
    (element mask r c = some false ∧ ∃ x w, element values r c = some x ∧ Extracted t x w)

/-- `s` is raster of integers `r`, lying at the same place. -/
structure SameRaster (r : PyOps.Raster) (s : Raster) : Prop where
  type : s.type = .int r.type
  rows : s.rows = r.rows
  cols : s.cols = r.cols
  origin : s.origin = r.origin
  cellSizes : s.cellSizes = r.cellSizes
  values : List.Forall₂ (fun (n : Int) v => v = Flt.fin n) r.values s.values

/-- An operation on rasters of integers ends the same way in both models. -/
inductive SameOutcome : Out PyOps.Raster → Out Raster → Prop
  | ok (r s) : SameRaster r s → SameOutcome (.ok r) (.ok s)
  | error : SameOutcome .error .error
  | assertion : SameOutcome .assertion .assertion
  | undefined : SameOutcome .undefined .undefined

end Fern.PyFloat.Spec
