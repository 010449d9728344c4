import Verif.Model.PyOps
import Verif.Spec.CInt

/-!
# What raster operations of the Python extension are about

Rasters are looked at cell by cell: a cell has a value, or it is masked.
-/

namespace Fern.PyOps.Spec

open Fern Fern.Spec

/-- The value that marks masked cells. -/
def reserved : IntTy → Int
  | .u8 => 255
  | .i8 => -128
  | .u16 => 65535
  | .i16 => -32768
  | .u32 => 4294967295
  | .i32 => -2147483648
  | .u64 => 18446744073709551615
  | .i64 => -9223372036854775808

/-- A raster as Python code can make it: it has a value for each cell, of its type. -/
structure WellFormed (r : Raster) : Prop where
  size : r.values.length = r.rows * r.cols
  fits : ∀ v ∈ r.values, Fits r.type v

/-- The value of cell `i`, in row-major order; `none`: the cell is masked, or there is none. -/
def valueAt (r : Raster) (i : Nat) : Option Int :=
  (r.values[i]?).bind fun v => if v = reserved r.type then none else some v

/-- The cell of a raster of type `t` that is to get value `x`: it is masked if the type cannot represent it, and if it is
the value that marks masked cells. -/
def store (t : IntTy) (x : Int) : Option Int := if Fits t x ∧ x ≠ reserved t then some x else none

/-- Raster `q` has the rows, columns and coordinates of raster `l`. -/
structure Placed (q l : Raster) : Prop where
  rows : q.rows = l.rows
  cols : q.cols = l.cols
  origin : q.origin = l.origin
  cellSizes : q.cellSizes = l.cellSizes

/-- An operation results in a raster of type `t` with the rows, columns and coordinates of raster `l`, the cells of which
are those of `cell`. -/
def Gives (result : Out Raster) (t : IntTy) (l : Raster) (cell : Nat → Option Int) : Prop :=
  ∃ q, result = .ok q ∧ q.type = t ∧ Placed q l ∧ WellFormed q ∧ ∀ i, valueAt q i = cell i

/-- The cell for two cells: it is masked if one of both is. -/
def both (a b : Option Int) (f : Int → Int → Option Int) : Option Int := a.bind fun a => b.bind fun b => f a b

/-- Some pair of values, of cells that are not masked, does not go well. -/
def SomePair (a b : Nat → Option Int) (p : Int → Int → Prop) : Prop := ∃ i x y, a i = some x ∧ b i = some y ∧ p x y

/-- The cell of a raster of type `t` that gets value `x` of this type. -/
def unlessReserved (t : IntTy) (x : Int) : Option Int := if x = reserved t then none else some x

/-- `w` is number `n` converted to type `t`. -/
def Converted (t : IntTy) (n w : Int) : Prop := Fits t w ∧ (2 ^ t.bits : Int) ∣ w - n

/-- The right hand side of an assignment, `self` being the left hand side. -/
def operand (self : Raster) : Other → Raster
  | .self => self
  | .raster r => r

instance (t : IntTy) : Decidable (Unsigned t) := by unfold Unsigned; infer_instance

/-- The value at the right hand side of an assignment, which was `b`, after the one at the left hand side became `x`. -/
def afterwards (other : Other) (x b : Int) : Int :=
  match other with
  | .self => x
  | .raster _ => b

/-- Value `a` of type `t`, in comparisons with values of type `u`: negative values become large ones if the other type is
unsigned and not narrower. -/
def seen (t u : IntTy) (a : Int) : Int := if a < 0 ∧ Unsigned u ∧ t.bits ≤ u.bits then a + 2 ^ u.bits else a

/-- The supported value types. -/
def Supported (t : IntTy) : Prop := t = .u8 ∨ t = .u32 ∨ t = .i32 ∨ t = .u64 ∨ t = .i64

/-- Two rasters that an operation can be applied to. -/
structure Matching (l r : Raster) : Prop where
  left : WellFormed l
  right : WellFormed r
  rows : r.rows = l.rows
  cols : r.cols = l.cols
  leftType : Supported l.type
  rightType : Supported r.type

/-- The value of a comparison. -/
def truthValue (p : Prop) [Decidable p] : Option Int := some (if p then 1 else 0)

/-- The element of a list of rows. -/
def element {α : Type} (rows : List (List α)) (r c : Nat) : Option α := (rows[r]?).bind fun row => row[c]?

/-- Lists from which a raster can be made: there is a mask for all cells, and a value of the type for those that are not
masked. -/
def Complete (t : IntTy) (values : List (List Int)) (mask : List (List Bool)) (cols : Nat) : Prop :=
  ∀ r c, r < values.length → c < cols →
    element mask r c = some true ∨ (element mask r c = some false ∧ ∃ v, element values r c = some v ∧ Fits t v)

end Fern.PyOps.Spec
