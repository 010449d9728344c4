import Verif.Model.Trees
import Verif.Spec.FloatArith
import Verif.Spec.CInt

/-!
# What is expected of trees of expressions
-/

namespace Fern.Trees.Spec

open Fern Fern.Spec Fern.Domains Fern.FloatArith Fern.FloatArith.Spec Fern.Trees

/-- The values of a type. -/
def OfNum : Num → Val → Prop
  | .i32, .int i => Fits .i32 i
  | .i64, .int i => Fits .i64 i
  | .f64, .flt _ => True
  | _, _ => False

/-- Data whose values are values of its type; a raster has as many cells as its rows and columns say. -/
def Fine : Data → Prop
  | .const t v => OfNum t v
  | .raster t r => r.cells.length = r.rows * r.cols ∧ ∀ c ∈ r.cells, OfNum t c.1

/-- The type of data. -/
def typeOf : Data → Ty
  | .const t _ => .const t
  | .raster t _ => .raster t

/-- The order of the types. -/
def rank : Num → Nat
  | .i32 => 0
  | .i64 => 1
  | .f64 => 2

/-- The larger one of two types. -/
def larger (u v : Num) : Num := if rank u < rank v then v else u

/-- The arguments and the result of an algorithm. -/
inductive Sig : Alg → List Ty → Ty → Prop
  | plus (u v) : Sig (.plus u v) [.const u, .const v] (.const (larger u v))
  | plusRaster (u v) : Sig (.plusRaster u v) [.raster u, .raster v] (.raster (larger u v))
  | times (u v) : Sig (.times u v) [.const u, .const v] (.const (larger u v))
  | sqrt (u) : Sig (.sqrt u) [.const u] (.const .f64)
  | slope (u) : Sig (.slope u) [.const u] (.const .f64)

mutual
/-- The type of an expression, whatever its operations declare. -/
inductive Typed : Expr → Ty → Prop
  | data (d) : Typed (.data d) (typeOf d)
  | op (res name alg args ts t) : Sig alg ts t → TypedAll args ts → Typed (.op res name alg args) t
/-- The types of expressions. -/
inductive TypedAll : List Expr → List Ty → Prop
  | nil : TypedAll [] []
  | cons (e t l ts) : Typed e t → TypedAll l ts → TypedAll (e :: l) (t :: ts)
end

/-- The declared result of an expression. -/
def declared : Expr → Ty
  | .data d => typeOf d
  | .op res _ _ _ => res

/-- The operation at the root declares the result of its algorithm. -/
def Honest : Expr → Prop
  | .data _ => True
  | .op res _ alg _ => ∃ ts, Sig alg ts res

mutual
/-- The data at the leaves. -/
def leaves : Expr → List Data
  | .data d => [d]
  | .op _ _ _ args => leavesAll args
/-- The data at the leaves of expressions. -/
def leavesAll : List Expr → List Data
  | [] => []
  | e :: l => leaves e ++ leavesAll l
end

/-- All data is fine. -/
def Fines (e : Expr) : Prop := ∀ d ∈ leaves e, Fine d

/-- All rasters have the same numbers of rows and columns. -/
def Shaped (e : Expr) (rows cols : Nat) : Prop := ∀ t r, .raster t r ∈ leaves e → r.rows = rows ∧ r.cols = cols

/-- The sign of a value. -/
def sign : Flt → Int
  | .fin q => if 0 < q then 1 else if q < 0 then -1 else 0
  | .inf => 1
  | .negInf => -1
  | .nan => 0

/-- The sum of two values of `double`. -/
def FltSum : Flt → Flt → Flt → Prop
  | .fin p, .fin q, z => Rounded .double (p + q) z
  | x, y, z => z = if x = .nan ∨ y = .nan ∨ (x = .inf ∧ y = .negInf) ∨ (x = .negInf ∧ y = .inf) then .nan
      else if x = .inf ∨ y = .inf then .inf else .negInf

/-- The product of two values of `double`. -/
def FltProduct : Flt → Flt → Flt → Prop
  | .fin p, .fin q, z => Rounded .double (p * q) z
  | x, y, z => z = if x = .nan ∨ y = .nan ∨ sign x * sign y = 0 then .nan
      else if 0 < sign x * sign y then .inf else .negInf

/-- A value as `double`. -/
def AsDouble : Val → Flt → Prop
  | .int i, z => Rounded .double i z
  | .flt x, z => z = x

/-- The sum of values of two types: exact, as long as it is a value of the type, if both are integers; that of `double`
otherwise. -/
inductive Sum (u v : Num) : Val → Val → Val → Prop
  | int (a b : Int) : larger u v ≠ .f64 → OfNum (larger u v) (.int (a + b)) → Sum u v (.int a) (.int b) (.int (a + b))
  | flt (x y : Val) (p q z : Flt) : larger u v = .f64 → AsDouble x p → AsDouble y q → FltSum p q z → Sum u v x y (.flt z)

/-- The product of values of two types. -/
inductive Product (u v : Num) : Val → Val → Val → Prop
  | int (a b : Int) : larger u v ≠ .f64 → OfNum (larger u v) (.int (a * b)) →
    Product u v (.int a) (.int b) (.int (a * b))
  | flt (x y : Val) (p q z : Flt) : larger u v = .f64 → AsDouble x p → AsDouble y q → FltProduct p q z →
    Product u v x y (.flt z)

/-- The value of an expression at one cell, from the values of the data at that cell. `none`: no value. -/
inductive Cell (root : Flt → Flt) (i : Nat) : Expr → Option Val → Prop
  | const (t v) : Cell root i (.data (.const t v)) (some v)
  | raster (t r v) : r.cells[i]? = some (v, false) → Cell root i (.data (.raster t r)) (some v)
  | masked (t r v) : r.cells[i]? = some (v, true) → Cell root i (.data (.raster t r)) none
  | plus (res name u v e f a b c) : Cell root i e (some a) → Cell root i f (some b) → Sum u v a b c →
    Cell root i (.op res name (.plus u v) [e, f]) (some c)
  | plusRaster (res name u v e f a b c) : Cell root i e (some a) → Cell root i f (some b) → Sum u v a b c →
    Cell root i (.op res name (.plusRaster u v) [e, f]) (some c)
  | maskedLeft (res name u v e f y) : Cell root i e none → Cell root i f y →
    Cell root i (.op res name (.plusRaster u v) [e, f]) none
  | maskedRight (res name u v e f x) : Cell root i e x → Cell root i f none →
    Cell root i (.op res name (.plusRaster u v) [e, f]) none
  | times (res name u v e f a b c) : Cell root i e (some a) → Cell root i f (some b) → Product u v a b c →
    Cell root i (.op res name (.times u v) [e, f]) (some c)
  | sqrt (res name u e a p) : Cell root i e (some a) → AsDouble a p →
    Cell root i (.op res name (.sqrt u) [e]) (some (.flt (root p)))
  | slope (res name u e a) : Cell root i e (some a) →
    Cell root i (.op res name (.slope u) [e]) (some (.flt (.fin 0)))

/-- What a cell of a raster shows. -/
def shown (c : Val × Bool) : Option Val := if c.2 then none else some c.1

/-- The same tree, up to what the operations declare and how they are implemented. -/
inductive Similar : Expr → Expr → Prop
  | data (d) : Similar (.data d) (.data d)
  | op (r r' n a a' l l') : l.length = l'.length → (∀ i (h : i < l.length) (h' : i < l'.length), Similar l[i] l'[i]) →
    Similar (.op r n a l) (.op r' n a' l')

/-- A name that can be told from types, and does not interfere with the brackets and commas. -/
def Plain (n : Str) : Prop := '(' ∉ n ∧ ')' ∉ n ∧ ',' ∉ n ∧ ∀ t : Num, n ≠ t.text

mutual
/-- All names are plain, and all data are integers. -/
def Readable : Expr → Prop
  | .data (.const t (.int _)) => t ≠ .f64
  | .data _ => False
  | .op _ n _ args => Plain n ∧ ReadableAll args
/-- All expressions are readable. -/
def ReadableAll : List Expr → Prop
  | [] => True
  | e :: l => Readable e ∧ ReadableAll l
end

end Fern.Trees.Spec
