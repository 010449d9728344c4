import Verif.Spec.StdOps
import Verif.Spec.Interpreter

/-!
# A type system for scripts that use the library

Types of values, the types that operations give, and which statements are well-typed, from the source text alone. A
type is one value type, of a constant or of a field; or that of data that is read, of which only is known that it is a
field of numbers.
-/

namespace Fern.Library.Spec

/-- The type of a value. -/
inductive Ty where
  /-- A constant, or a field, of one value type. -/
  | one (field : Bool) (v : ValueType)
  /-- A field of numbers. -/
  | numberField
deriving DecidableEq, Repr

/-- The number types, each winning from those before it. -/
def ladder : List ValueType :=
  [.int16, .int8, .uint8, .uint16, .int32, .uint32, .int64, .uint64, .float32, .float64]

/-- The values are numbers. -/
def Ty.IsNumber : Ty → Prop
  | .one _ v => v ∈ ladder
  | .numberField => True

instance (t : Ty) : Decidable t.IsNumber := by cases t <;> unfold Ty.IsNumber <;> infer_instance

/-- The values form a field. -/
def Ty.field : Ty → Bool
  | .one f _ => f
  | .numberField => true

/-- The number type that wins, on the ladder. -/
def winner (a b : ValueType) : ValueType := if ladder.idxOf a ≤ ladder.idxOf b then b else a

/-- The value type of a sum. Numbers of which more is not known count as 64 bit floating point numbers. -/
def sumValue : Ty → Ty → ValueType
  | .one _ a, .one _ b => winner a b
  | _, _ => .float64

/-- A constant string. -/
def constantText : Ty := .one false .string

/-- The type of the result of a named operation, provided that it is one of the library with a result and the arguments
are suitable. -/
def resultType (n : Str) (args : List Ty) : Option Ty :=
  if n = "abs".toList then
    match args with
    | [t] => if t.IsNumber then some t else none
    | _ => none
  else if n = "int32".toList then
    match args with
    | [t] => if t.IsNumber then some (.one t.field .int32) else none
    | _ => none
  else if n = "add".toList then
    match args with
    | [t, u] => if t.IsNumber ∧ u.IsNumber then some (.one (t.field || u.field) (sumValue t u)) else none
    | _ => none
  else if n = "read".toList then
    if args = [constantText] then some .numberField else none
  else none

mutual

/-- The type of an expression, given those of the names. `none`: it has none. -/
def tyOf (env : Str → Option Ty) : Expr → Option Ty
  | .name _ n => env n
  | .number _ n => some (.one false n.valueType)
  | .string _ _ => some constantText
  | .call _ n args => (tysOf env args).bind (resultType n)
  | .operator _ n args => (tysOf env args).bind (resultType n)
  | .subscript _ _ _ => none
  | .attribute _ _ _ => none

/-- The types of expressions, provided that all have one. -/
def tysOf (env : Str → Option Ty) : List Expr → Option (List Ty)
  | [] => some []
  | e :: es => (tyOf env e).bind fun t => (tysOf env es).map (t :: ·)

end

/-- The expression writes numbers: to a named dataset, in a named format. -/
def Writes (env : Str → Option Ty) : Expr → Prop
  | .call _ n args => n = "write".toList ∧ ∃ t, tysOf env args = some [t, constantText, constantText] ∧ t.IsNumber
  | .operator _ n args => n = "write".toList ∧ ∃ t, tysOf env args = some [t, constantText, constantText] ∧ t.IsNumber
  | _ => False

/-- Statements are well-typed: what is assigned has a type, which the name has from there on; what is not assigned has a
type or writes numbers. -/
def Typed (env : Str → Option Ty) : List Stmt → Prop
  | [] => True
  | .expr e :: ts => ((tyOf env e).isSome ∨ Writes env e) ∧ Typed env ts
  | .assign _ _ n e :: ts => ∃ t, tyOf env e = some t ∧ Typed (fun m => if m = n then some t else env m) ts
  | _ :: _ => False

/-- The types of the names after well-typed statements. -/
def tysAfter (env : Str → Option Ty) : List Stmt → Str → Option Ty
  | [] => env
  | .assign _ _ n e :: ts => tysAfter (fun m => if m = n then tyOf env e else env m) ts
  | _ :: ts => tysAfter env ts

/-- The types of the values that well-typed statements leave: those of the expressions that are not assigned. -/
def shown (env : Str → Option Ty) : List Stmt → List Ty
  | [] => []
  | .expr e :: ts => (tyOf env e).toList ++ shown env ts
  | .assign _ _ n e :: ts => shown (fun m => if m = n then tyOf env e else env m) ts
  | _ :: ts => shown env ts

mutual

/-- There are no subscripts and attributes in the expression. -/
def Plain : Expr → Prop
  | .name _ _ => True
  | .number _ _ => True
  | .string _ _ => True
  | .call _ _ args => PlainAll args
  | .operator _ _ args => PlainAll args
  | .subscript _ _ _ => False
  | .attribute _ _ _ => False

/-- There are none in the expressions. -/
def PlainAll : List Expr → Prop
  | [] => True
  | e :: es => Plain e ∧ PlainAll es

end

/-- The statements are assignments and expressions, without subscripts and attributes. -/
def PlainStmts : List Stmt → Prop
  | [] => True
  | .expr e :: ts => Plain e ∧ PlainStmts ts
  | .assign _ _ _ e :: ts => Plain e ∧ PlainStmts ts
  | _ :: _ => False

/-- The type as the interpreter keeps it. -/
def Ty.kept : Ty → ExpressionType
  | .one f v => ⟨if f then DataTypes.staticField else DataTypes.constant, v.flag⟩
  | .numberField => ⟨DataTypes.staticField, ValueTypes.number⟩

/-- The type that a name has according to the interpreter: undefined if it has none. -/
def keptType (t : Option Ty) : ExpressionType := (t.map Ty.kept).getD .undefined

/-! ### Execution -/

variable {V : Type}

/-- Neither addition nor the conversion to `int32` is among the expressions. -/
def Avoids (l : List Expr) : Prop :=
  ∀ v n args, (Expr.call v n args ∈ l ∨ Expr.operator v n args ∈ l) → n ≠ "add".toList ∧ n ≠ "int32".toList

/-- The numbers among the expressions have their type. -/
def Numbers (number : Number → V) (hasTy : V → Ty → Prop) (l : List Expr) : Prop :=
  ∀ v n, Expr.number v n ∈ l → hasTy (number n) (.one false n.valueType)

/-- Strings have their type; and absolute values, reading and writing succeed, with results as declared. -/
structure Works (string : Str → V) (execute : Str → List V → Option (List V)) (hasTy : V → Ty → Prop) : Prop where
  string : ∀ s, hasTy (string s) constantText
  abs : ∀ x T, hasTy x T → T.IsNumber → ∃ r, execute "abs".toList [x] = some [r] ∧ hasTy r T
  read : ∀ x, hasTy x constantText → ∃ r, execute "read".toList [x] = some [r] ∧ hasTy r .numberField
  write : ∀ x a b T, hasTy x T → T.IsNumber → hasTy a constantText → hasTy b constantText →
    execute "write".toList [x, a, b] = some []

/-- Every name that has a type has a value of that type, in the table or else as data source. -/
def Ready (c : ExecuteContext V) (hasTy : V → Ty → Prop) (env : Str → Option Ty) (s : ExecuteState V) : Prop :=
  s.table ≠ [] ∧ ∀ n T, env n = some T → ∃ x, (s.table.value n).or (c.source n) = some x ∧ hasTy x T

/-! ### Attributes as values -/

/-- The type of the integers. -/
def intType (t : IntTy) : ValueType := (Number.int t 0).valueType

/-- The integer is of the type, and so is its magnitude. -/
def Moderate (t : IntTy) (v : Int) : Prop := t.min ≤ v ∧ v ≤ t.max ∧ (t.signed = true → v ≠ t.min)

/-- A field that was built by adding arrays with rows, with such values in the cells that are not masked. -/
def FieldOf {G α : Type} (P : α → Prop) (a : StdOps.Attribute G (StdOps.Field α)) : Prop :=
  ∃ l, StdOps.Spec.Built l a ∧ ∀ p ∈ l, 0 < p.2.rows ∧
    ∀ r c, r < p.2.rows → c < p.2.cols → (p.2.cell r c).2 = false → P (p.2.cell r c).1

/-- The attribute is of the type, and has magnitudes. -/
def Has {G : Type} : StdOps.Arg G → Ty → Prop
  | .constInt t v, T => T = .one false (intType t) ∧ Moderate t v
  | .constFlt d _, T => T = .one false (if d then .float64 else .float32)
  | .constString _, T => T = constantText
  | .constBool _, T => T = .one false .bool
  | .fieldInt t a, T => (T = .one true (intType t) ∨ T = .numberField) ∧ FieldOf (Moderate t) a
  | .fieldFlt d a, T => (T = .one true (if d then .float64 else .float32) ∨ T = .numberField) ∧ FieldOf (fun _ => True) a
  | .fieldBool _, T => T = .one true .bool
  | .fieldString _, T => T = .one true .string

end Fern.Library.Spec
