import Verif.Spec.Execute
import Verif.Spec.Validate
import Verif.Model.Interpreter

/-!
# What holds between calls of the interpreter
-/

namespace Fern.Spec

variable {V : Type}

/-- Constants and data sources have the types they are said to have, and an operation that is passed
arguments of types that its parameters accept results in one value, of the type that its rule gives (the
rule is given the types of the arguments in reverse order, see C58). -/
structure WellTyped (c : InterpreterContext V) (hasType : V → ExpressionType → Prop) : Prop where
  oneResult : OneResult c.ops
  number : ∀ n : Number, hasType (c.number n) ⟨DataTypes.constant, n.valueType.flag⟩
  string : ∀ s, hasType (c.string s) ⟨DataTypes.constant, ValueType.string.flag⟩
  operation : ∀ n op, c.ops n = some op → ∀ (args : List V) (ts : List ExpressionType),
    List.Forall₂ hasType args ts → List.Forall₂ Passable op.parameters ts →
    ∀ t, op.exprType ts.reverse = some t → ∃ x, op.execute args = some [x] ∧ hasType x t

/-- The interpreter can be used: there is a scope for types and one for values, and every name that annotation knows with a defined
type has a value of that type. -/
structure InterpreterReady (hasType : V → ExpressionType → Prop) (i : Interpreter V) : Prop where
  scope : i.table ≠ []
  oneScope : i.back.table.length = 1
  values : ∀ n t, i.table.value n = some t → IsDefined t →
    ∃ x, i.back.table.value n = some x ∧ hasType x t

/-- There is a type on one stack for each value on the other one. -/
def StacksAgree (hasType : V → ExpressionType → Prop) (i : Interpreter V) : Prop :=
  List.Forall₂ hasType i.back.stack i.types

/-- The name is used or defined in the module. -/
def Mentioned (m : Module) (n : Str) : Prop :=
  ∃ v, Token.use n v ∈ stmtsTokens m.statements ∨ Token.define n v ∈ stmtsTokens m.statements

/-- The values of names at the start of an execution: a data source goes before a value that was computed
earlier. -/
def startValue (i : Interpreter V) (sources : Scope (DataSource V)) (n : Str) : Option V :=
  ((sources.value n).map (·.value)).or (i.back.table.value n)

/-- The context in which the module is executed. -/
def executionContext (c : InterpreterContext V) (sources : Scope (DataSource V)) (syncs : List Str)
    (outputs : List Vid) : ExecuteContext V :=
  ⟨c.ops, c.number, c.string, fun n => (sources.value n).map (·.value), syncs.contains, outputs⟩

/-- The rules give a type for every list of types of the right length. -/
def TotalRules (ops : Operations V) : Prop :=
  ∀ n op, ops n = some op → ∀ l, l.length = op.parameters.length → (op.exprType l).isSome

/-- The expression is an attribute of another one. -/
def _root_.Fern.Expr.isAttribute : Expr → Bool
  | .attribute _ _ _ => true
  | _ => false

/-- An attribute is assigned to a name. -/
def AssignsAttribute : Stmt → Prop
  | .assign _ _ _ e => e.isAttribute = true
  | _ => False

/-- The vertices that are annotated, in straight-line statements. -/
def termIds (l : List Stmt) : List Vid := (stmtsTerms l).map Expr.vid

end Fern.Spec
