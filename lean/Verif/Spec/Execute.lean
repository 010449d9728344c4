import Verif.Spec.Typing
import Verif.Spec.InOut
import Verif.Model.Execute

/-!
# The meaning of straight-line modules

The value of an expression given the values of the names in it, and what a sequence of assignments and
expressions does to the values of names: without stacks and symbol tables.
-/

namespace Fern.Spec

variable {V : Type}

/-- The value of an operation with one result. -/
def operationValue (ops : Operations V) (n : Str) (args : List V) : Option V :=
  match ops n with
  | none => none
  | some op =>
    match op.execute args with
    | some [x] => some x
    | _ => none

mutual

/-- The value of an expression. An attribute has the value of its expression; subscripts have no
value. -/
def evalExpr (c : ExecuteContext V) (env : Str → Option V) : Expr → Option V
  | .name _ n => env n
  | .number _ n => some (c.number n)
  | .string _ s => some (c.string s)
  | .call _ n args => (evalExprs c env args).bind (operationValue c.ops n)
  | .operator _ n args => (evalExprs c env args).bind (operationValue c.ops n)
  | .subscript _ _ _ => none
  | .attribute _ e _ => evalExpr c env e

/-- The values of expressions, in the order of the source. -/
def evalExprs (c : ExecuteContext V) (env : Str → Option V) : List Expr → Option (List V)
  | [] => some []
  | e :: es => (evalExpr c env e).bind fun x => (evalExprs c env es).map (x :: ·)

end

/-- The values of names with one changed. -/
def bindName (env : Str → Option V) (n : Str) (x : V) : Str → Option V :=
  fun m => if m = n then some x else env m

/-- What a straight-line module leaves: the values of names, and the values of the statements that are
expressions. Other statements have no meaning here. -/
def evalStmts (c : ExecuteContext V) (env : Str → Option V) : List Stmt →
    Option ((Str → Option V) × List V)
  | [] => some (env, [])
  | .expr e :: ts =>
    (evalExpr c env e).bind fun x => (evalStmts c env ts).map fun r => (r.1, x :: r.2)
  | .assign _ _ n e :: ts =>
    (evalExpr c env e).bind fun x => evalStmts c (bindName env n x) ts
  | _ :: _ => none

/-- The values that a straight-line module writes: for the assignments whose targets are outputs with a
data sync, their names and values. -/
def evalWrites (c : ExecuteContext V) (env : Str → Option V) : List Stmt → List (Str × V)
  | .expr _ :: ts => evalWrites c env ts
  | .assign _ target n e :: ts =>
    match evalExpr c env e with
    | some x =>
      (if target ∈ c.outputs ∧ c.sync n = true then [(n, x)] else []) ++
        evalWrites c (bindName env n x) ts
    | none => []
  | _ => []

/-- A module of assignments and expressions. -/
def StraightLine : List Stmt → Prop
  | [] => True
  | .expr e :: ts => NoSubscript e ∧ StraightLine ts
  | .assign _ _ _ e :: ts => NoSubscript e ∧ StraightLine ts
  | _ :: _ => False

/-- The operations have one result. -/
def OneResult (ops : Operations V) : Prop :=
  ∀ n op, ops n = some op → ∀ args rs, op.execute args = some rs → rs.length = 1

/-- Every operation among the expressions is called with the number of arguments it requires. -/
structure ArityRight (ops : Operations V) (l : List Expr) : Prop where
  call : ∀ v n args, Expr.call v n args ∈ l → ∀ op, ops n = some op →
    args.length = op.parameters.length
  operator : ∀ v n args, Expr.operator v n args ∈ l → ∀ op, ops n = some op →
    args.length = op.parameters.length

/-- The names whose values have to be read, given the names that have one: those used before anything is
assigned to them, once each. -/
def needed (known : List Str) : List Token → List Str
  | [] => []
  | .use n _ :: ts => if n ∈ known then needed known ts else n :: needed (n :: known) ts
  | .define n _ :: ts => needed (n :: known) ts
  | .begin :: ts => needed known ts
  | .finish :: ts => needed known ts

end Fern.Spec
