import Verif.Spec.Interpreter

/-!
# Which scripts are accepted

In terms of the source text and the types of the names that are known: without annotations.
-/

namespace Fern.Spec

variable {V : Type}

/-- The types of the names, with that of one name replaced. -/
def bindType (env : Str → ExpressionType) (n : Str) (t : ExpressionType) : Str → ExpressionType :=
  fun m => if m = n then t else env m

/-- The expression can be passed for the parameter: it has a type that can be passed, and it is not an attribute. -/
def Suits (ops : Operations V) (env : Str → ExpressionType) (p : ExpressionTypes) (e : Expr) : Prop :=
  e.isAttribute = false ∧ ∃ t, typeExpr (reversedRules ops) env e = some t ∧ Passable p t

/-- The operation is known and the arguments suit its parameters, in number and type. -/
def FineCall (ops : Operations V) (env : Str → ExpressionType) (n : Str) (args : List Expr) : Prop :=
  ∃ op, ops n = some op ∧ List.Forall₂ (Suits ops env) op.parameters args

mutual

/-- The expression is well-typed: names have a defined type, operations are known, and arguments suit. -/
def Fine (ops : Operations V) (env : Str → ExpressionType) : Expr → Prop
  | .name _ n => IsDefined (env n)
  | .number _ _ => True
  | .string _ _ => True
  | .call _ n args => FineAll ops env args ∧ FineCall ops env n args
  | .operator _ n args => FineAll ops env args ∧ FineCall ops env n args
  | .subscript _ e i => Fine ops env e ∧ Fine ops env i
  | .attribute _ e _ => Fine ops env e

/-- The same for a list of expressions. -/
def FineAll (ops : Operations V) (env : Str → ExpressionType) : List Expr → Prop
  | [] => True
  | e :: es => Fine ops env e ∧ FineAll ops env es

end

/-- Statements are well-typed; a name that is assigned to has the type of the expression from there on. -/
def FineStmts (ops : Operations V) (env : Str → ExpressionType) : List Stmt → Prop
  | [] => True
  | .expr e :: ts => Fine ops env e ∧ FineStmts ops env ts
  | .assign _ _ n e :: ts => Fine ops env e ∧ ∃ t, typeExpr (reversedRules ops) env e = some t ∧ IsDefined t ∧
      FineStmts ops (bindType env n t) ts
  | _ :: _ => False

/-- The types of the names after the statements. -/
def typesAfter (ops : Operations V) (env : Str → ExpressionType) : List Stmt → Str → ExpressionType
  | [] => env
  | .assign _ _ n e :: ts =>
    typesAfter ops (bindType env n ((typeExpr (reversedRules ops) env e).getD .undefined)) ts
  | _ :: ts => typesAfter ops env ts

/-- The types of the names that a call of the interpreter starts with. -/
def startType (i : Interpreter V) (sources : Scope (DataSource V)) (n : Str) : ExpressionType :=
  (((sources.value n).map (·.type)).or (i.table.value n)).getD .undefined

end Fern.Spec
