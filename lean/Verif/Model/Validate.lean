import Verif.Model.Annotate

/-!
# Validation

Model of `language/ast/visitor/validate_visitor.cc`.
-/

namespace Fern

/-- The exceptions thrown (`language/ast/visitor/validate_visitor.cc:27-32, 44-48, 56-65, 80-90`). The
texts made of the types are not modelled. -/
inductive Problem
  | undefinedIdentifier (v : Vid) (n : Str)
  | undefinedOperation (v : Vid) (n : Str)
  | wrongNumber (v : Vid) (n : Str) (required provided : Nat)
  | wrongType (v : Vid) (n : Str) (argument : Nat)
  deriving DecidableEq

/-- How a visit ends: normally, by an exception, or by a failing assertion. -/
inductive Checked
  | ok
  | error (p : Problem)
  | undefined
  deriving DecidableEq

/-- One visit and then another. -/
def Checked.andThen (a b : Checked) : Checked :=
  match a with
  | .ok => b
  | c => c

/-- The members of the vertices that the visitor reads. -/
structure Annotations (V : Type) where
  types : Vid → ExpressionTypes
  operation : Vid → Option (Operation V)

variable {V : Type}

/-- `Visit(NameVertex&)` (`language/ast/visitor/validate_visitor.cc:20-33`). -/
def checkName (a : Annotations V) (v : Vid) (n : Str) : Checked :=
  match a.types v with
  | [t] => if t.defined then .ok else .error (.undefinedIdentifier v n)
  | _ => .undefined

/-- The loop over the arguments (`language/ast/visitor/validate_visitor.cc:70-91`); `i` counts. -/
def checkArguments (a : Annotations V) (v : Vid) (n : Str) (i : Nat) :
    List ExpressionTypes → List Expr → Checked
  | p :: ps, e :: es =>
    if p.isSatisfiedBy (a.types e.vid) then checkArguments a v n (i + 1) ps es
    else .error (.wrongType v n (i + 1))
  | _, _ => .ok

/-- The visit of an operation, after its arguments
(`language/ast/visitor/validate_visitor.cc:41-91`). -/
def checkOperation (a : Annotations V) (v : Vid) (n : Str) (args : List Expr) : Checked :=
  match a.operation v with
  | none => .error (.undefinedOperation v n)
  | some op =>
    if args.length ≠ op.arity then .error (.wrongNumber v n op.arity args.length)
    else checkArguments a v n 0 op.parameters args

mutual

/-- The visits of expressions (`language/ast/visitor/validate_visitor.cc:20-92`; the others are the
default ones, `language/ast/visitor/ast_visitor.cc`). -/
def validateExpr (a : Annotations V) : Expr → Checked
  | .name v n => checkName a v n
  | .number _ _ => .ok
  | .string _ _ => .ok
  | .call v n args => (validateExprs a args).andThen (checkOperation a v n args)
  | .operator v n args => (validateExprs a args).andThen (checkOperation a v n args)
  | .subscript _ e i => (validateExpr a e).andThen (validateExpr a i)
  | .attribute _ e _ => validateExpr a e

/-- `visit_expressions` (`language/ast/visitor/ast_visitor.cc:33-39`). -/
def validateExprs (a : Annotations V) : List Expr → Checked
  | [] => .ok
  | e :: es => (validateExpr a e).andThen (validateExprs a es)

end

mutual

/-- The visits of statements: the default ones (`language/ast/visitor/ast_visitor.cc`). An assignment
visits its expression and then its target. -/
def validateStmt (a : Annotations V) : Stmt → Checked
  | .expr e => validateExpr a e
  | .assign _ target n e => (validateExpr a e).andThen (checkName a target n)
  | .ifElse _ _ c _ _ t _ _ f =>
    (validateExpr a c).andThen ((validateStmts a t).andThen (validateStmts a f))
  | .while _ _ c _ _ t _ _ f =>
    (validateExpr a c).andThen ((validateStmts a t).andThen (validateStmts a f))
  | .function _ _ args _ _ body => (validateExprs a args).andThen (validateStmts a body)
  | .ret _ (some e) => validateExpr a e
  | .ret _ none => .ok

/-- `visit_statements` (`language/ast/visitor/ast_visitor.cc:20-26`). -/
def validateStmts (a : Annotations V) : List Stmt → Checked
  | [] => .ok
  | t :: ts => (validateStmt a t).andThen (validateStmts a ts)

end

end Fern
