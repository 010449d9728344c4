import Verif.Model.Annotate

/-!
# The type of an expression

What the type of an expression is, given the types of the names in it, in terms of the source text:
without stacks, vertices and symbol tables.
-/

namespace Fern.Spec

variable {V : Type}

/-- The type of the result of an operation for arguments of given types, in the order of the source:
undefined if the operation is unknown or the number of arguments is wrong. -/
def operationType (ops : Operations V) (n : Str) (args : List ExpressionType) :
    Option ExpressionType :=
  match ops n with
  | none => some .undefined
  | some op => if args.length = op.parameters.length then op.exprType args else some .undefined

mutual

/-- The type of an expression, given those of the names. The expression of an attribute determines its
type; subscripts have no type. `none` if an operation's rule fails as well. -/
def typeExpr (ops : Operations V) (env : Str → ExpressionType) : Expr → Option ExpressionType
  | .name _ n => some (env n)
  | .number _ n => some ⟨DataTypes.constant, n.valueType.flag⟩
  | .string _ _ => some ⟨DataTypes.constant, ValueType.string.flag⟩
  | .call _ n args => (typeExprs ops env args).bind (operationType ops n)
  | .operator _ n args => (typeExprs ops env args).bind (operationType ops n)
  | .subscript _ _ _ => none
  | .attribute _ e _ => typeExpr ops env e

/-- The types of expressions. -/
def typeExprs (ops : Operations V) (env : Str → ExpressionType) : List Expr →
    Option (List ExpressionType)
  | [] => some []
  | e :: es => (typeExpr ops env e).bind fun t => (typeExprs ops env es).map (t :: ·)

end

/-- The operations with every type rule applied to the arguments in reverse order. -/
def reversedRules (ops : Operations V) : Operations V := fun n =>
  (ops n).map fun op => { op with exprType := fun args => op.exprType args.reverse }

mutual

/-- An expression and all expressions in it, operands before operations. -/
def subterms : Expr → List Expr
  | .name v n => [.name v n]
  | .number v n => [.number v n]
  | .string v s => [.string v s]
  | .call v n args => subtermsList args ++ [.call v n args]
  | .operator v n args => subtermsList args ++ [.operator v n args]
  | .subscript v e i => subterms e ++ (subterms i ++ [.subscript v e i])
  | .attribute v e m => subterms e ++ [.attribute v e m]

/-- The same for a list of expressions. -/
def subtermsList : List Expr → List Expr
  | [] => []
  | e :: es => subterms e ++ subtermsList es

end

/-- The vertices of an expression. -/
def exprIds (e : Expr) : List Vid := (subterms e).map Expr.vid

/-- The vertices of expressions. -/
def exprsIds (es : List Expr) : List Vid := (subtermsList es).map Expr.vid

mutual

/-- There is no subscript in the expression. -/
def NoSubscript : Expr → Prop
  | .name _ _ => True
  | .number _ _ => True
  | .string _ _ => True
  | .call _ _ args => NoSubscripts args
  | .operator _ _ args => NoSubscripts args
  | .subscript _ _ _ => False
  | .attribute _ e _ => NoSubscript e

/-- There is no subscript in the expressions. -/
def NoSubscripts : List Expr → Prop
  | [] => True
  | e :: es => NoSubscript e ∧ NoSubscripts es

end

mutual

/-- How many types a visit of the expression leaves on the stack: one, and for a subscript those of both
its parts. -/
def pushes : Expr → Nat
  | .name _ _ => 1
  | .number _ _ => 1
  | .string _ _ => 1
  | .call _ _ args => pushesList args - args.length + 1
  | .operator _ _ args => pushesList args - args.length + 1
  | .subscript _ e i => pushes e + pushes i
  | .attribute _ e _ => pushes e

/-- The same for a list of expressions. -/
def pushesList : List Expr → Nat
  | [] => 0
  | e :: es => pushes e + pushesList es

end

end Fern.Spec
