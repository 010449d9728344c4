import Verif.Model.Syntax
import Verif.Model.Scope
import Verif.Model.Types

/-!
# Operations and the annotation of vertices with types

Model of `language/operation/core/operation.cc`, `language/operation/core/operations.cc` and
`language/ast/visitor/annotate_visitor.cc`.
-/

namespace Fern

/-- What the visitors use of an `Operation` (`language/operation/core/operation.h:30-85`). `V` is the
type of the values (`std::shared_ptr<Argument>`). -/
structure Operation (V : Type) where
  /-- The expression types of the parameters. -/
  parameters : List ExpressionTypes
  /-- The virtual `expression_type(0, argument_types)` (`language/operation/core/operation.h:67-69`);
  `none`: an assertion fails. -/
  exprType : List ExpressionType → Option ExpressionType
  /-- The virtual `execute(arguments)` (`language/operation/core/operation.h:71-73`); `none`: an
  exception or a failing assertion. -/
  execute : List V → Option (List V)

/-- `arity` (`language/operation/core/operation.cc:93-96`). -/
def Operation.arity {V : Type} (op : Operation V) : Nat := op.parameters.length

/-- `Operations` (`language/operation/core/operations.cc:39-53`): `has_operation(name)` is whether there
is one, `operation(name)` is the one. -/
abbrev Operations (V : Type) := Str → Option (Operation V)

/-- `f[v] = x`. -/
def updateAt {A : Type} (f : Vid → A) (v : Vid) (x : A) : Vid → A := fun w => if w = v then x else f w

/-- The members of the visitor (`language/ast/visitor/annotate_visitor.h:70-78`) together with the
members of the vertices that it changes: `expression_types` and `operation`. -/
structure AnnotateState (V : Type) where
  stack : List ExpressionType
  table : SymbolTable ExpressionType
  types : Vid → ExpressionTypes
  operation : Vid → Option (Operation V)

/-- `TypeTraits<type>::value_types` (`core/type_traits.h`) for the types numbers can have. -/
def Number.valueType : Number → ValueType
  | .int .i8 _ => .int8
  | .int .i16 _ => .int16
  | .int .i32 _ => .int32
  | .int .i64 _ => .int64
  | .int .u8 _ => .uint8
  | .int .u16 _ => .uint16
  | .int .u32 _ => .uint32
  | .int .u64 _ => .uint64
  | .float32 _ => .float32
  | .float64 _ => .float64

namespace AnnotateState

variable {V : Type}

/-- The visits of numbers, strings and names: the vertex has no types yet, the type is pushed and stored
(`language/ast/visitor/annotate_visitor.cc:115-144, 205-223`). -/
def leaf (s : AnnotateState V) (v : Vid) (t : ExpressionType) : Option (AnnotateState V) :=
  if s.types v = [] then some { s with stack := t :: s.stack, types := updateAt s.types v [t] } else none

/-- The type of a name in the symbol table, or the default one
(`language/ast/visitor/annotate_visitor.cc:210-215`). -/
def nameType (s : AnnotateState V) (n : Str) : ExpressionType :=
  (s.table.value n).getD .undefined

/-- Popping types: `argument_types` has the top of the stack first
(`language/ast/visitor/annotate_visitor.cc:158-163`). `none`: the stack is empty. -/
def popTypes (s : AnnotateState V) (k : Nat) : Option (List ExpressionType × AnnotateState V) :=
  if k ≤ s.stack.length then some (s.stack.take k, { s with stack := s.stack.drop k }) else none

/-- The rest of the visit of an operation, after its arguments
(`language/ast/visitor/annotate_visitor.cc:157-202`). -/
def finishOperation (ops : Operations V) (s : AnnotateState V) (v : Vid) (n : Str) (k : Nat) :
    Option (AnnotateState V) :=
  (s.popTypes k).bind fun (args, s) =>
  let typed : Option (ExpressionType × AnnotateState V) :=
    match ops n with
    | none => some (.undefined, s)
    | some op =>
      if (s.operation v).isSome ∨ s.types v ≠ [] then none
      else
        let s := { s with operation := updateAt s.operation v (some op) }
        if k = op.arity then (op.exprType args).map fun t => (t, s) else some (.undefined, s)
  typed.map fun (t, s) => { s with stack := t :: s.stack, types := updateAt s.types v [t] }

/-- The rest of the visit of an assignment, after its expression
(`language/ast/visitor/annotate_visitor.cc:95-110`). -/
def finishAssign (s : AnnotateState V) (target : Vid) (n : Str) (e : Vid) : Option (AnnotateState V) :=
  match s.stack with
  | [] => none
  | t :: stack =>
    (s.table.addValue n t).bind fun table =>
    if s.types target = [] ∧ (s.types e).length = 1 then
      some { s with stack := stack, table := table, types := updateAt s.types target (s.types e) }
    else none

end AnnotateState

variable {V : Type}

mutual

/-- The visits of expressions (`language/ast/visitor/annotate_visitor.cc:115-223`); subscripts and
attributes have the default visits (`language/ast/visitor/ast_visitor.cc:66-71, 258-264`). -/
def annotateExpr (ops : Operations V) (s : AnnotateState V) : Expr → Option (AnnotateState V)
  | .name v n => s.leaf v (s.nameType n)
  | .number v n => s.leaf v ⟨DataTypes.constant, n.valueType.flag⟩
  | .string v _ => s.leaf v ⟨DataTypes.constant, ValueType.string.flag⟩
  | .call v n args =>
    if s.types v = [] then
      (annotateExprs ops s args).bind fun s => s.finishOperation ops v n args.length
    else none
  | .operator v n args =>
    if s.types v = [] then
      (annotateExprs ops s args).bind fun s => s.finishOperation ops v n args.length
    else none
  | .subscript _ e i => (annotateExpr ops s e).bind fun s => annotateExpr ops s i
  | .attribute _ e _ => annotateExpr ops s e

/-- `visit_expressions` (`language/ast/visitor/ast_visitor.cc:33-39`). -/
def annotateExprs (ops : Operations V) (s : AnnotateState V) : List Expr → Option (AnnotateState V)
  | [] => some s
  | e :: es => (annotateExpr ops s e).bind fun s => annotateExprs ops s es

end

mutual

/-- The visits of statements (`language/ast/visitor/annotate_visitor.cc:87-110`; the others are the
default ones, `language/ast/visitor/ast_visitor.cc`). -/
def annotateStmt (ops : Operations V) (s : AnnotateState V) : Stmt → Option (AnnotateState V)
  | .expr e => annotateExpr ops s e
  | .assign _ target n e => (annotateExpr ops s e).bind fun s => s.finishAssign target n e.vid
  | .ifElse _ _ c _ _ t _ _ f =>
    (annotateExpr ops s c).bind fun s =>
    (annotateStmts ops s t).bind fun s => annotateStmts ops s f
  | .while _ _ c _ _ t _ _ f =>
    (annotateExpr ops s c).bind fun s =>
    (annotateStmts ops s t).bind fun s => annotateStmts ops s f
  | .function _ _ args _ _ body => (annotateExprs ops s args).bind fun s => annotateStmts ops s body
  | .ret _ (some e) => annotateExpr ops s e
  | .ret _ none => some s

/-- `visit_statements` (`language/ast/visitor/ast_visitor.cc:20-26`). -/
def annotateStmts (ops : Operations V) (s : AnnotateState V) : List Stmt → Option (AnnotateState V)
  | [] => some s
  | t :: ts => (annotateStmt ops s t).bind fun s => annotateStmts ops s ts

end

/-- `add_global_symbols` (`language/ast/visitor/annotate_visitor.cc:72-84`) with the entries of the
scope passed. `none`: the assertion that there is a scope fails. -/
def AnnotateState.addGlobalSymbols (s : AnnotateState V) (symbols : Scope ExpressionType) :
    Option (AnnotateState V) :=
  (symbols.foldlM (fun (t : SymbolTable ExpressionType) (e : Str × ExpressionType) =>
    t.addValue e.1 e.2) s.table).map fun t => { s with table := t }

/-- A new visitor (`language/ast/visitor/annotate_visitor.cc:20-30`) and vertices without types and
operations. -/
def AnnotateState.initial : AnnotateState V := ⟨[], [[]], fun _ => [], fun _ => none⟩

end Fern
