import Verif.Model.Syntax
import Verif.Model.Scope
import Mathlib.Logic.Function.Basic

/-!
# Identification of names

Model of `language/ast/visitor/identify_visitor.cc`, which connects the uses of names to their
definitions.
-/

namespace Fern

/-- A pointer to a `NameVertex`: its identity and its name. -/
structure NameRef where
  v : Vid
  n : Str
  deriving DecidableEq

/-- The visitor's symbol table together with the members `_definitions` and `_uses` of the name
vertices (`language/ast/core/name_vertex.h:62-66`). -/
structure IdentifyState where
  table : SymbolTable NameRef
  definitions : Vid → List Vid
  uses : Vid → List Vid

namespace IdentifyState

/-- `NameVertex::add_definition` (`language/ast/core/name_vertex.cc:61-65`). -/
def addDefinition (s : IdentifyState) (v d : Vid) : IdentifyState :=
  { s with definitions := Function.update s.definitions v (s.definitions v ++ [d]) }

/-- `NameVertex::add_use` (`language/ast/core/name_vertex.cc:74-85`) with its assertions. -/
def addUse (s : IdentifyState) (d : NameRef) (v : Vid) (n : Str) : Option IdentifyState :=
  if (s.definitions d.v = [] ∨ s.definitions d.v = [d.v]) ∧ v ≠ d.v ∧ d.n = n then
    some { s with uses := Function.update s.uses d.v (s.uses d.v ++ [v]) }
  else none

/-- `Visit(NameVertex&)`, mode `Using` (`language/ast/visitor/identify_visitor.cc:58-87`). -/
def useName (s : IdentifyState) (v : Vid) (n : Str) : Option IdentifyState :=
  if s.definitions v = [] then
    if s.table.hasValue n then do
      let d ← s.table.value n
      (s.addDefinition v d.v).addUse d v n
    else some s
  else none

/-- `Visit(NameVertex&)`, mode `Defining` (`language/ast/visitor/identify_visitor.cc:88-94`). -/
def defineName (s : IdentifyState) (v : Vid) (n : Str) : Option IdentifyState :=
  if s.definitions v = [] then do
    let t ← s.table.addValue n ⟨v, n⟩
    some { s.addDefinition v v with table := t }
  else none

/-- `_symbol_table.push_scope()` (such as `language/ast/visitor/identify_visitor.cc:119`). -/
def pushScope (s : IdentifyState) : IdentifyState := { s with table := s.table.pushScope }

/-- `_symbol_table.pop_scope()` (such as `language/ast/visitor/identify_visitor.cc:121`). -/
def popScope (s : IdentifyState) : Option IdentifyState := do
  let t ← s.table.popScope
  some { s with table := t }

end IdentifyState

mutual

/-- The visits of expressions, mode `Using` (`language/ast/visitor/identify_visitor.cc:47-112`; for
strings, numbers, subscripts and attributes `language/ast/visitor/ast_visitor.cc:66-71, 154-160,
248-268`). -/
def identifyExpr (s : IdentifyState) : Expr → Option IdentifyState
  | .name v n => s.useName v n
  | .number _ _ => some s
  | .string _ _ => some s
  | .call _ _ args => identifyExprs s args
  | .operator _ _ args => identifyExprs s args
  | .subscript _ e i => (identifyExpr s e).bind fun s => identifyExpr s i
  | .attribute _ e _ => identifyExpr s e

/-- `visit_expressions` (`language/ast/visitor/ast_visitor.cc:33-39`). -/
def identifyExprs (s : IdentifyState) : List Expr → Option IdentifyState
  | [] => some s
  | e :: es => (identifyExpr s e).bind fun s => identifyExprs s es

end

mutual

/-- The visits of statements (`language/ast/visitor/identify_visitor.cc:25-44, 126-157`; function
definitions and return statements `language/ast/visitor/ast_visitor.cc:95-101, 204-211`: the visitor
does not push a scope for the body of a function). -/
def identifyStmt (s : IdentifyState) : Stmt → Option IdentifyState
  | .expr e => identifyExpr s e
  | .assign _ target n e => (identifyExpr s e).bind fun s => s.defineName target n
  | .ifElse _ _ c _ _ t _ _ f =>
    (identifyExpr s c).bind fun s =>
    (identifyStmts s.pushScope t).bind fun s =>
    s.popScope.bind fun s =>
    (identifyStmts s.pushScope f).bind fun s =>
    s.popScope
  | .while _ _ c _ _ t _ _ f =>
    (identifyExpr s c).bind fun s =>
    (identifyStmts s.pushScope t).bind fun s =>
    s.popScope.bind fun s =>
    (identifyStmts s.pushScope f).bind fun s =>
    s.popScope
  | .function _ _ args _ _ body => (identifyExprs s args).bind fun s => identifyStmts s body
  | .ret _ (some e) => identifyExpr s e
  | .ret _ none => some s

/-- `visit_statements` (`language/ast/visitor/ast_visitor.cc:20-26`). -/
def identifyStmts (s : IdentifyState) : List Stmt → Option IdentifyState
  | [] => some s
  | t :: ts => (identifyStmt s t).bind fun s => identifyStmts s ts

end

/-- The vertices before identification. -/
def IdentifyState.initial : IdentifyState := ⟨[], fun _ => [], fun _ => []⟩

/-- `Visit(ModuleVertex&)` (`language/ast/visitor/identify_visitor.cc:115-123`). -/
def identifyModule (m : Module) : Option IdentifyState :=
  (identifyStmts IdentifyState.initial.pushScope m.statements).bind fun s =>
  s.popScope.bind fun s =>
  if s.table.empty then some s else none

end Fern
