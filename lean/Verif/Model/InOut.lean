import Verif.Model.Identify

/-!
# Inputs and outputs of a module

Model of `language/ast/visitor/io_visitor.cc`.
-/

namespace Fern

/-- The members of the visitor (`language/ast/visitor/io_visitor.h:56-68`). `_output_id_by_name` is the
list of its entries. -/
structure IOState where
  inputs : List Str
  outputs : List NameRef
  outputIds : Scope Nat
  deriving DecidableEq

namespace IOState

/-- `Visit(NameVertex&)`, mode `Using` (`language/ast/visitor/io_visitor.cc:64-70`). -/
def useName (s : IOState) (n : Str) : IOState :=
  if s.inputs.contains n then s else { s with inputs := s.inputs ++ [n] }

/-- The outputs after erasing the previous definition of the name, if any
(`language/ast/visitor/io_visitor.cc:75-79`). `none`: erasing outside the vector, which is undefined
behaviour. -/
def erasePrevious (s : IOState) (n : Str) : Option (List NameRef) :=
  match s.outputIds.value n with
  | some i => if i < s.outputs.length then some (s.outputs.eraseIdx i) else none
  | none => some s.outputs

/-- `Visit(NameVertex&)`, mode `Defining` (`language/ast/visitor/io_visitor.cc:71-84`). -/
def defineName (s : IOState) (v : Vid) (n : Str) : Option IOState :=
  (s.erasePrevious n).map fun outputs =>
    { s with outputIds := s.outputIds.setValue n outputs.length, outputs := outputs ++ [⟨v, n⟩] }

end IOState

mutual

/-- The visits of expressions, mode `Using`: the default ones (`language/ast/visitor/ast_visitor.cc`). -/
def ioExpr (s : IOState) : Expr → IOState
  | .name _ n => s.useName n
  | .number _ _ => s
  | .string _ _ => s
  | .call _ _ args => ioExprs s args
  | .operator _ _ args => ioExprs s args
  | .subscript _ e i => ioExpr (ioExpr s e) i
  | .attribute _ e _ => ioExpr s e

/-- `visit_expressions` (`language/ast/visitor/ast_visitor.cc:33`). -/
def ioExprs (s : IOState) : List Expr → IOState
  | [] => s
  | e :: es => ioExprs (ioExpr s e) es

end

mutual

/-- The visits of statements (`language/ast/visitor/io_visitor.cc:47-57`; the others are the default
ones, `language/ast/visitor/ast_visitor.cc`). -/
def ioStmt (s : IOState) : Stmt → Option IOState
  | .expr e => some (ioExpr s e)
  | .assign _ target n e => (ioExpr s e).defineName target n
  | .ifElse _ _ c _ _ t _ _ f => (ioStmts (ioExpr s c) t).bind fun s => ioStmts s f
  | .while _ _ c _ _ t _ _ f => (ioStmts (ioExpr s c) t).bind fun s => ioStmts s f
  | .function _ _ args _ _ body => ioStmts (ioExprs s args) body
  | .ret _ (some e) => some (ioExpr s e)
  | .ret _ none => some s

/-- `visit_statements` (`language/ast/visitor/ast_visitor.cc:20`). -/
def ioStmts (s : IOState) : List Stmt → Option IOState
  | [] => some s
  | t :: ts => (ioStmt s t).bind fun s => ioStmts s ts

end

/-- `Visit(ModuleVertex&)` (`language/ast/visitor/io_visitor.cc:89-100`) with the assertion at its
end. -/
def ioModule (m : Module) : Option IOState :=
  (ioStmts ⟨[], [], []⟩ m.statements).bind fun s =>
  if s.outputIds.length = s.outputs.length then some s else none

end Fern
