import Verif.Model.CInt
import Verif.Model.Strings
import Mathlib.Algebra.Ring.Rat

/-!
# Abstract syntax trees

Model of the classes in `language/ast/core`. A vertex is an object with an identity: the visitors
store pointers to vertices and compare them. The model gives every vertex a number; a tree built by
the parser has different numbers everywhere. Line and column numbers are not modelled.
-/

namespace Fern

/-- The identity of a vertex. -/
abbrev Vid := Nat

/-- The value of a `NumberVertex<T>` (`language/ast/core/number_vertex.h`). -/
inductive Number
  | int (t : IntTy) (v : Int)
  | float32 (v : Rat)
  | float64 (v : Rat)
  deriving DecidableEq

/-- `ExpressionVertex` and the classes derived from it. -/
inductive Expr
  /-- `NameVertex` (`language/ast/core/name_vertex.h:23-68`). -/
  | name (v : Vid) (n : Str)
  /-- `NumberVertex<T>`. -/
  | number (v : Vid) (n : Number)
  /-- `StringVertex`. -/
  | string (v : Vid) (s : Str)
  /-- `FunctionCallVertex` (`language/ast/core/function_call_vertex.cc:15-22`). -/
  | call (v : Vid) (n : Str) (args : List Expr)
  /-- `OperatorVertex` (`language/ast/core/operator_vertex.cc:71-79`). -/
  | operator (v : Vid) (n : Str) (args : List Expr)
  /-- `SubscriptVertex` (`language/ast/core/subscript_vertex.cc:15-25`). -/
  | subscript (v : Vid) (e s : Expr)
  /-- `AttributeVertex` (`language/ast/core/attribute_vertex.cc`). -/
  | attribute (v : Vid) (e : Expr) (m : Str)

/-- `StatementVertex` and the classes derived from it. The vertices of scopes
(`language/ast/core/scope_vertex.cc:15-23`) are part of the statement that has them: a scope is given
by its identity, that of its sentinel and its statements. -/
inductive Stmt
  /-- An expression used as a statement. -/
  | expr (e : Expr)
  /-- `AssignmentVertex` (`language/ast/core/assignment_vertex.cc:16-30`) with its target, a
  `NameVertex`. Other targets are refused by the visitors (`language/ast/visitor/annotate_visitor.cc:96`)
  and are not modelled. -/
  | assign (v target : Vid) (n : Str) (e : Expr)
  /-- `IfVertex` (`language/ast/core/if_vertex.cc:16-30`): condition, sentinel, scope, sentinel and
  statements for true and for false. The assertion that there is a statement for true is not part of
  the tree. -/
  | ifElse (v sentinel : Vid) (c : Expr) (tv ts : Vid) (t : List Stmt) (fv fs : Vid) (f : List Stmt)
  /-- `WhileVertex` (`language/ast/core/while_vertex.cc:16-30`). -/
  | while (v sentinel : Vid) (c : Expr) (tv ts : Vid) (t : List Stmt) (fv fs : Vid) (f : List Stmt)
  /-- `FunctionDefinitionVertex` (`language/ast/core/function_definition_vertex.cc:15-26`). -/
  | function (v : Vid) (n : Str) (args : List Expr) (bv bs : Vid) (body : List Stmt)
  /-- `ReturnVertex` (`language/ast/core/return_vertex.cc:15-31`). -/
  | ret (v : Vid) (e : Option Expr)

/-- `ModuleVertex` (`language/ast/core/module_vertex.cc:16-25`): its identity, its scope's, that of the
scope's sentinel, and the statements. -/
structure Module where
  v : Vid
  scope : Vid
  sentinel : Vid
  statements : List Stmt

/-- The identity of an expression. -/
def Expr.vid : Expr → Vid
  | .name v _ | .number v _ | .string v _ | .call v _ _ | .operator v _ _ | .subscript v _ _
  | .attribute v _ _ => v

/-- The identity of a statement. -/
def Stmt.vid : Stmt → Vid
  | .expr e => e.vid
  | .assign v _ _ _ => v
  | .ifElse v _ _ _ _ _ _ _ _ => v
  | .while v _ _ _ _ _ _ _ _ => v
  | .function v _ _ _ _ _ => v
  | .ret v _ => v

end Fern
