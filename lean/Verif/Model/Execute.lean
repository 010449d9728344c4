import Verif.Model.Annotate
import Verif.Model.InOut

/-!
# Execution

Model of `language/interpreter/execute_visitor.cc`. A data source is its name and the value it reads, a
data sync its name. The model logs the reads of data sources and the writes to data syncs.
-/

namespace Fern

/-- What does not change during a visit: the operations, the values of constants, the data sources, the
data syncs and the outputs of the module (`language/interpreter/execute_visitor.h:62-77`). -/
structure ExecuteContext (V : Type) where
  ops : Operations V
  number : Number → V
  string : Str → V
  source : Str → Option V
  sync : Str → Bool
  outputs : List Vid

/-- What changes: the stack, the symbol table and the two logs. -/
structure ExecuteState (V : Type) where
  stack : List V
  table : SymbolTable V
  reads : List Str
  writes : List (Str × V)
  deriving DecidableEq

variable {V : Type}

namespace ExecuteState

/-- `Visit(NameVertex&)` (`language/interpreter/execute_visitor.cc:141-159`). -/
def useName (c : ExecuteContext V) (s : ExecuteState V) (n : Str) : Option (ExecuteState V) :=
  match s.table.value n with
  | some x => some { s with stack := x :: s.stack }
  | none =>
    (c.source n).bind fun x =>
    (s.table.addValue n x).map fun table =>
      { s with stack := x :: s.stack, table := table, reads := s.reads ++ [n] }

/-- The rest of the visit of an operation, after its `k` arguments
(`language/interpreter/execute_visitor.cc:185-202`): the arguments are put in front of each other while
they are popped, the results are pushed one after the other. -/
def finishOperation (c : ExecuteContext V) (s : ExecuteState V) (n : Str) (k : Nat) :
    Option (ExecuteState V) :=
  (c.ops n).bind fun op =>
  if op.arity ≤ s.stack.length ∧ k ≤ s.stack.length then
    (op.execute (s.stack.take k).reverse).map fun results =>
      { s with stack := results.reverse ++ s.stack.drop k }
  else none

/-- The rest of the visit of an assignment, after its expression
(`language/interpreter/execute_visitor.cc:103-122`). -/
def finishAssign (c : ExecuteContext V) (s : ExecuteState V) (target : Vid) (n : Str) :
    Option (ExecuteState V) :=
  match s.stack with
  | [] => none
  | x :: stack =>
    (s.table.addValue n x).map fun table =>
      { s with stack := stack, table := table,
               writes := if c.outputs.contains target && c.sync n then s.writes ++ [(n, x)]
                 else s.writes }

end ExecuteState

mutual

/-- The visits of expressions (`language/interpreter/execute_visitor.cc:141-241`). The visit of a
subscript does nothing; that of an attribute is the default one
(`language/ast/visitor/ast_visitor.cc:66-71`). -/
def executeExpr (c : ExecuteContext V) (s : ExecuteState V) : Expr → Option (ExecuteState V)
  | .name _ n => s.useName c n
  | .number _ n => some { s with stack := c.number n :: s.stack }
  | .string _ x => some { s with stack := c.string x :: s.stack }
  | .call _ n args => (executeExprs c s args).bind fun s => s.finishOperation c n args.length
  | .operator _ n args => (executeExprs c s args).bind fun s => s.finishOperation c n args.length
  | .subscript _ _ _ => some s
  | .attribute _ e _ => executeExpr c s e

/-- `visit_expressions` (`language/ast/visitor/ast_visitor.cc:33-39`). -/
def executeExprs (c : ExecuteContext V) (s : ExecuteState V) : List Expr → Option (ExecuteState V)
  | [] => some s
  | e :: es => (executeExpr c s e).bind fun s => executeExprs c s es

end

mutual

/-- The visits of statements (`language/interpreter/execute_visitor.cc:95-138`). The visits of `if` and
`while` do nothing. Function definitions and return statements have the default visits
(`language/ast/visitor/ast_visitor.cc:95-101, 204-211`): the body of a function is executed where it is
defined. -/
def executeStmt (c : ExecuteContext V) (s : ExecuteState V) : Stmt → Option (ExecuteState V)
  | .expr e => executeExpr c s e
  | .assign _ target n e => (executeExpr c s e).bind fun s => s.finishAssign c target n
  | .ifElse _ _ _ _ _ _ _ _ _ => some s
  | .while _ _ _ _ _ _ _ _ _ => some s
  | .function _ _ args _ _ body => (executeExprs c s args).bind fun s => executeStmts c s body
  | .ret _ (some e) => executeExpr c s e
  | .ret _ none => some s

/-- `visit_statements` (`language/ast/visitor/ast_visitor.cc:20-26`). -/
def executeStmts (c : ExecuteContext V) (s : ExecuteState V) : List Stmt → Option (ExecuteState V)
  | [] => some s
  | t :: ts => (executeStmt c s t).bind fun s => executeStmts c s ts

end

/-- `Visit(ModuleVertex&)` (`language/interpreter/execute_visitor.cc:206-216`): the outputs are
determined first. -/
def executeModule (c : ExecuteContext V) (s : ExecuteState V) (m : Module) : Option (ExecuteState V) :=
  (ioModule m).bind fun io => executeStmts { c with outputs := io.outputs.map (·.v) } s m.statements

/-- A new visitor (`language/interpreter/execute_visitor.cc:22-38`). -/
def ExecuteState.initial : ExecuteState V := ⟨[], [[]], [], []⟩

end Fern
