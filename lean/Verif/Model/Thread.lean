import Verif.Model.Syntax
import Verif.Model.Scope

/-!
# Threading: the control flow graph of a module

Model of `language/ast/visitor/thread_visitor.cc` and of the successors of a vertex
(`language/ast/core/ast_vertex.cc:83-169`).
-/

namespace Fern

/-- A threaded function definition: the identity of the definition, which is where control enters, and
the identity of the sentinel of its scope, which is where control leaves. -/
structure Threaded where
  entry : Vid
  exit : Vid
  deriving DecidableEq

/-- The members of the visitor (`language/ast/visitor/thread_visitor.h:54-63`) together with the member
`_successors` of the vertices. Of the function definitions that are being visited only the sentinels of
their scopes are used. The mode is not part of the state: there is a function per mode. -/
structure ThreadState where
  succ : Vid → List Vid
  last : Option Vid
  table : SymbolTable Threaded
  functions : List Vid

namespace ThreadState

/-- `AstVertex::add_successor` (`language/ast/core/ast_vertex.cc:146-151`). -/
def addSuccessor (s : ThreadState) (v w : Vid) : ThreadState :=
  { s with succ := fun x => if x = v then s.succ v ++ [w] else s.succ x }

/-- `AstVertex::set_successor` (`language/ast/core/ast_vertex.cc:164-169`). `none`: the assertion
fails. -/
def setSuccessor (s : ThreadState) (v w : Vid) : Option ThreadState :=
  if s.succ v = [] then some (s.addSuccessor v w) else none

/-- `thread_to` (`language/ast/visitor/thread_visitor.cc:28-35`). -/
def threadTo (s : ThreadState) (v : Vid) : Option ThreadState :=
  match s.last with
  | none => some { s with last := some v }
  | some u => (s.setSuccessor u v).map fun s => { s with last := some v }

/-- `assert(_last_vertex); _last_vertex->set_successor(v); _last_vertex = v;`
(`language/ast/visitor/thread_visitor.cc:301-303, 320-324`). -/
def linkTo (s : ThreadState) (v : Vid) : Option ThreadState :=
  match s.last with
  | none => none
  | some u => (s.setSuccessor u v).map fun s => { s with last := some v }

/-- The rest of the visit of a call, after its arguments
(`language/ast/visitor/thread_visitor.cc:68-86`). -/
def finishCall (s : ThreadState) (v : Vid) (n : Str) : Option ThreadState :=
  (s.threadTo v).bind fun s =>
  match s.table.value n with
  | none => some s
  | some f => (s.threadTo f.entry).map fun s => { s with last := some f.exit }

/-- What happens to the last vertex after a statement
(`language/ast/visitor/thread_visitor.cc:400-413`). -/
def afterStatement (s : ThreadState) (sentinel : Vid) : Option ThreadState :=
  match s.last with
  | none => none
  | some u =>
    match s.succ u with
    | [] => some s
    | w :: _ => if w = sentinel then some { s with last := none } else none

/-- The end of a scope (`language/ast/visitor/thread_visitor.cc:419-426`); `back` is the last statement,
if there is one. -/
def endScope (s : ThreadState) (sentinel : Vid) (back : Option Vid) : Option ThreadState :=
  match s.last with
  | none =>
    match back with
    | none => none
    | some b => if (s.succ b).head? = some sentinel then some { s with last := some sentinel } else none
  | some _ => s.linkTo sentinel

/-- `Visit(ScopeVertex&)` (`language/ast/visitor/thread_visitor.cc:362-431`), `definitions` and `body`
being the two passes over the statements. -/
def scope (s : ThreadState) (v sentinel : Vid) (back : Option Vid)
    (definitions body : ThreadState → Option ThreadState) : Option ThreadState :=
  match s.last with
  | none => none
  | some u =>
    (definitions { s with table := s.table.pushScope, last := some v }).bind fun s =>
    (body { s.addSuccessor u v with last := some v }).bind fun s =>
    (s.endScope sentinel back).bind fun s =>
    s.table.popScope.map fun t => { s with table := t }

/-- `_last_vertex = v` (such as `language/ast/visitor/thread_visitor.cc:107`). -/
def startAt (s : ThreadState) (v : Vid) : ThreadState := { s with last := some v }

end ThreadState

mutual

/-- The visits of expressions, mode `VisitNonFunctionDefinitionStatements`
(`language/ast/visitor/thread_visitor.cc:56-91, 139-269`). -/
def threadExpr (s : ThreadState) : Expr → Option ThreadState
  | .name v _ => s.threadTo v
  | .number v _ => s.threadTo v
  | .string v _ => s.threadTo v
  | .call v n args => (threadExprs s args).bind fun s => s.finishCall v n
  | .operator v _ args => (threadExprs s args).bind fun s => s.threadTo v
  | .subscript v e i => (threadExpr s e).bind fun s => (threadExpr s i).bind fun s => s.threadTo v
  | .attribute v e _ => (threadExpr s e).bind fun s => s.threadTo v

/-- `visit_expressions` (`language/ast/visitor/ast_visitor.cc:33-39`). -/
def threadExprs (s : ThreadState) : List Expr → Option ThreadState
  | [] => some s
  | e :: es => (threadExpr s e).bind fun s => threadExprs s es

end

mutual

/-- The visits of statements, mode `VisitNonFunctionDefinitionStatements`
(`language/ast/visitor/thread_visitor.cc:38-53, 271-360`). -/
def threadStmt (s : ThreadState) : Stmt → Option ThreadState
  | .expr e => threadExpr s e
  | .assign v target _ e =>
    (threadExpr s e).bind fun s => (s.threadTo target).bind fun s => s.threadTo v
  | .ifElse v sentinel c tv ts t fv fs f =>
    (threadExpr s c).bind fun s =>
    (s.linkTo v).bind fun s =>
    (s.scope tv ts (t.getLast?.map Stmt.vid) (fun s => threadDefinitions s t)
      (fun s => threadBody ts s t)).bind fun s =>
    (s.setSuccessor ts sentinel).bind fun s =>
    if f.isEmpty then some (s.startAt sentinel)
    else
      ((s.startAt v).scope fv fs (f.getLast?.map Stmt.vid) (fun s => threadDefinitions s f)
        (fun s => threadBody fs s f)).bind fun s =>
      (s.setSuccessor fs sentinel).map fun s => s.startAt sentinel
  | .while _ _ _ _ _ _ _ _ _ => none
  | .function _ _ _ _ _ _ => some s
  | .ret v e =>
    (match e with
      | none => some s
      | some e => threadExpr s e).bind fun s =>
    (s.threadTo v).bind fun s =>
    match s.functions with
    | [] => none
    | sentinel :: _ => s.setSuccessor v sentinel

/-- The loop over the statements of a scope in the second pass
(`language/ast/visitor/thread_visitor.cc:400-414`). -/
def threadBody (sentinel : Vid) (s : ThreadState) : List Stmt → Option ThreadState
  | [] => some s
  | t :: ts =>
    (threadStmt s t).bind fun s =>
    (s.afterStatement sentinel).bind fun s => threadBody sentinel s ts

/-- The first pass over the statements of a scope: mode `VisitFunctionDefinitionStatements`
(`language/ast/visitor/thread_visitor.cc:94-135, 380-390`). A while statement fails its assertion in
this mode, too (`language/ast/visitor/thread_visitor.cc:345-360`). -/
def threadDefinitions (s : ThreadState) : List Stmt → Option ThreadState
  | [] => some s
  | .function v n args bv bs body :: ts =>
    (threadExprs { s with last := some v, functions := bs :: s.functions } args).bind fun s' =>
    (s'.scope bv bs (body.getLast?.map Stmt.vid) (fun s => threadDefinitions s body)
      (fun s => threadBody bs s body)).bind fun s' =>
    (s'.table.addValue n ⟨v, bs⟩).bind fun table =>
    if s'.last = some bs ∧ s.last ≠ some bs ∧ s'.succ bs = [] then
      threadDefinitions { s' with table := table, last := s.last, functions := s.functions } ts
    else none
  | .while _ _ _ _ _ _ _ _ _ :: _ => none
  | .expr _ :: ts => threadDefinitions s ts
  | .assign _ _ _ _ :: ts => threadDefinitions s ts
  | .ifElse _ _ _ _ _ _ _ _ _ :: ts => threadDefinitions s ts
  | .ret _ _ :: ts => threadDefinitions s ts

end

/-- Vertices without successors and a new visitor. -/
def ThreadState.initial : ThreadState := ⟨fun _ => [], none, [], []⟩

/-- `Visit(ModuleVertex&)` (`language/ast/visitor/thread_visitor.cc:162-173`). -/
def threadModule (m : Module) : Option ThreadState :=
  ((ThreadState.initial.startAt m.v).scope m.scope m.sentinel (m.statements.getLast?.map Stmt.vid)
    (fun s => threadDefinitions s m.statements)
    (fun s => threadBody m.sentinel s m.statements)).bind fun s =>
  match s.last with
  | none => none
  | some u => if s.functions = [] ∧ s.table.empty then s.setSuccessor u m.v else none

end Fern
