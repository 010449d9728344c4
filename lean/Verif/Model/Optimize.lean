import Verif.Model.Identify

/-!
# Inlining of names that are used once

Model of `language/ast/visitor/optimize_visitor.cc`. The visitor works on a module whose names have
been identified: it uses the members `_definitions` and `_uses` of the name vertices, and the values of
the targets of assignments. Neither is changed by the visitor.
-/

namespace Fern

mutual

/-- The values of the targets of assignments: `AssignmentVertex::AssignmentVertex`
(`language/ast/core/assignment_vertex.cc:16-30`) sets the target's value. `set_expression` (lines 45-50)
does not change it, so it remains the expression of the tree as it was parsed. -/
def targetValuesStmt : Stmt → List (Vid × Expr)
  | .assign _ target _ e => [(target, e)]
  | .ifElse _ _ _ _ _ t _ _ f => targetValues t ++ targetValues f
  | .while _ _ _ _ _ t _ _ f => targetValues t ++ targetValues f
  | .function _ _ _ _ _ body => targetValues body
  | .expr _ => []
  | .ret _ _ => []

/-- The values of the targets in statements. -/
def targetValues : List Stmt → List (Vid × Expr)
  | [] => []
  | t :: ts => targetValuesStmt t ++ targetValues ts

end

/-- What is known about name vertices: `definitions()`, `uses()` and `value()`. A missing value is a
null pointer. -/
structure OptimizeContext where
  definitions : Vid → List Vid
  uses : Vid → List Vid
  value : Vid → Option Expr

/-- `_inline_expressions`, a map from the use of a name to the expression to put there,
`_inlined_expressions` and `_superfluous_statements`
(`language/ast/visitor/optimize_visitor.h`). -/
structure OptimizeState where
  inline : List (Vid × Expr)
  inlined : List Expr
  superfluous : List Vid

/-- The containers before the visits. -/
def OptimizeState.initial : OptimizeState := ⟨[], [], []⟩

/-- The assertions in `Visit(ModuleVertex&)` (`language/ast/visitor/optimize_visitor.cc:150-152,
166-168`). -/
def OptimizeState.isInitial (s : OptimizeState) : Bool :=
  s.inline.isEmpty && s.inlined.isEmpty && s.superfluous.isEmpty

/-- `Visit(NameVertex&)`, mode `Using` (`language/ast/visitor/optimize_visitor.cc:119-135`), with
`register_expression_for_inlining` (lines 27-32). Putting a null pointer in the map leads to a failing
assertion later on, either in `set_expression` or at the end of `Visit(ModuleVertex&)`; the model fails
here. -/
def optimizeName (c : OptimizeContext) (s : OptimizeState) (v : Vid) : Option OptimizeState :=
  match c.definitions v with
  | [d] =>
    match c.uses d with
    | [u] =>
      if u = v then do
        let e ← c.value d
        some { s with inline := s.inline.filter (fun p => p.1 != v) ++ [(v, e)] }
      else none
    | _ => some s
  | _ => some s

mutual

/-- The visits of expressions, mode `Using` (`language/ast/visitor/ast_visitor.cc:66-71, 110-114,
144-193, 248-268` for all but names). -/
def optimizeExpr (c : OptimizeContext) (s : OptimizeState) : Expr → Option OptimizeState
  | .name v _ => optimizeName c s v
  | .number _ _ => some s
  | .string _ _ => some s
  | .call _ _ args => optimizeExprs c s args
  | .operator _ _ args => optimizeExprs c s args
  | .subscript _ e i => (optimizeExpr c s e).bind fun s => optimizeExpr c s i
  | .attribute _ e _ => optimizeExpr c s e

/-- `visit_expressions` (`language/ast/visitor/ast_visitor.cc:33-39`). -/
def optimizeExprs (c : OptimizeContext) (s : OptimizeState) : List Expr → Option OptimizeState
  | [] => some s
  | e :: es => (optimizeExpr c s e).bind fun s => optimizeExprs c s es

end

/-- `Visit(AssignmentVertex&)`, mode `Using`, after the visit of the expression
(`language/ast/visitor/optimize_visitor.cc:86-94`): the expression the assignment has afterwards. -/
def optimizeReplace (s : OptimizeState) (e : Expr) : Expr × OptimizeState :=
  match s.inline.find? (fun p => p.1 == e.vid) with
  | some p =>
    (p.2, { s with
      inline := s.inline.filter (fun q => q.1 != e.vid)
      inlined := s.inlined ++ [p.2] })
  | none => (e, s)

mutual

/-- The visits of statements, mode `Using` (`language/ast/visitor/optimize_visitor.cc:83-97`; for
statements other than assignments `language/ast/visitor/ast_visitor.cc:95-101, 125-132, 204-211,
291-298`). -/
def optimizeUseStmt (c : OptimizeContext) (s : OptimizeState) : Stmt → Option (Stmt × OptimizeState)
  | .expr e => (optimizeExpr c s e).map fun s => (.expr e, s)
  | .assign v target n e => (optimizeExpr c s e).map fun s =>
    (.assign v target n (optimizeReplace s e).1, (optimizeReplace s e).2)
  | .ifElse v sv e tv ts t fv fs f =>
    (optimizeExpr c s e).bind fun s =>
    (optimizeUseStmts c s t).bind fun (t, s) =>
    (optimizeUseStmts c s f).map fun (f, s) => (.ifElse v sv e tv ts t fv fs f, s)
  | .while v sv e tv ts t fv fs f =>
    (optimizeExpr c s e).bind fun s =>
    (optimizeUseStmts c s t).bind fun (t, s) =>
    (optimizeUseStmts c s f).map fun (f, s) => (.while v sv e tv ts t fv fs f, s)
  | .function v n args bv bs body =>
    (optimizeExprs c s args).bind fun s =>
    (optimizeUseStmts c s body).map fun (body, s) => (.function v n args bv bs body, s)
  | .ret v (some e) => (optimizeExpr c s e).map fun s => (.ret v (some e), s)
  | .ret v none => some (.ret v none, s)

/-- `visit_statements`, mode `Using` (`language/ast/visitor/optimize_visitor.cc:35-43`). -/
def optimizeUseStmts (c : OptimizeContext) (s : OptimizeState) : List Stmt →
    Option (List Stmt × OptimizeState)
  | [] => some ([], s)
  | t :: ts =>
    (optimizeUseStmt c s t).bind fun (t, s) =>
    (optimizeUseStmts c s ts).map fun (ts, s) => (t :: ts, s)

end

/-- `visit_statements`, mode `Defining`, after the visits of the statements
(`language/ast/visitor/optimize_visitor.cc:44-73`): the superfluous statements that are in the
collection are removed from it, and from the superfluous ones. A statement is visited once, so it is
superfluous at most once. -/
def optimizeErase (s : OptimizeState) (l : List Stmt) : List Stmt × OptimizeState :=
  (l.filter fun t => !s.superfluous.contains t.vid,
    { s with superfluous := s.superfluous.filter fun v => !(l.map Stmt.vid).contains v })

/-- `Visit(AssignmentVertex&)`, mode `Defining` (`language/ast/visitor/optimize_visitor.cc:98-110`):
`std::find` compares pointers. The visit of the target does nothing. -/
def optimizeDefine (s : OptimizeState) (v : Vid) (e : Expr) : OptimizeState :=
  if s.inlined.any (fun x => x.vid == e.vid) then
    { s with
      superfluous := s.superfluous ++ [v]
      inlined := s.inlined.eraseP fun x => x.vid == e.vid }
  else s

mutual

/-- The visits of statements, mode `Defining`. The visits of expressions do nothing
(`language/ast/visitor/optimize_visitor.cc:136-138`). -/
def optimizeDefineStmt (s : OptimizeState) : Stmt → Stmt × OptimizeState
  | .expr e => (.expr e, s)
  | .assign v target n e => (.assign v target n e, optimizeDefine s v e)
  | .ifElse v sv e tv ts t fv fs f =>
    let (t, s) := optimizeDefineVisits s t
    let (t, s) := optimizeErase s t
    let (f, s) := optimizeDefineVisits s f
    let (f, s) := optimizeErase s f
    (.ifElse v sv e tv ts t fv fs f, s)
  | .while v sv e tv ts t fv fs f =>
    let (t, s) := optimizeDefineVisits s t
    let (t, s) := optimizeErase s t
    let (f, s) := optimizeDefineVisits s f
    let (f, s) := optimizeErase s f
    (.while v sv e tv ts t fv fs f, s)
  | .function v n args bv bs body =>
    let (body, s) := optimizeDefineVisits s body
    let (body, s) := optimizeErase s body
    (.function v n args bv bs body, s)
  | .ret v e => (.ret v e, s)

/-- The loop over the statements in `visit_statements`, mode `Defining`
(`language/ast/visitor/optimize_visitor.cc:38`). -/
def optimizeDefineVisits (s : OptimizeState) : List Stmt → List Stmt × OptimizeState
  | [] => ([], s)
  | t :: ts =>
    let (t, s) := optimizeDefineStmt s t
    let (ts, s) := optimizeDefineVisits s ts
    (t :: ts, s)

end

/-- `visit_statements`, mode `Defining` (`language/ast/visitor/optimize_visitor.cc:35-75`). -/
def optimizeDefineStmts (s : OptimizeState) (l : List Stmt) : List Stmt × OptimizeState :=
  optimizeErase (optimizeDefineVisits s l).2 (optimizeDefineVisits s l).1

/-- The second part of the body of the loop in `Visit(ModuleVertex&)`
(`language/ast/visitor/optimize_visitor.cc:158-168`): whether expressions have been inlined, the visit in
mode `Defining` and the assertions. -/
def optimizeRoundEnd (s : OptimizeState) (l : List Stmt) : Option (List Stmt × Bool) :=
  if (optimizeDefineStmts s l).2.isInitial then
    some ((optimizeDefineStmts s l).1, !s.inlined.isEmpty)
  else none

/-- The body of the loop in `Visit(ModuleVertex&)` (`language/ast/visitor/optimize_visitor.cc:148-168`),
which starts with empty containers: the statements afterwards and whether expressions have been
inlined. -/
def optimizeRound (c : OptimizeContext) (l : List Stmt) : Option (List Stmt × Bool) :=
  (optimizeUseStmts c .initial l).bind fun p => optimizeRoundEnd p.2 p.1

/-- The loop in `Visit(ModuleVertex&)` (`language/ast/visitor/optimize_visitor.cc:148-169`), with a
bound on the number of repetitions; `none` is a failing assertion or a bound that is too small.
`C61_terminates` shows that the bound in `optimizeModule` is large enough. -/
def optimizeRounds (c : OptimizeContext) : Nat → List Stmt → Option (List Stmt)
  | 0, _ => none
  | k + 1, l =>
    match optimizeRound c l with
    | none => none
    | some (l', true) => optimizeRounds c k l'
    | some (l', false) => some l'

mutual

/-- The number of statements. -/
def Stmt.count : Stmt → Nat
  | .expr _ => 1
  | .assign _ _ _ _ => 1
  | .ifElse _ _ _ _ _ t _ _ f => 1 + Stmt.counts t + Stmt.counts f
  | .while _ _ _ _ _ t _ _ f => 1 + Stmt.counts t + Stmt.counts f
  | .function _ _ _ _ _ body => 1 + Stmt.counts body
  | .ret _ _ => 1

/-- The number of statements, at whatever depth. -/
def Stmt.counts : List Stmt → Nat
  | [] => 0
  | t :: ts => t.count + Stmt.counts ts

end

/-- What the visitor knows about the names of a module that has been identified. -/
def OptimizeContext.ofModule (i : IdentifyState) (m : Module) : OptimizeContext where
  definitions := i.definitions
  uses := i.uses
  value := fun d => ((targetValues m.statements).find? fun p => p.1 == d).map (·.2)

/-- `Visit(ModuleVertex&)` (`language/ast/visitor/optimize_visitor.cc:143-170`). -/
def optimizeModule (i : IdentifyState) (m : Module) : Option Module :=
  (optimizeRounds (.ofModule i m) (Stmt.counts m.statements + 1) m.statements).map fun l =>
    { m with statements := l }

end Fern
