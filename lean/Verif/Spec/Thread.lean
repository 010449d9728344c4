import Verif.Model.Syntax

/-!
# The order in which control passes the vertices of a module

Written down from the shape of the syntax tree alone, without successors. A set of traces says which
sequences of vertices control may pass; there is more than one because of `if`.
-/

namespace Fern

/-- A set of sequences of vertices. -/
abbrev Traces := List Vid → Prop

namespace Traces

/-- Nothing is passed. -/
def none : Traces := fun l => l = []

/-- Only this vertex is passed. -/
def one (v : Vid) : Traces := fun l => l = [v]

/-- First one, then the other. -/
def andThen (a b : Traces) : Traces := fun l => ∃ x y, l = x ++ y ∧ a x ∧ b y

/-- Either. -/
def or (a b : Traces) : Traces := fun l => a l ∨ b l

end Traces

/-- What a call of a name passes: for the names of the functions that can be called, the vertex of the
definition and the traces behind it. -/
abbrev FunctionTraces := Str → Option (Vid × Traces)

mutual

/-- Operands in order, then the operation; a call of a function passes its definition as well. -/
def exprTraces (g : FunctionTraces) : Expr → Traces
  | .name v _ => .one v
  | .number v _ => .one v
  | .string v _ => .one v
  | .call v n args =>
    (exprsTraces g args).andThen ((Traces.one v).andThen
      (match g n with
        | none => .none
        | some (d, t) => (Traces.one d).andThen t))
  | .operator v _ args => (exprsTraces g args).andThen (.one v)
  | .subscript v e i => (exprTraces g e).andThen ((exprTraces g i).andThen (.one v))
  | .attribute v e _ => (exprTraces g e).andThen (.one v)

/-- One expression after the other. -/
def exprsTraces (g : FunctionTraces) : List Expr → Traces
  | [] => .none
  | e :: es => (exprTraces g e).andThen (exprsTraces g es)

end

/-- A name gets (other) traces. -/
def FunctionTraces.define (g : FunctionTraces) (n : Str) (d : Vid) (t : Traces) : FunctionTraces :=
  fun n' => if n' = n then some (d, t) else g n'

mutual

/-- An assignment: its expression, its target, itself. An `if`: its condition, itself, then one of its
scopes, the one for false only if there are statements in it, and then its sentinel. -/
def stmtTraces (g : FunctionTraces) : Stmt → Traces
  | .expr e => exprTraces g e
  | .assign v target _ e => (exprTraces g e).andThen ((Traces.one target).andThen (.one v))
  | .ifElse v sentinel c tv ts t fv fs f =>
    (exprTraces g c).andThen ((Traces.one v).andThen
      ((if f.isEmpty then
          (Traces.one tv).andThen ((bodyTraces (definitionTraces g t) t).andThen (.one ts))
        else
          ((Traces.one tv).andThen ((bodyTraces (definitionTraces g t) t).andThen (.one ts))).or
          ((Traces.one fv).andThen ((bodyTraces (definitionTraces g f) f).andThen (.one fs)))).andThen
        (.one sentinel)))
  | .while _ _ _ _ _ _ _ _ _ => .none
  | .function _ _ _ _ _ _ => .none
  | .ret v none => .one v
  | .ret v (some e) => (exprTraces g e).andThen (.one v)

/-- Statements in order; nothing is passed after a return statement. -/
def bodyTraces (g : FunctionTraces) : List Stmt → Traces
  | [] => .none
  | .ret v e :: _ => stmtTraces g (.ret v e)
  | t :: ts => (stmtTraces g t).andThen (bodyTraces g ts)

/-- What can be called in a scope with these statements. A function can call those that are defined
before it. Control passes the parameters of a function, its scope, the statements and the sentinel of the
scope. -/
def definitionTraces (g : FunctionTraces) : List Stmt → FunctionTraces
  | [] => g
  | .function v n args bv bs body :: ts =>
    definitionTraces (g.define n v ((exprsTraces g args).andThen ((Traces.one bv).andThen
      ((bodyTraces (definitionTraces g body) body).andThen (.one bs))))) ts
  | _ :: ts => definitionTraces g ts

end

/-- From the module vertex: the scope, its statements, its sentinel, and the module vertex again. -/
def moduleTraces (m : Module) : Traces :=
  (Traces.one m.scope).andThen
    ((bodyTraces (definitionTraces (fun _ => none) m.statements) m.statements).andThen
      ((Traces.one m.sentinel).andThen (.one m.v)))

/-- Following successors: `FirstPath succ m u l` if the vertices of `l` can be passed one after the other
starting from `u`, each being a successor of the one before, until `m` is reached for the first time. -/
inductive FirstPath (succ : Vid → List Vid) (m : Vid) : Vid → List Vid → Prop
  | reached {u : Vid} : m ∈ succ u → FirstPath succ m u [m]
  | step {u x : Vid} {l : List Vid} : x ∈ succ u → x ≠ m → FirstPath succ m x l →
      FirstPath succ m u (x :: l)

mutual

/-- The identities of all vertices of an expression. -/
def Expr.vids : Expr → List Vid
  | .name v _ | .number v _ | .string v _ => [v]
  | .call v _ args | .operator v _ args => v :: Expr.listVids args
  | .subscript v e i => v :: (e.vids ++ i.vids)
  | .attribute v e _ => v :: e.vids

@[inherit_doc Expr.vids]
def Expr.listVids : List Expr → List Vid
  | [] => []
  | e :: es => e.vids ++ Expr.listVids es

end

mutual

/-- The identities of all vertices of a statement, including scopes and sentinels. -/
def Stmt.vids : Stmt → List Vid
  | .expr e => e.vids
  | .assign v target _ e => v :: target :: e.vids
  | .ifElse v sentinel c tv ts t fv fs f | .while v sentinel c tv ts t fv fs f =>
    v :: sentinel :: (c.vids ++ tv :: ts :: (Stmt.listVids t ++ fv :: fs :: Stmt.listVids f))
  | .function v _ args bv bs body => v :: (Expr.listVids args ++ bv :: bs :: Stmt.listVids body)
  | .ret v none => [v]
  | .ret v (some e) => v :: e.vids

@[inherit_doc Stmt.vids]
def Stmt.listVids : List Stmt → List Vid
  | [] => []
  | t :: ts => t.vids ++ Stmt.listVids ts

end

mutual

/-- The parameters of the functions that are defined are names. The parser only makes such functions. -/
def Stmt.namedParameters : Stmt → Prop
  | .ifElse _ _ _ _ _ t _ _ f | .while _ _ _ _ _ t _ _ f =>
    Stmt.listNamedParameters t ∧ Stmt.listNamedParameters f
  | .function _ _ args _ _ body => (∀ a ∈ args, ∃ v n, a = .name v n) ∧ Stmt.listNamedParameters body
  | .expr _ | .assign _ _ _ _ | .ret _ _ => True

@[inherit_doc Stmt.namedParameters]
def Stmt.listNamedParameters : List Stmt → Prop
  | [] => True
  | t :: ts => t.namedParameters ∧ Stmt.listNamedParameters ts

end

/-- The functions that can be called. A function is identified by the sentinel of its scope. -/
abbrev Callable := Str → Option Vid

/-- A name gets (other) meaning. -/
def Callable.define (g : Callable) (n : Str) (f : Vid) : Callable := fun n' => if n' = n then some f else g n'

/-- The functions that can be called in a scope with these statements. -/
def callables (g : Callable) : List Stmt → Callable
  | [] => g
  | .function _ n _ _ bs _ :: ts => callables (g.define n bs) ts
  | _ :: ts => callables g ts

mutual

/-- The functions that an expression calls, one entry per call. -/
def exprCalls (g : Callable) : Expr → List Vid
  | .name _ _ | .number _ _ | .string _ _ => []
  | .call _ n args => exprsCalls g args ++ (g n).toList
  | .operator _ _ args => exprsCalls g args
  | .subscript _ e i => exprCalls g e ++ exprCalls g i
  | .attribute _ e _ => exprCalls g e

@[inherit_doc exprCalls]
def exprsCalls (g : Callable) : List Expr → List Vid
  | [] => []
  | e :: es => exprCalls g e ++ exprsCalls g es

end

mutual

/-- The functions that are called in a statement, one entry per call, without those that are called in
the functions that it defines. -/
def stmtCalls (g : Callable) : Stmt → List Vid
  | .expr e => exprCalls g e
  | .assign _ _ _ e => exprCalls g e
  | .ifElse _ _ c _ _ t _ _ f =>
    exprCalls g c ++ ((definitionCalls g t ++ bodyCalls (callables g t) t) ++
      (definitionCalls g f ++ bodyCalls (callables g f) f))
  | .while _ _ _ _ _ _ _ _ _ => []
  | .function _ _ _ _ _ _ => []
  | .ret _ none => []
  | .ret _ (some e) => exprCalls g e

@[inherit_doc stmtCalls]
def bodyCalls (g : Callable) : List Stmt → List Vid
  | [] => []
  | t :: ts => stmtCalls g t ++ bodyCalls g ts

/-- The functions that are called in the functions that are defined in a scope. -/
def definitionCalls (g : Callable) : List Stmt → List Vid
  | [] => []
  | .function _ n args _ bs body :: ts =>
    (exprsCalls g args ++ (definitionCalls g body ++ bodyCalls (callables g body) body)) ++
      definitionCalls (g.define n bs) ts
  | _ :: ts => definitionCalls g ts

end

/-- The functions that are called anywhere in a module, one entry per call in the source. -/
def Module.calls (m : Module) : List Vid :=
  definitionCalls (fun _ => none) m.statements ++
    bodyCalls (callables (fun _ => none) m.statements) m.statements

/-- A return statement that is directly followed by a function definition. -/
def Stmt.retThenFunction : Stmt → List Stmt → Bool
  | .ret _ _, .function _ _ _ _ _ _ :: _ => true
  | _, _ => false

mutual

/-- There are no loops, and return statements are only directly in function bodies (`direct`) and not
directly followed by function definitions. -/
def Stmt.fits (direct : Bool) : Stmt → Bool
  | .expr _ | .assign _ _ _ _ => true
  | .ifElse _ _ _ _ _ t _ _ f => Stmt.listFits false t && Stmt.listFits false f
  | .while _ _ _ _ _ _ _ _ _ => false
  | .function _ _ _ _ _ body => Stmt.listFits true body
  | .ret _ _ => direct

@[inherit_doc Stmt.fits]
def Stmt.listFits (direct : Bool) : List Stmt → Bool
  | [] => true
  | t :: ts => t.fits direct && !t.retThenFunction ts && Stmt.listFits direct ts

end

/-- The identities of all vertices of a module. -/
def Module.vids (m : Module) : List Vid := m.v :: m.scope :: m.sentinel :: Stmt.listVids m.statements

mutual

/-- There are only expressions, assignments and `if` statements. -/
def Stmt.basic : Stmt → Bool
  | .expr _ | .assign _ _ _ _ => true
  | .ifElse _ _ _ _ _ t _ _ f => Stmt.listBasic t && Stmt.listBasic f
  | .while _ _ _ _ _ _ _ _ _ | .function _ _ _ _ _ _ | .ret _ _ => false

@[inherit_doc Stmt.basic]
def Stmt.listBasic : List Stmt → Bool
  | [] => true
  | t :: ts => t.basic && Stmt.listBasic ts

end

/-- There are only expressions and assignments. -/
def Stmt.straight : Stmt → Bool
  | .expr _ | .assign _ _ _ _ => true
  | _ => false

mutual

/-- The vertices of the expressions and statements in a statement: all but scopes and sentinels. -/
def Stmt.nodes : Stmt → List Vid
  | .expr e => e.vids
  | .assign v target _ e => v :: target :: e.vids
  | .ifElse v _ c _ _ t _ _ f | .while v _ c _ _ t _ _ f =>
    v :: (c.vids ++ (Stmt.listNodes t ++ Stmt.listNodes f))
  | .function v _ args _ _ body => v :: (Expr.listVids args ++ Stmt.listNodes body)
  | .ret v none => [v]
  | .ret v (some e) => v :: e.vids

@[inherit_doc Stmt.nodes]
def Stmt.listNodes : List Stmt → List Vid
  | [] => []
  | t :: ts => t.nodes ++ Stmt.listNodes ts

end

mutual

/-- Which vertex has to be evaluated before which other one: operands before operations. -/
def Expr.needs : Expr → List (Vid × Vid)
  | .name _ _ | .number _ _ | .string _ _ => []
  | .call v _ args | .operator v _ args => args.map (fun a => (a.vid, v)) ++ Expr.listNeeds args
  | .subscript v e i => (e.vid, v) :: (i.vid, v) :: (e.needs ++ i.needs)
  | .attribute v e _ => (e.vid, v) :: e.needs

@[inherit_doc Expr.needs]
def Expr.listNeeds : List Expr → List (Vid × Vid)
  | [] => []
  | e :: es => e.needs ++ Expr.listNeeds es

end

mutual

/-- Also: the expression of an assignment before the target and the assignment, the condition of an `if`
statement before the statement and the statement before the statements in it. -/
def Stmt.needs : Stmt → List (Vid × Vid)
  | .expr e => e.needs
  | .assign v target _ e => (e.vid, target) :: (target, v) :: e.needs
  | .ifElse v _ c _ _ t _ _ f | .while v _ c _ _ t _ _ f =>
    (c.vid, v) :: (c.needs ++ ((Stmt.listNodes t ++ Stmt.listNodes f).map (fun x => (v, x)) ++
      (Stmt.listNeeds t ++ Stmt.listNeeds f)))
  | .function _ _ _ _ _ body => Stmt.listNeeds body
  | .ret _ none => []
  | .ret v (some e) => (e.vid, v) :: e.needs

@[inherit_doc Stmt.needs]
def Stmt.listNeeds : List Stmt → List (Vid × Vid)
  | [] => []
  | t :: ts => t.needs ++ Stmt.listNeeds ts

end

mutual

/-- Source order: everything in a statement comes before everything in the statements behind it. -/
def Stmt.order : Stmt → List (Vid × Vid)
  | .expr _ | .assign _ _ _ _ | .ret _ _ => []
  | .ifElse _ _ _ _ _ t _ _ f | .while _ _ _ _ _ t _ _ f => Stmt.listOrder t ++ Stmt.listOrder f
  | .function _ _ _ _ _ body => Stmt.listOrder body

@[inherit_doc Stmt.order]
def Stmt.listOrder : List Stmt → List (Vid × Vid)
  | [] => []
  | t :: ts =>
    t.order ++ (t.nodes.flatMap (fun x => (Stmt.listNodes ts).map (fun y => (x, y))) ++ Stmt.listOrder ts)

end

end Fern
