import Verif.Spec.Thread
import Verif.Spec.Identify
import Verif.Spec.Execute
import Verif.Model.Dot

/-!
# What the graphs of a module have to show

Written down from the shape of the syntax tree.
-/

namespace Fern.Dot.Spec

open Fern.Spec

/-! ### What can be seen in a graph -/

/-- The vertices drawn. -/
def nodes (l : List Item) : List Vid :=
  l.filterMap fun
    | .node v _ _ => some v
    | _ => none

/-- The edges drawn with these attributes. -/
def edges (attributes : Str) (l : List Item) : List (Vid × Vid) :=
  l.filterMap fun
    | .edge a b x => if x = attributes then some (a, b) else none
    | _ => none

/-- Edges of the syntax tree and of the flow of data have no attributes. -/
def plain : Str := []

/-- Edges of the flow of control. -/
def control : Str := "color=\"/spectral11/3\", constraint=false, style=dashed, penwidth=2.0".toList

/-- Edges from definitions to uses. -/
def uses : Str := "color=\"/spectral11/8\", constraint=false, style=dashed, penwidth=2.0".toList

/-- The boxes drawn: every edge without attributes with the box it is in, `stack` being the boxes that are
open. `none` if a box is closed that was not opened. The result also has the boxes left open. -/
def boxes (stack : List (Vid × Str)) : List Item →
    Option (List (Option (Vid × Str) × Vid × Vid) × List (Vid × Str))
  | [] => some ([], stack)
  | .node _ _ _ :: l => boxes stack l
  | .edge a b x :: l =>
    (boxes stack l).map fun r => (if x = plain then (stack.head?, a, b) :: r.1 else r.1, r.2)
  | .cluster v label :: l => boxes ((v, label) :: stack) l
  | .box k :: l => boxes ((k, []) :: stack) l
  | .close :: l =>
    match stack with
    | [] => none
    | _ :: stack => boxes stack l

/-! ### The tree -/

mutual

/-- The vertices of an expression that are not drawn: those of attributes. -/
def exprHidden : Expr → List Vid
  | .name _ _ | .number _ _ | .string _ _ => []
  | .call _ _ args | .operator _ _ args => exprsHidden args
  | .subscript _ e i => exprHidden e ++ exprHidden i
  | .attribute v e _ => v :: exprHidden e

@[inherit_doc exprHidden]
def exprsHidden : List Expr → List Vid
  | [] => []
  | e :: es => exprHidden e ++ exprsHidden es

end

mutual

/-- The vertices of a statement that are not drawn: those of attributes, the sentinels of `if` and `while`
and everything in the parameters of functions. -/
def stmtHidden : Stmt → List Vid
  | .expr e => exprHidden e
  | .assign _ _ _ e => exprHidden e
  | .ifElse _ sentinel c _ _ t _ _ f | .while _ sentinel c _ _ t _ _ f =>
    sentinel :: (exprHidden c ++ (stmtsHidden t ++ stmtsHidden f))
  | .function _ _ args _ _ body => Expr.listVids args ++ stmtsHidden body
  | .ret _ none => []
  | .ret _ (some e) => exprHidden e

@[inherit_doc stmtHidden]
def stmtsHidden : List Stmt → List Vid
  | [] => []
  | s :: ss => stmtHidden s ++ stmtsHidden ss

end

/-- The vertices of a module that are not drawn. -/
def hidden (m : Module) : List Vid := m.v :: stmtsHidden m.statements

mutual

/-- The expressions in an expression that are drawn, the expression itself first. -/
def exprTerms : Expr → List Expr
  | .name v n => [.name v n]
  | .number v n => [.number v n]
  | .string v s => [.string v s]
  | .call v n args => .call v n args :: exprsTerms args
  | .operator v n args => .operator v n args :: exprsTerms args
  | .subscript v e i => .subscript v e i :: (exprTerms e ++ exprTerms i)
  | .attribute _ e _ => exprTerms e

@[inherit_doc exprTerms]
def exprsTerms : List Expr → List Expr
  | [] => []
  | e :: es => exprTerms e ++ exprsTerms es

end

mutual

/-- A statement and the statements in it. -/
def stmtAll : Stmt → List Stmt
  | .ifElse v x c tv ts t fv fs f => .ifElse v x c tv ts t fv fs f :: (stmtsAll t ++ stmtsAll f)
  | .while v x c tv ts t fv fs f => .while v x c tv ts t fv fs f :: (stmtsAll t ++ stmtsAll f)
  | .function v n args bv bs body => .function v n args bv bs body :: stmtsAll body
  | .expr e => [.expr e]
  | .assign v x n e => [.assign v x n e]
  | .ret v e => [.ret v e]

@[inherit_doc stmtAll]
def stmtsAll : List Stmt → List Stmt
  | [] => []
  | s :: ss => stmtAll s ++ stmtsAll ss

end

/-- The expression of a statement: what is evaluated when control passes the statement. -/
def expression? : Stmt → Option Expr
  | .expr e => some e
  | .assign _ _ _ e => some e
  | .ifElse _ _ c _ _ _ _ _ _ => some c
  | .while _ _ c _ _ _ _ _ _ => some c
  | .function _ _ _ _ _ _ => none
  | .ret _ e => e

/-- The scopes of a statement: their vertices, those of their sentinels, and the statements in them. -/
def scopes : Stmt → List (Vid × Vid × List Stmt)
  | .ifElse _ _ _ tv ts t fv fs f => [(tv, ts, t), (fv, fs, f)]
  | .while _ _ _ tv ts t fv fs f => [(tv, ts, t), (fv, fs, f)]
  | .function _ _ _ bv bs body => [(bv, bs, body)]
  | .expr _ | .assign _ _ _ _ | .ret _ _ => []

/-- All scopes of a module. -/
def allScopes (m : Module) : List (Vid × Vid × List Stmt) :=
  (m.scope, m.sentinel, m.statements) :: (stmtsAll m.statements).flatMap scopes

/-- All expressions of a module that are drawn, the targets of assignments left out. -/
def allTerms (m : Module) : List Expr :=
  (stmtsAll m.statements).flatMap fun s => (expression? s).toList.flatMap exprTerms

/-- The operands of an expression. -/
def operands : Expr → List Expr
  | .call _ _ args | .operator _ _ args => args
  | .subscript _ e i => [e, i]
  | .name _ _ | .number _ _ | .string _ _ | .attribute _ _ _ => []

/-- The targets of a statement. -/
def targets : Stmt → List Vid
  | .assign _ target _ _ => [target]
  | _ => []

/-- Whether a statement has a vertex besides that of its expression. -/
def hasVertex : Stmt → Bool
  | .expr _ => false
  | _ => true

/-- The edges from a statement to its parts: the target and the expression. -/
def statementEdges (s : Stmt) : List (Vid × Vid) :=
  if hasVertex s then (targets s ++ (expression? s).toList.map Expr.vid).map fun b => (s.vid, b) else []

/-- The edges of the syntax tree: from operations to operands, from statements to their parts, from scopes
to the statements in them. -/
def treeEdges (m : Module) : List (Vid × Vid) :=
  (allTerms m).flatMap (fun e => (operands e).map fun x => (e.vid, x.vid)) ++
  ((stmtsAll m.statements).flatMap statementEdges ++
  (allScopes m).flatMap fun x => x.2.2.map fun s => (x.1, s.vid))

/-- The vertices that no edge of the syntax tree leads to: scopes and sentinels. -/
def roots (m : Module) : List Vid := (allScopes m).flatMap fun x => [x.1, x.2.1]

/-- No attributes are used. -/
def NoAttributes (m : Module) : Prop :=
  ∀ s ∈ stmtsAll m.statements, ∀ e, expression? s = some e → exprHidden e = []

/-- The edges of an expression, in the order of the source. -/
def termEdges (e : Expr) : List (Vid × Vid) :=
  (exprTerms e).flatMap fun x => (operands x).map fun y => (x.vid, y.vid)

/-- The edges that belong to a statement itself. -/
def ownEdges (s : Stmt) : List (Vid × Vid) :=
  statementEdges s ++ (expression? s).toList.flatMap termEdges

mutual

/-- The edges of a statement in the box `box`, with the boxes they belong in: an edge of the statement itself
in the box of the scope the statement is in, the edges of the statements in a scope of the statement in the
box of that scope. The box of a scope has the name of the function or the module that it is part of. -/
def stmtBoxes (box : Vid × Str) : Stmt → List (Option (Vid × Str) × Vid × Vid)
  | .expr e => (ownEdges (.expr e)).map fun x => (some box, x)
  | .assign v x n e => (ownEdges (.assign v x n e)).map fun x => (some box, x)
  | .ifElse v x c tv ts t fv fs f =>
    (ownEdges (.ifElse v x c tv ts t fv fs f)).map (fun x => (some box, x)) ++
      ((t.map fun s => (some (tv, box.2), tv, s.vid)) ++ (stmtsBoxes (tv, box.2) t ++
      ((f.map fun s => (some (fv, box.2), fv, s.vid)) ++ stmtsBoxes (fv, box.2) f)))
  | .while v x c tv ts t fv fs f =>
    (ownEdges (.while v x c tv ts t fv fs f)).map (fun x => (some box, x)) ++
      ((t.map fun s => (some (tv, box.2), tv, s.vid)) ++ (stmtsBoxes (tv, box.2) t ++
      ((f.map fun s => (some (fv, box.2), fv, s.vid)) ++ stmtsBoxes (fv, box.2) f)))
  | .function _ n _ bv _ body => (body.map fun s => (some (bv, n), bv, s.vid)) ++ stmtsBoxes (bv, n) body
  | .ret v e => (ownEdges (.ret v e)).map fun x => (some box, x)

@[inherit_doc stmtBoxes]
def stmtsBoxes (box : Vid × Str) : List Stmt → List (Option (Vid × Str) × Vid × Vid)
  | [] => []
  | s :: ss => stmtBoxes box s ++ stmtsBoxes box ss

end

/-- The edges of a module with the boxes they belong in. -/
def moduleBoxes (source : Str) (m : Module) : List (Option (Vid × Str) × Vid × Vid) :=
  (m.statements.map fun s => (some (m.scope, source), m.scope, s.vid)) ++
    stmtsBoxes (m.scope, source) m.statements

/-- The steps of a module: the vertices that the flow of control is drawn from. Those of `if`, `while` and
return statements, of function definitions, scopes and sentinels are not among them. -/
def steps (m : Module) : List Vid :=
  (allTerms m).map Expr.vid ++ (stmtsAll m.statements).flatMap fun
    | .assign v target _ _ => [v, target]
    | _ => []

/-! ### Labels -/

/-- What is said about types: the only type there is, or that nothing is known. -/
def typeText : ExpressionTypes → Str
  | [t] => "dt: ".toList ++ t.data.toString ++ "\\nvt: ".toList ++ t.value.toString
  | _ => "dt: -\\nvt: -".toList

/-- The label that shows an expression of which `types` are the types. -/
def caption (fmt : FloatFormat) (types : ExpressionTypes) : Expr → Str
  | .name _ n => n ++ "\\n".toList ++ typeText types
  | .number _ n => numberText fmt n ++ "\\n".toList ++ typeText types
  | .string _ s => "\\\"".toList ++ s ++ "\\\"".toList
  | .call _ n _ => n ++ "\\n".toList ++ typeText types
  | .operator _ n args => (nameToSymbol n args.length).getD [] ++ "\\n".toList ++ typeText types
  | .subscript _ _ _ => "[]".toList ++ "\\n".toList ++ typeText types
  | .attribute _ _ n => n

/-- The label of the vertex of a statement. -/
def stmtCaption : Stmt → Option Str
  | .expr _ => none
  | .assign _ _ _ _ => some "=".toList
  | .ifElse _ _ _ _ _ _ _ _ _ => some "If".toList
  | .while _ _ _ _ _ _ _ _ _ => some "While".toList
  | .function _ n _ _ _ _ => some n
  | .ret _ _ => some "return".toList

/-- Whether the text of the attributes says that a vertex is filled with the colour for what is known
(green) or the one for what is not (red). -/
def Filled (known : Bool) (rest : Str) : Prop :=
  (if known then "fillcolor=\"/spectral11/9\"".toList else "fillcolor=\"/spectral11/2\"".toList) <:+: rest

/-- An expression for which the types are shown by a colour. -/
def coloured : Expr → Bool
  | .number _ _ | .string _ _ | .attribute _ _ _ => false
  | _ => true

/-- A string has no types in its label. -/
def isString : Expr → Bool
  | .string _ _ => true
  | _ => false

/-- The operators in the module exist. -/
def Symbols (m : Module) : Prop :=
  ∀ e ∈ allTerms m, ∀ v n args, e = .operator v n args → nameToSymbol n args.length ≠ none

/-- No vertex whose types are shown has more than one type. -/
def OneType (types : Vid → ExpressionTypes) (m : Module) : Prop :=
  (∀ e ∈ allTerms m, isString e = false → (types e.vid).length ≤ 1) ∧
  ∀ v x n e, .assign v x n e ∈ stmtsAll m.statements → (types x).length ≤ 1

end Fern.Dot.Spec
