import Verif.Spec.Dot
import Mathlib.Logic.Relation

/-!
# What the graph of the flow of data has to show
-/

namespace Fern.Dot.Spec

open Fern.Spec

mutual

/-- The statements in a statement that are drawn: none that are part of a loop. -/
def flowAll : Stmt → List Stmt
  | .ifElse v x c tv ts t fv fs f => .ifElse v x c tv ts t fv fs f :: (flowsAll t ++ flowsAll f)
  | .while _ _ _ _ _ _ _ _ _ => []
  | .function v n args bv bs body => .function v n args bv bs body :: flowsAll body
  | .expr e => [.expr e]
  | .assign v x n e => [.assign v x n e]
  | .ret v e => [.ret v e]

@[inherit_doc flowAll]
def flowsAll : List Stmt → List Stmt
  | [] => []
  | s :: ss => flowAll s ++ flowsAll ss

end

/-- The expressions of a statement; the parameters of a function are among them. -/
def parts : Stmt → List Expr
  | .function _ _ args _ _ _ => args
  | s => (expression? s).toList

/-- The expressions in a statement that are drawn. -/
def partTerms (s : Stmt) : List Expr := (parts s).flatMap exprTerms

/-- Where the value of an expression comes from: that of a name from its definition if it has one. -/
def origins (t : Links) : Expr → List Vid
  | .name v _ => if t.definitions v = [] then [v] else t.definitions v
  | e => [e.vid]

/-- What is used for what: an operand for its operation, an expression for the target of its assignment. -/
def consumers (s : Stmt) : List (Expr × Vid) :=
  (match s with
    | .assign _ target _ e => [(e, target)]
    | _ => []) ++
  (partTerms s).flatMap fun y => (operands y).map fun x => (x, y.vid)

/-- All that is used for something in a module. -/
def consumed (m : Module) : List (Expr × Vid) := (flowsAll m.statements).flatMap consumers

/-- A vertex is drawn unless it is a name that refers to another one. -/
def drawnTerm (t : Links) : Expr → Bool
  | .name v _ => decide (t.definitions v = [] ∨ v ∈ t.definitions v)
  | _ => true

/-- The vertices of a statement that are drawn. -/
def flowVertices (t : Links) (s : Stmt) : List Vid :=
  (match s with
    | .ifElse v _ _ _ _ _ _ _ _ => [v]
    | _ => []) ++
  (((partTerms s).filter (drawnTerm t)).map Expr.vid ++
  (match s with
    | .assign _ target n _ => if drawnTerm t (.name target n) then [target] else []
    | _ => []))

/-- No attributes in the part of the module that is drawn. -/
def NoAttributesInFlow (m : Module) : Prop :=
  ∀ s ∈ flowsAll m.statements, ∀ e ∈ parts s, exprHidden e = []

mutual

/-- The vertices of an expression in the order in which they are evaluated. -/
def exprOrder : Expr → List Vid
  | .name v _ | .number v _ | .string v _ => [v]
  | .call v _ args | .operator v _ args => exprsOrder args ++ [v]
  | .subscript v e i => exprOrder e ++ (exprOrder i ++ [v])
  | .attribute v e _ => exprOrder e ++ [v]

@[inherit_doc exprOrder]
def exprsOrder : List Expr → List Vid
  | [] => []
  | e :: es => exprOrder e ++ exprsOrder es

end

mutual

/-- The vertices of expressions and the targets of a statement in the order in which they are evaluated. -/
def stmtOrder : Stmt → List Vid
  | .expr e => exprOrder e
  | .assign _ target _ e => exprOrder e ++ [target]
  | .ifElse _ _ c _ _ t _ _ f | .while _ _ c _ _ t _ _ f => exprOrder c ++ (stmtsOrder t ++ stmtsOrder f)
  | .function _ _ args _ _ body => exprsOrder args ++ stmtsOrder body
  | .ret _ none => []
  | .ret _ (some e) => exprOrder e

@[inherit_doc stmtOrder]
def stmtsOrder : List Stmt → List Vid
  | [] => []
  | s :: ss => stmtOrder s ++ stmtsOrder ss

end

/-- The numbers of the boxes, in the order in which they are opened. -/
def boxNumbers (l : List Item) : List Nat :=
  l.filterMap fun
    | .box k => some k
    | _ => none

/-- There is a way from one vertex to the other along edges without attributes. -/
def Leads (i : List Item) (a b : Vid) : Prop := Relation.TransGen (fun x y => (x, y) ∈ edges plain i) a b

/-- Where the value of an expression comes from: that of a name from the definition it refers to, if there is
one. -/
def Origin (m : Module) (x : Expr) (a : Vid) : Prop :=
  match x with
  | .name v _ => RefersTo (stmtsTokens m.statements) v a ∨
      (a = v ∧ ∀ d, ¬ RefersTo (stmtsTokens m.statements) v d)
  | e => a = e.vid

/-- The vertices that belong in the graph: `if` statements, targets of assignments, and expressions that are
no names of something defined before. -/
def FlowVertex (m : Module) (v : Vid) : Prop :=
  (∃ z c tv ts t fv fs f, .ifElse v z c tv ts t fv fs f ∈ flowsAll m.statements) ∨
  (∃ w n e, .assign w v n e ∈ flowsAll m.statements) ∨
  ∃ s ∈ flowsAll m.statements, ∃ y ∈ partTerms s, y.vid = v ∧
    ∀ n, y = .name v n → ∀ d, ¬ RefersTo (stmtsTokens m.statements) v d

/-- The label of an expression in the graph. -/
def flowCaption (fmt : FloatFormat) : Expr → Str
  | .name _ n => n
  | .number _ n => numberText fmt n
  | .string _ s => "\\\"".toList ++ s ++ "\\\"".toList
  | .call _ n _ => n
  | .operator _ n args => (nameToSymbol n args.length).getD []
  | .subscript _ _ _ => "[]".toList
  | .attribute _ _ n => n

/-- The text that says which shape an expression has: constants are boxes, operations triangles. -/
def flowShape : Expr → Str
  | .number _ _ | .string _ _ => "shape=box".toList
  | .call _ _ _ | .operator _ _ _ | .subscript _ _ _ => "shape=triangle".toList
  | .name _ _ | .attribute _ _ _ => []

/-- The operators in the part of the module that is drawn exist. -/
def FlowSymbols (m : Module) : Prop :=
  ∀ s ∈ flowsAll m.statements, ∀ e ∈ partTerms s, ∀ v n args, e = .operator v n args →
    nameToSymbol n args.length ≠ none

end Fern.Dot.Spec
