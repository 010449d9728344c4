import Verif.Model.Script

/-!
# Specification of parsing a script

What a script, given as Python's syntax tree, should be turned into, without any XML: the first
construct that cannot be translated, or else the syntax tree.
-/

namespace Fern.Script.Spec

open Fern Fern.Script

/-- Text that an XML document can hold as it is: characters XML allows, not the two characters that
start markup, no carriage return, not the end of a CDATA section. -/
def Safe (s : Str) : Prop :=
  (∀ c ∈ s, c ≠ '<' ∧ c ≠ '&' ∧ c ≠ '\r' ∧
    (c = '\t' ∨ c = '\n' ∨ (32 ≤ c.toNat ∧ c.toNat ≠ 0xFFFE ∧ c.toNat ≠ 0xFFFF))) ∧
  ∀ a b : Str, s ≠ a ++ [']', ']', '>'] ++ b

/-- The name of a source: characters XML allows, no white space but spaces. -/
def SafeSource (s : Str) : Prop :=
  ∀ c ∈ s, 32 ≤ c.toNat ∧ c.toNat ≠ 0xFFFE ∧ c.toNat ≠ 0xFFFF

/-- What can be wrong with a construct. -/
inductive Issue
  | unsupported (construct : Str) (p : Pos)
  | assertion

/-- How parsing ends if this is the first thing wrong. -/
def Issue.outcome {α : Type} : Issue → Outcome α
  | .unsupported c p => .unsupported c p
  | .assertion => .assertion

/-- The name of a construct in messages. -/
def exprConstruct : OtherExpr → String
  | .ifExp => "if"
  | .lambda => "lambda"
  | .dict => "dictionary"
  | .dictComp => "dictionary comprehension"
  | .generatorExp => "generator"
  | .yield => "yield"
  | .repr => "repr"
  | .list => "list"
  | .listComp => "list comprehension"
  | .set => "set"
  | .setComp => "set comprehension"
  | .tuple => "tuple"

def stmtConstruct : OtherStmt → String
  | .print => "print"
  | .break => "break"
  | .continue => "continue"
  | .assert => "assert"
  | .augAssign => "augmented assign"
  | .global => "global"
  | .pass => "pass"
  | .classDef => "define class"
  | .delete => "delete"
  | .for => "for"
  | .with => "with"
  | .raise => "raise"
  | .tryExcept => "try/except"
  | .tryFinally => "try/finally"
  | .import => "import"
  | .importFrom => "import from"
  | .exec => "exec"

/-- Only a name can be called or assigned to. -/
def IsName : PyExpr → Bool
  | .name _ _ => true
  | _ => false

/-- The comparisons Fern knows. -/
def knownComparison : CompareOp → Bool
  | .is | .isNot | .in | .notIn => false
  | _ => true

/-- The assertion, unless `ok`. -/
def assertUnless (ok : Bool) : List Issue := if ok then [] else [.assertion]

mutual

/-- What is wrong with an expression, in the order of the text. -/
def exprIssues : PyExpr → List Issue
  | .name _ _ => []
  | .num _ .complex => [.assertion]
  | .num _ _ => []
  | .str _ _ => []
  | .unicode _ _ => [.assertion]
  | .call _ f args more => assertUnless (!more && IsName f) ++ exprsIssues args
  | .unary _ _ e => exprIssues e
  | .binary _ l _ r => exprIssues l ++ exprIssues r
  | .bool _ _ es => exprsIssues es
  | .compare _ l op r more => assertUnless (!more && knownComparison op) ++ (exprIssues l ++ exprIssues r)
  | .subscript _ e i => exprIssues e ++ exprIssues i
  | .slice _ e => exprIssues e ++ [.assertion]
  | .attr _ e _ => exprIssues e
  | .other p k => [.unsupported (exprConstruct k).toList p]

def exprsIssues : List PyExpr → List Issue
  | [] => []
  | e :: es => exprIssues e ++ exprsIssues es

end

mutual

/-- What is wrong with a statement, in the order of the text. -/
def stmtIssues : PyStmt → List Issue
  | .expr _ e => exprIssues e
  | .assign _ t more v => assertUnless (!more && IsName t) ++ exprIssues v
  | .ifElse _ c t f => exprIssues c ++ (stmtsIssues t ++ stmtsIssues f)
  | .while _ c t f => exprIssues c ++ (stmtsIssues t ++ stmtsIssues f)
  | .function _ _ args _ _ _ body => exprsIssues args ++ stmtsIssues body
  | .retNone _ => []
  | .ret _ e => exprIssues e
  | .other p k => [.unsupported (stmtConstruct k).toList p]

def stmtsIssues : List PyStmt → List Issue
  | [] => []
  | s :: ss => stmtIssues s ++ stmtsIssues ss

end

mutual

/-- The names and strings of an expression can be part of a document as they are. -/
def ExprSafe (sf : Rat → Str) : PyExpr → Prop
  | .name _ n => Safe n
  | .num _ (.float v) => Safe (sf v)
  | .num _ _ => True
  | .str _ s => Safe s
  | .unicode _ _ => True
  | .call _ f args _ => ExprSafe sf f ∧ ExprsSafe sf args
  | .unary _ _ e => ExprSafe sf e
  | .binary _ l _ r => ExprSafe sf l ∧ ExprSafe sf r
  | .bool _ _ es => ExprsSafe sf es
  | .compare _ l _ r _ => ExprSafe sf l ∧ ExprSafe sf r
  | .subscript _ e i => ExprSafe sf e ∧ ExprSafe sf i
  | .slice _ e => ExprSafe sf e
  | .attr _ e n => ExprSafe sf e ∧ Safe n
  | .other _ _ => True

def ExprsSafe (sf : Rat → Str) : List PyExpr → Prop
  | [] => True
  | e :: es => ExprSafe sf e ∧ ExprsSafe sf es

end

mutual

def StmtSafe (sf : Rat → Str) : PyStmt → Prop
  | .expr _ e => ExprSafe sf e
  | .assign _ t _ v => ExprSafe sf t ∧ ExprSafe sf v
  | .ifElse _ c t f => ExprSafe sf c ∧ StmtsSafe sf t ∧ StmtsSafe sf f
  | .while _ c t f => ExprSafe sf c ∧ StmtsSafe sf t ∧ StmtsSafe sf f
  | .function _ n args _ _ _ body => Safe n ∧ ExprsSafe sf args ∧ StmtsSafe sf body
  | .retNone _ => True
  | .ret _ e => ExprSafe sf e
  | .other _ _ => True

def StmtsSafe (sf : Rat → Str) : List PyStmt → Prop
  | [] => True
  | s :: ss => StmtSafe sf s ∧ StmtsSafe sf ss

end

/-! ## The syntax tree -/

/-- Fern's name and symbol of an operator. -/
def unaryNames : UnaryOp → String × String
  | .invert => ("Invert", "~")
  | .not => ("Not", "!")
  | .uadd => ("UnaryAdd", "+")
  | .usub => ("UnarySub", "-")

def binaryNames : BinaryOp → String × String
  | .add => ("add", "+")
  | .sub => ("Sub", "-")
  | .mult => ("Mult", "*")
  | .div => ("Div", "/")
  | .mod => ("Mod", "%")
  | .pow => ("Pow", "**")
  | .lshift => ("LShift", "<<")
  | .rshift => ("RShift", ">>")
  | .bitOr => ("BitOr", "|")
  | .bitXor => ("BitXor", "^")
  | .bitAnd => ("BitAnd", "&")
  | .floorDiv => ("FloorDiv", "//")

def boolNames : BoolOp → String × String
  | .and => ("And", "and")
  | .or => ("Or", "or")

def compareNames : CompareOp → String × String
  | .eq => ("Eq", "==")
  | .notEq => ("NotEq", "!=")
  | .lt => ("Lt", "<")
  | .ltE => ("LtE", "<=")
  | .gt => ("Gt", ">")
  | .gtE => ("GtE", ">=")
  | _ => ("", "")

/-- An operator's vertex. -/
def operatorTree (p : Pos) (names : String × String) (args : List TreeExpr) : TreeExpr :=
  .operator p names.1.toList names.2.toList args

/-- An integer: it must fit in 32 bits, and becomes one of 64 bits. -/
def integerTree (p : Pos) (v : Int) : Outcome TreeExpr :=
  if -2147483648 ≤ v ∧ v ≤ 2147483647 then .ok (.number p (.int .i64 v)) else .parseError

/-- A long integer which doesn't fit in 64 bits is -1. -/
def longValue (v : Int) : Int :=
  if -9223372036854775808 ≤ v ∧ v ≤ 9223372036854775807 then v else -1

mutual

/-- The syntax tree of an expression that has no issues. `sub` and `att` tell whether it is part of a
subscription and of an attribute reference. -/
def exprTree (sf : Rat → Str) (rf : Str → Option Rat) (sub att : Bool) : PyExpr → Outcome TreeExpr
  | .name p n => .ok (.name p n)
  | .num p (.int v) => integerTree p v
  | .num p (.long v) => integerTree p (longValue v)
  | .num p (.float v) =>
    match rf (sf v) with
    | some w => .ok (.number p (.float64 w))
    | none => .parseError
  | .str p s => .ok (.string p s)
  | .call p (.name _ n) args _ => (exprsTree sf rf sub att args).bind fun ts => .ok (.call p n ts)
  | .unary p op e => (exprTree sf rf sub att e).bind fun t => .ok (operatorTree p (unaryNames op) [t])
  | .binary p l op r => (exprTree sf rf sub att l).bind fun a => (exprTree sf rf sub att r).bind fun b =>
      .ok (operatorTree p (binaryNames op) [a, b])
  | .bool p op es => (exprsTree sf rf sub att es).bind fun ts =>
      if ts.length = 2 then .ok (operatorTree p (boolNames op) ts) else .assertion
  | .compare p l op r _ => (exprTree sf rf sub att l).bind fun a => (exprTree sf rf sub att r).bind fun b =>
      .ok (operatorTree p (compareNames op) [a, b])
  | .subscript p e i => (exprTree sf rf true att e).bind fun a =>
      if sub then .assertion else (exprTree sf rf true att i).bind fun b => .ok (.subscript p a b)
  | .attr p e n => (exprTree sf rf sub true e).bind fun a =>
      if att then .assertion else .ok (.attr p a n)
  | .num _ .complex | .unicode _ _ | .call _ _ _ _ | .slice _ _ | .other _ _ => .assertion

def exprsTree (sf : Rat → Str) (rf : Str → Option Rat) (sub att : Bool) :
    List PyExpr → Outcome (List TreeExpr)
  | [] => .ok []
  | e :: es => (exprTree sf rf sub att e).bind fun t => (exprsTree sf rf sub att es).bind fun ts =>
      .ok (t :: ts)

end

/-- The line and the column of an expression. -/
def positionOf : TreeExpr → Pos
  | .name p _ | .number p _ | .string p _ | .call p _ _ | .operator p _ _ _ | .subscript p _ _ | .attr p _ _ => p

mutual

/-- The syntax tree of a statement that has no issues. -/
def stmtTree (sf : Rat → Str) (rf : Str → Option Rat) : PyStmt → Outcome TreeStmt
  | .expr p e => (exprTree sf rf false false e).bind fun t => .ok (.expr (t.setPos p))
  | .assign p t _ v => (exprTree sf rf false false t).bind fun a =>
      (exprTree sf rf false false v).bind fun b => .ok (.assign p a b)
  | .ifElse p c t f => (exprTree sf rf false false c).bind fun c => (stmtsTree sf rf t).bind fun t =>
      if t = [] then .assertion else (stmtsTree sf rf f).bind fun f => .ok (.ifElse p c t f)
  | .while p c t f => (exprTree sf rf false false c).bind fun c => (stmtsTree sf rf t).bind fun t =>
      if t = [] then .assertion else (stmtsTree sf rf f).bind fun f => .ok (.while p c t f)
  | .function p n args _ _ _ body => (exprsTree sf rf false false args).bind fun args =>
      (stmtsTree sf rf body).bind fun b => if b = [] then .assertion else .ok (.function p n args b)
  | .retNone p => .ok (.retNone p)
  | .ret p e => (exprTree sf rf false false e).bind fun t => .ok (.ret p t)
  | .other _ _ => .assertion

def stmtsTree (sf : Rat → Str) (rf : Str → Option Rat) : List PyStmt → Outcome (List TreeStmt)
  | [] => .ok []
  | s :: ss => (stmtTree sf rf s).bind fun t => (stmtsTree sf rf ss).bind fun ts => .ok (t :: ts)

end

end Fern.Script.Spec
