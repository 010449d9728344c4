import Verif.Model.Syntax

/-!
# Printing of modules: specification
-/

namespace Fern.Spec

/-- A character that can be in a name. -/
def nameChar (c : Char) : Bool := c.isAlphanum || c == '_'

/-- A name as accepted by the parser: letters, digits and underscores, not starting with a digit. -/
def Identifier (n : Str) : Prop :=
  n ≠ [] ∧ (∀ c ∈ n, nameChar c = true) ∧ ∀ c, n.head? = some c → c.isDigit = false

/-- An integer number, not of an 8-bit type, that its type can represent. -/
def PlainNumber : Number → Prop
  | .int t v => t ≠ .i8 ∧ t ≠ .u8 ∧ t.min ≤ v ∧ v ≤ t.max
  | .float32 _ => False
  | .float64 _ => False

mutual

/-- Expressions whose names are identifiers, whose strings contain no quotes and whose numbers are
integers of more than 8 bits. -/
def PlainExpr : Expr → Prop
  | .name _ n => Identifier n
  | .number _ n => PlainNumber n
  | .string _ s => '"' ∉ s
  | .call _ n es => Identifier n ∧ PlainExprs es
  | .operator _ _ es => PlainExprs es
  | .subscript _ e s => PlainExpr e ∧ PlainExpr s
  | .attribute _ e m => PlainExpr e ∧ Identifier m

def PlainExprs : List Expr → Prop
  | [] => True
  | e :: l => PlainExpr e ∧ PlainExprs l

end

mutual

/-- Statements with such expressions, without function definitions and return statements. The body of
an if or while statement is not empty. -/
def PlainStmt : Stmt → Prop
  | .expr e => PlainExpr e
  | .assign _ _ n e => Identifier n ∧ PlainExpr e
  | .ifElse _ _ c _ _ t _ _ f => PlainExpr c ∧ t ≠ [] ∧ PlainStmts t ∧ PlainStmts f
  | .while _ _ c _ _ t _ _ f => PlainExpr c ∧ t ≠ [] ∧ PlainStmts t ∧ PlainStmts f
  | .function _ _ _ _ _ _ => False
  | .ret _ _ => False

def PlainStmts : List Stmt → Prop
  | [] => True
  | t :: l => PlainStmt t ∧ PlainStmts l

end

/-- A number without its size. -/
def bareNumber : Number → Number
  | .int t v => .int (if t.signed then .i64 else .u64) v
  | n => n

mutual

/-- An expression without the identities of its vertices and the sizes of its integers. -/
def bareExpr : Expr → Expr
  | .name _ n => .name 0 n
  | .number _ n => .number 0 (bareNumber n)
  | .string _ s => .string 0 s
  | .call _ n es => .call 0 n (bareExprs es)
  | .operator _ n es => .operator 0 n (bareExprs es)
  | .subscript _ e s => .subscript 0 (bareExpr e) (bareExpr s)
  | .attribute _ e m => .attribute 0 (bareExpr e) m

def bareExprs : List Expr → List Expr
  | [] => []
  | e :: l => bareExpr e :: bareExprs l

end

mutual

/-- A statement without the identities of its vertices and the sizes of its integers. -/
def bareStmt : Stmt → Stmt
  | .expr e => .expr (bareExpr e)
  | .assign _ _ n e => .assign 0 0 n (bareExpr e)
  | .ifElse _ _ c _ _ t _ _ f => .ifElse 0 0 (bareExpr c) 0 0 (bareStmts t) 0 0 (bareStmts f)
  | .while _ _ c _ _ t _ _ f => .while 0 0 (bareExpr c) 0 0 (bareStmts t) 0 0 (bareStmts f)
  | .function _ n args _ _ body => .function 0 n (bareExprs args) 0 0 (bareStmts body)
  | .ret _ e => .ret 0 (e.map bareExpr)

def bareStmts : List Stmt → List Stmt
  | [] => []
  | t :: l => bareStmt t :: bareStmts l

end

end Fern.Spec
