import Verif.Model.Syntax

/-!
# Names in lexical order

A module is read from left to right, the right hand side of an assignment before its target: the
names used and defined, and where blocks begin and end.
-/

namespace Fern.Spec

/-- What there is to see. -/
inductive Token
  | use (n : Str) (v : Vid)
  | define (n : Str) (v : Vid)
  | begin
  | finish
  deriving DecidableEq

mutual

/-- The names used in an expression. -/
def exprTokens : Expr → List Token
  | .name v n => [.use n v]
  | .number _ _ => []
  | .string _ _ => []
  | .call _ _ args => exprsTokens args
  | .operator _ _ args => exprsTokens args
  | .subscript _ e i => exprTokens e ++ exprTokens i
  | .attribute _ e _ => exprTokens e

/-- The names used in expressions. -/
def exprsTokens : List Expr → List Token
  | [] => []
  | e :: es => exprTokens e ++ exprsTokens es

end

mutual

/-- The tokens of a statement. The bodies of if and while statements are blocks; those of functions
are not. -/
def stmtTokens : Stmt → List Token
  | .expr e => exprTokens e
  | .assign _ target n e => exprTokens e ++ [.define n target]
  | .ifElse _ _ c _ _ t _ _ f =>
    exprTokens c ++ ([.begin] ++ stmtsTokens t ++ [.finish]) ++ ([.begin] ++ stmtsTokens f ++ [.finish])
  | .while _ _ c _ _ t _ _ f =>
    exprTokens c ++ ([.begin] ++ stmtsTokens t ++ [.finish]) ++ ([.begin] ++ stmtsTokens f ++ [.finish])
  | .function _ _ args _ _ body => exprsTokens args ++ stmtsTokens body
  | .ret _ (some e) => exprTokens e
  | .ret _ none => []

/-- The tokens of statements. -/
def stmtsTokens : List Stmt → List Token
  | [] => []
  | t :: ts => stmtTokens t ++ stmtsTokens ts

end

/-- The number of blocks begun. -/
def begins (ts : List Token) : Nat := ts.count .begin

/-- The number of blocks ended. -/
def finishes (ts : List Token) : Nat := ts.count .finish

/-- Reading `ts`, the block one is in at the beginning does not end. -/
def StillOpen (ts : List Token) : Prop := ∀ p, p <+: ts → finishes p ≤ begins p

/-- The definition `d` is the one that the use `v` refers to: it precedes the use, its block has not
ended, and there is no such definition of the same name in between. -/
def RefersTo (ts : List Token) (v d : Vid) : Prop :=
  ∃ n a b c, ts = a ++ .define n d :: (b ++ .use n v :: c) ∧ StillOpen b ∧
    ∀ b1 d' b2, b = b1 ++ .define n d' :: b2 → ¬ StillOpen b2

/-- The name vertices. -/
def tokenIds (ts : List Token) : List Vid :=
  ts.filterMap fun
    | .use _ v => some v
    | .define _ v => some v
    | .begin => none
    | .finish => none

/-- The uses. -/
def useIds (ts : List Token) : List Vid :=
  ts.filterMap fun
    | .use _ v => some v
    | _ => none

/-- The definitions. -/
def defineIds (ts : List Token) : List Vid :=
  ts.filterMap fun
    | .define _ v => some v
    | _ => none

/-- The statement occurs in the statements, at whatever depth. -/
inductive Occurs (s : Stmt) : List Stmt → Prop
  | here {l : List Stmt} : s ∈ l → Occurs s l
  | ifTrue {v sv c tv ts t fv fs f} {l : List Stmt} : Stmt.ifElse v sv c tv ts t fv fs f ∈ l →
      Occurs s t → Occurs s l
  | ifFalse {v sv c tv ts t fv fs f} {l : List Stmt} : Stmt.ifElse v sv c tv ts t fv fs f ∈ l →
      Occurs s f → Occurs s l
  | whileTrue {v sv c tv ts t fv fs f} {l : List Stmt} : Stmt.while v sv c tv ts t fv fs f ∈ l →
      Occurs s t → Occurs s l
  | whileFalse {v sv c tv ts t fv fs f} {l : List Stmt} : Stmt.while v sv c tv ts t fv fs f ∈ l →
      Occurs s f → Occurs s l
  | body {v n args bv bs b} {l : List Stmt} : Stmt.function v n args bv bs b ∈ l →
      Occurs s b → Occurs s l

end Fern.Spec
