import Verif.Spec.Typing
import Verif.Model.Validate

/-!
# What is wrong with an expression
-/

namespace Fern.Spec

variable {V : Type}

/-- A type names at least one data type and at least one value type. -/
def IsDefined (t : ExpressionType) : Prop := (∃ i, t.data i = true) ∧ ∃ i, t.value i = true

/-- A type can be passed for a parameter: it is defined, and all its data types and value types are
among those of one of the types of the parameter. -/
def Passable (parameter : ExpressionTypes) (t : ExpressionType) : Prop :=
  IsDefined t ∧ ∃ p ∈ parameter, (∀ i, t.data i = true → p.data i = true) ∧
    ∀ i, t.value i = true → p.value i = true

/-- One of the types of an argument can be passed. -/
def SomePassable (parameter types : ExpressionTypes) : Prop := ∃ t ∈ types, Passable parameter t

/-- What is wrong at the root of an operation, its parts set aside: the operation is unknown; or it is
known and the number of arguments is wrong; or the number is right and `i` is the first argument none of
whose types can be passed. -/
inductive OperationProblem (a : Annotations V) (v : Vid) (n : Str) (args : List Expr) : Problem → Prop
  | unknown (h : a.operation v = none) : OperationProblem a v n args (.undefinedOperation v n)
  | number (op : Operation V) (h : a.operation v = some op) (hl : args.length ≠ op.parameters.length) :
      OperationProblem a v n args (.wrongNumber v n op.parameters.length args.length)
  | type (op : Operation V) (h : a.operation v = some op) (hl : args.length = op.parameters.length)
      (i : Nat) (p : ExpressionTypes) (e : Expr) (hp : op.parameters[i]? = some p)
      (he : args[i]? = some e) (hi : ¬ SomePassable p (a.types e.vid))
      (hj : ∀ (j : Nat) (q : ExpressionTypes) (d : Expr), j < i → op.parameters[j]? = some q →
        args[j]? = some d → SomePassable q (a.types d.vid)) :
      OperationProblem a v n args (.wrongType v n (i + 1))

/-- What is wrong at the root of an expression, its parts set aside. -/
inductive RootProblem (a : Annotations V) : Expr → Problem → Prop
  | name (v : Vid) (n : Str) (t : ExpressionType) (h : a.types v = [t]) (hu : ¬ IsDefined t) :
      RootProblem a (.name v n) (.undefinedIdentifier v n)
  | call (v : Vid) (n : Str) (args : List Expr) (p : Problem) (h : OperationProblem a v n args p) :
      RootProblem a (.call v n args) p
  | operator (v : Vid) (n : Str) (args : List Expr) (p : Problem) (h : OperationProblem a v n args p) :
      RootProblem a (.operator v n args) p

mutual

/-- All expressions in a statement, operands before operations and the target of an assignment behind
its expression. -/
def stmtTerms : Stmt → List Expr
  | .expr e => subterms e
  | .assign _ target n e => subterms e ++ [.name target n]
  | .ifElse _ _ c _ _ t _ _ f => subterms c ++ (stmtsTerms t ++ stmtsTerms f)
  | .while _ _ c _ _ t _ _ f => subterms c ++ (stmtsTerms t ++ stmtsTerms f)
  | .function _ _ args _ _ body => subtermsList args ++ stmtsTerms body
  | .ret _ (some e) => subterms e
  | .ret _ none => []

/-- The same for a list of statements. -/
def stmtsTerms : List Stmt → List Expr
  | [] => []
  | t :: ts => stmtTerms t ++ stmtsTerms ts

end

/-- Every name among the expressions has exactly one type, as annotation leaves it. -/
def NamesAnnotated (a : Annotations V) (l : List Expr) : Prop :=
  ∀ v n, Expr.name v n ∈ l → ∃ t, a.types v = [t]

end Fern.Spec
