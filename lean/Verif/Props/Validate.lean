import Verif.Lemmas.Validate

/-!
# C63: validation

Properties of the model in `Verif.Model.Validate`.
-/

namespace Fern

open Spec

variable {V : Type}

theorem C63_checkAll_ok (a : Annotations V) (l : List Expr) (hn : NamesAnnotated a l) :
    checkAll a l = .ok ↔ ∀ e ∈ l, ∀ p, ¬ RootProblem a e p := by
  rcases checkAll_eq a l hn with ⟨h1, h2⟩ | ⟨l1, e, l2, p, h1, h2, h3, _⟩
  · exact ⟨fun _ => h2, fun _ => h1⟩
  · rw [h2]
    constructor
    · intro h; cases h
    · intro h; exact absurd h3 (h e (by rw [h1]; simp) p)

theorem C63_checkAll_error (a : Annotations V) (l : List Expr) (hn : NamesAnnotated a l) (p : Problem) :
    checkAll a l = .error p ↔ ∃ l1 e l2, l = l1 ++ e :: l2 ∧ RootProblem a e p ∧
      ∀ d ∈ l1, ∀ q, ¬ RootProblem a d q := by
  rcases checkAll_eq a l hn with ⟨h1, h2⟩ | ⟨l1, e, l2, p', h1, h2, h3, h4, h5⟩
  · rw [h1]
    constructor
    · intro h; cases h
    · rintro ⟨l1, e, l2, h3, h4, _⟩
      exact absurd h4 (h2 e (by rw [h3]; simp) p)
  · rw [h2]
    constructor
    · intro h
      cases h
      exact ⟨l1, e, l2, h1, h3, h5⟩
    · rintro ⟨m1, d, m2, g1, g2, g3⟩
      rw [h1] at g1
      rcases List.append_eq_append_iff.1 g1 with ⟨c, hc, hd⟩ | ⟨c, hc, hd⟩
      · cases c with
        | nil =>
          simp at hd
          rw [hd.1] at h3 h4
          rw [h4 p g2]
        | cons x c =>
          simp at hd
          exact absurd (hd.1 ▸ h3) (g3 x (by rw [hc]; simp) p')
      · cases c with
        | nil =>
          simp at hd
          rw [← hd.1] at h3 h4
          rw [h4 p g2]
        | cons x c =>
          simp at hd
          exact absurd (hd.1 ▸ g2) (h5 x (by rw [hc]; simp) p)

/-- Validation of an annotated expression accepts it iff nothing is wrong with any expression in it: no
undefined name, no unknown operation, no wrong number of arguments, no argument that cannot be
passed. -/
theorem C63_ok (a : Annotations V) (e : Expr) (hn : NamesAnnotated a (subterms e)) :
    validateExpr a e = .ok ↔ ∀ d ∈ subterms e, ∀ p, ¬ RootProblem a d p := by
  rw [validateExpr_eq, C63_checkAll_ok a _ hn]

/-- Validation of an annotated expression reports a problem iff it is the one of the first expression in
it, operands before operations and from left to right, that has one. -/
theorem C63_error (a : Annotations V) (e : Expr) (hn : NamesAnnotated a (subterms e)) (p : Problem) :
    validateExpr a e = .error p ↔ ∃ l1 d l2, subterms e = l1 ++ d :: l2 ∧ RootProblem a d p ∧
      ∀ d' ∈ l1, ∀ q, ¬ RootProblem a d' q := by
  rw [validateExpr_eq, C63_checkAll_error a _ hn]

/-- Validation of an annotated expression meets no failing assertion. -/
theorem C63_no_failure (a : Annotations V) (e : Expr) (hn : NamesAnnotated a (subterms e)) :
    validateExpr a e ≠ .undefined := by
  rw [validateExpr_eq]
  rcases checkAll_eq a _ hn with ⟨h1, _⟩ | ⟨l1, e, l2, p, _, h2, _⟩
  · rw [h1]; simp
  · rw [h2]; simp

/-- The same for the statements of a module. -/
theorem C63_module_ok (a : Annotations V) (l : List Stmt) (hn : NamesAnnotated a (stmtsTerms l)) :
    validateStmts a l = .ok ↔ ∀ d ∈ stmtsTerms l, ∀ p, ¬ RootProblem a d p := by
  rw [validateStmts_eq, C63_checkAll_ok a _ hn]

/-- The same for the statements of a module; the target of an assignment counts as a name behind the
expression. -/
theorem C63_module_error (a : Annotations V) (l : List Stmt) (hn : NamesAnnotated a (stmtsTerms l))
    (p : Problem) :
    validateStmts a l = .error p ↔ ∃ l1 d l2, stmtsTerms l = l1 ++ d :: l2 ∧ RootProblem a d p ∧
      ∀ d' ∈ l1, ∀ q, ¬ RootProblem a d' q := by
  rw [validateStmts_eq, C63_checkAll_error a _ hn]

/-- At most one thing is wrong at the root of an expression. -/
theorem C63_problem_unique (a : Annotations V) (e : Expr) (hn : NamesAnnotated a [e]) (p q : Problem)
    (hp : RootProblem a e p) (hq : RootProblem a e q) : p = q := by
  rcases rootCheck_eq a e hn with ⟨_, h⟩ | ⟨r, _, _, h⟩
  · exact absurd hp (h p)
  · rw [h p hp, h q hq]

/-! ### An example: `f(x, "s")` where the operation takes one constant and a number -/

/-- A constant of the given value type. -/
def constantType (v : ValueType) : ExpressionType := ⟨DataTypes.constant, v.flag⟩

/-- An operation with two 32 bit integer parameters. -/
def exampleOperation : Operation Nat where
  parameters := [[constantType .int32], [constantType .int32]]
  exprType := fun _ => some (constantType .int32)
  execute := fun l => some [l.foldl (· + ·) 0]

/-- The annotations of `f(x, "s")`: vertices 1, 2 and 3. -/
def exampleAnnotations : Annotations Nat where
  types := fun v => if v = 2 then [constantType .int32] else if v = 3 then [constantType .string] else
    [constantType .int32]
  operation := fun v => if v = 1 then some exampleOperation else none

/-- `f(x, "s")`. -/
def exampleCall : Expr := .call 1 ['f'] [.name 2 ['x'], .string 3 ['s']]

example : NamesAnnotated exampleAnnotations (subterms exampleCall) := by
  intro v n h
  simp [exampleCall, subterms, subtermsList] at h
  exact ⟨constantType .int32, by rw [h.1]; rfl⟩

example : validateExpr exampleAnnotations exampleCall = .error (.wrongType 1 ['f'] 2) := by
  decide +kernel

example : validateExpr exampleAnnotations (.call 1 ['f'] [.name 2 ['x'], .name 4 ['y']]) = .ok := by
  decide +kernel

end Fern
