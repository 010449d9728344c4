import Verif.Spec.Validate
import Verif.Props.Types
import Verif.Lemmas.Annotate

/-!
Lemmas about validation.
-/

namespace Fern

open Spec

variable {V : Type}

/-- The check at the root of an expression. -/
def rootCheck (a : Annotations V) : Expr → Checked
  | .name v n => checkName a v n
  | .call v n args => checkOperation a v n args
  | .operator v n args => checkOperation a v n args
  | _ => .ok

/-- The checks of expressions, one after the other. -/
def checkAll (a : Annotations V) : List Expr → Checked
  | [] => .ok
  | e :: es => (rootCheck a e).andThen (checkAll a es)

theorem Checked.andThen_assoc (a b c : Checked) :
    (a.andThen b).andThen c = a.andThen (b.andThen c) := by
  cases a <;> rfl

theorem Checked.andThen_ok (a : Checked) : a.andThen .ok = a := by
  cases a <;> rfl

theorem checkAll_append (a : Annotations V) (l l' : List Expr) :
    checkAll a (l ++ l') = (checkAll a l).andThen (checkAll a l') := by
  induction l with
  | nil => rfl
  | cons e l ih => rw [List.cons_append, checkAll, checkAll, ih, Checked.andThen_assoc]

theorem checkAll_singleton (a : Annotations V) (e : Expr) : checkAll a [e] = rootCheck a e := by
  rw [checkAll, checkAll, Checked.andThen_ok]

mutual

theorem validateExpr_eq (a : Annotations V) (e : Expr) : validateExpr a e = checkAll a (subterms e) := by
  cases e with
  | name v n => rw [validateExpr, subterms, checkAll_singleton]; rfl
  | number v n => rw [validateExpr, subterms, checkAll_singleton]; rfl
  | string v n => rw [validateExpr, subterms, checkAll_singleton]; rfl
  | call v n args =>
    rw [validateExpr, subterms, checkAll_append, checkAll_singleton, validateExprs_eq]; rfl
  | operator v n args =>
    rw [validateExpr, subterms, checkAll_append, checkAll_singleton, validateExprs_eq]; rfl
  | subscript v e i =>
    rw [validateExpr, subterms, checkAll_append, checkAll_append, checkAll_singleton,
      validateExpr_eq a e, validateExpr_eq a i]
    exact congrArg _ (Checked.andThen_ok _).symm
  | «attribute» v e m =>
    rw [validateExpr, subterms, checkAll_append, checkAll_singleton, validateExpr_eq a e]
    exact (Checked.andThen_ok _).symm

theorem validateExprs_eq (a : Annotations V) (es : List Expr) :
    validateExprs a es = checkAll a (subtermsList es) := by
  cases es with
  | nil => rw [validateExprs, subtermsList]; rfl
  | cons e es =>
    rw [validateExprs, subtermsList, checkAll_append, validateExpr_eq a e, validateExprs_eq a es]

end

mutual

theorem validateStmt_eq (a : Annotations V) (t : Stmt) : validateStmt a t = checkAll a (stmtTerms t) := by
  cases t with
  | expr e => rw [validateStmt, stmtTerms, validateExpr_eq]
  | assign v target n e =>
    rw [validateStmt, stmtTerms, checkAll_append, checkAll_singleton, validateExpr_eq]; rfl
  | ifElse v sv c tv ts t fv fs f =>
    rw [validateStmt, stmtTerms, checkAll_append, checkAll_append, validateExpr_eq,
      validateStmts_eq a t, validateStmts_eq a f]
  | «while» v sv c tv ts t fv fs f =>
    rw [validateStmt, stmtTerms, checkAll_append, checkAll_append, validateExpr_eq,
      validateStmts_eq a t, validateStmts_eq a f]
  | function v n args bv bs body =>
    rw [validateStmt, stmtTerms, checkAll_append, validateExprs_eq, validateStmts_eq a body]
  | ret v e => cases e with
    | none => rw [validateStmt, stmtTerms]; rfl
    | some e => rw [validateStmt, stmtTerms, validateExpr_eq]

theorem validateStmts_eq (a : Annotations V) (l : List Stmt) :
    validateStmts a l = checkAll a (stmtsTerms l) := by
  cases l with
  | nil => rw [validateStmts, stmtsTerms]; rfl
  | cons t l => rw [validateStmts, stmtsTerms, checkAll_append, validateStmt_eq a t, validateStmts_eq a l]

end

/-! ### The check at the root -/

theorem defined_iff (t : ExpressionType) : t.defined = true ↔ IsDefined t := by
  rw [ExpressionType.defined, Bool.and_eq_true, decide_eq_true_iff, decide_eq_true_iff, gt_iff_lt,
    gt_iff_lt, Flags.count_pos_iff, Flags.count_pos_iff]
  rfl

theorem somePassable_iff (p types : ExpressionTypes) :
    ExpressionTypes.isSatisfiedBy p types = true ↔ SomePassable p types := by
  rw [C42_alternatives]
  constructor
  · rintro ⟨u, hu, t, ht, h⟩
    rw [ExpressionType.isSatisfiedBy, Bool.and_eq_true, C40_subset, C40_subset] at h
    exact ⟨u, hu, ⟨h.1.1, h.2.1⟩, t, ht, h.1.2, h.2.2⟩
  · rintro ⟨u, hu, ⟨h1, h2⟩, t, ht, h3, h4⟩
    refine ⟨u, hu, t, ht, ?_⟩
    rw [ExpressionType.isSatisfiedBy, Bool.and_eq_true, C40_subset, C40_subset]
    exact ⟨⟨h1, h3⟩, h2, h4⟩

theorem checkArguments_eq (a : Annotations V) (v : Vid) (n : Str) (k : Nat) (ps : List ExpressionTypes)
    (es : List Expr) :
    (checkArguments a v n k ps es = .ok ∧ ∀ (i : Nat) (p : ExpressionTypes) (e : Expr), ps[i]? = some p → es[i]? = some e →
        SomePassable p (a.types e.vid)) ∨
    ∃ i p e, checkArguments a v n k ps es = .error (.wrongType v n (k + i + 1)) ∧ ps[i]? = some p ∧
      es[i]? = some e ∧ ¬ SomePassable p (a.types e.vid) ∧
      ∀ (j : Nat) (q : ExpressionTypes) (d : Expr), j < i → ps[j]? = some q → es[j]? = some d →
        SomePassable q (a.types d.vid) := by
  induction ps generalizing es k with
  | nil => left; simp [checkArguments]
  | cons p ps ih =>
    cases es with
    | nil => left; simp [checkArguments]
    | cons e es =>
      rw [checkArguments]
      by_cases h : SomePassable p (a.types e.vid)
      · rw [if_pos ((somePassable_iff _ _).2 h)]
        rcases ih (k + 1) es with ⟨h1, h2⟩ | ⟨i, q, d, h1, h2, h3, h4, h5⟩
        · left
          refine ⟨h1, fun i q d hq hd => ?_⟩
          cases i with
          | zero => simp at hq hd; rw [← hq, ← hd]; exact h
          | succ i => simp at hq hd; exact h2 i q d hq hd
        · right
          refine ⟨i + 1, q, d, by rw [h1]; congr 2; omega, by simpa using h2, by simpa using h3, h4, ?_⟩
          intro j q' d' hj hq hd
          cases j with
          | zero => simp at hq hd; rw [← hq, ← hd]; exact h
          | succ j => simp at hq hd; exact h5 j q' d' (by omega) hq hd
      · rw [if_neg (fun h' => h ((somePassable_iff _ _).1 h'))]
        right
        exact ⟨0, p, e, rfl, rfl, rfl, h, fun j _ _ hj => absurd hj (by omega)⟩

theorem checkOperation_eq (a : Annotations V) (v : Vid) (n : Str) (args : List Expr) :
    (checkOperation a v n args = .ok ∧ ∀ p, ¬ OperationProblem a v n args p) ∨
    ∃ p, checkOperation a v n args = .error p ∧ OperationProblem a v n args p ∧
      ∀ q, OperationProblem a v n args q → q = p := by
  rw [checkOperation]
  cases hop : a.operation v with
  | none =>
    right
    refine ⟨_, rfl, .unknown hop, fun q hq => ?_⟩
    cases hq with
    | unknown h => rfl
    | number op h => rw [hop] at h; cases h
    | type op h => rw [hop] at h; cases h
  | some op =>
    dsimp only
    by_cases hl : args.length = op.parameters.length
    · rw [if_neg (by simpa [Operation.arity] using hl)]
      rcases checkArguments_eq a v n 0 op.parameters args with ⟨h1, h2⟩ | ⟨i, p, e, h1, h2, h3, h4, h5⟩
      · left
        refine ⟨h1, fun q hq => ?_⟩
        cases hq with
        | unknown h => rw [hop] at h; cases h
        | number op' h hl' =>
          rw [hop] at h; cases h; exact hl' hl
        | type op' h hl' i p e hp he hi hj =>
          rw [hop] at h; cases h; exact hi (h2 i p e hp he)
      · right
        refine ⟨_, h1, ?_, fun q hq => ?_⟩
        · rw [Nat.zero_add]
          exact .type op hop hl i p e h2 h3 h4 h5
        · cases hq with
          | unknown h => rw [hop] at h; cases h
          | number op' h hl' =>
            rw [hop] at h; cases h; exact absurd hl hl'
          | type op' h hl' i' p' e' hp he hi hj =>
            rw [hop] at h
            cases h
            rcases Nat.lt_trichotomy i i' with hlt | rfl | hlt
            · exact absurd (hj i p e hlt h2 h3) h4
            · rw [Nat.zero_add]
            · exact absurd (h5 i' p' e' hlt hp he) hi
    · rw [if_pos (by simpa [Operation.arity] using hl)]
      right
      refine ⟨_, rfl, .number op hop hl, fun q hq => ?_⟩
      cases hq with
      | unknown h => rw [hop] at h; cases h
      | number op' h hl' => rw [hop] at h; cases h; rfl
      | type op' h hl' => rw [hop] at h; cases h; exact absurd hl' hl

theorem rootCheck_eq (a : Annotations V) (e : Expr) (hn : NamesAnnotated a [e]) :
    (rootCheck a e = .ok ∧ ∀ p, ¬ RootProblem a e p) ∨
    ∃ p, rootCheck a e = .error p ∧ RootProblem a e p ∧ ∀ q, RootProblem a e q → q = p := by
  cases e with
  | name v n =>
    obtain ⟨t, ht⟩ := hn v n (by simp)
    rw [rootCheck, checkName, ht]
    dsimp only
    by_cases h : IsDefined t
    · left
      rw [if_pos ((defined_iff t).2 h)]
      refine ⟨rfl, fun p hp => ?_⟩
      cases hp with
      | name _ _ t' h' hu => rw [ht] at h'; cases h'; exact hu h
    · right
      rw [if_neg (fun h' => h ((defined_iff t).1 h'))]
      refine ⟨_, rfl, .name v n t ht h, fun q hq => ?_⟩
      cases hq with
      | name _ _ t' h' hu => rfl
  | number v n => left; exact ⟨rfl, fun p hp => by cases hp⟩
  | string v n => left; exact ⟨rfl, fun p hp => by cases hp⟩
  | call v n args =>
    rw [rootCheck]
    rcases checkOperation_eq a v n args with ⟨h1, h2⟩ | ⟨p, h1, h2, h3⟩
    · left
      refine ⟨h1, fun p hp => ?_⟩
      cases hp with
      | call _ _ _ _ h => exact h2 p h
    · right
      refine ⟨p, h1, .call v n args p h2, fun q hq => ?_⟩
      cases hq with
      | call _ _ _ _ h => exact h3 q h
  | operator v n args =>
    rw [rootCheck]
    rcases checkOperation_eq a v n args with ⟨h1, h2⟩ | ⟨p, h1, h2, h3⟩
    · left
      refine ⟨h1, fun p hp => ?_⟩
      cases hp with
      | operator _ _ _ _ h => exact h2 p h
    · right
      refine ⟨p, h1, .operator v n args p h2, fun q hq => ?_⟩
      cases hq with
      | operator _ _ _ _ h => exact h3 q h
  | subscript v e i => left; exact ⟨rfl, fun p hp => by cases hp⟩
  | «attribute» v e m => left; exact ⟨rfl, fun p hp => by cases hp⟩

theorem checkAll_eq (a : Annotations V) (l : List Expr) (hn : NamesAnnotated a l) :
    (checkAll a l = .ok ∧ ∀ e ∈ l, ∀ p, ¬ RootProblem a e p) ∨
    ∃ l1 e l2 p, l = l1 ++ e :: l2 ∧ checkAll a l = .error p ∧ RootProblem a e p ∧
      (∀ q, RootProblem a e q → q = p) ∧ ∀ d ∈ l1, ∀ q, ¬ RootProblem a d q := by
  induction l with
  | nil => left; exact ⟨rfl, fun e he => by cases he⟩
  | cons e l ih =>
    have h1 : NamesAnnotated a [e] := fun v n h => hn v n (by
      rw [List.mem_singleton] at h; rw [← h]; exact List.mem_cons_self)
    have h2 : NamesAnnotated a l := fun v n h => hn v n (List.mem_cons_of_mem _ h)
    rw [checkAll]
    rcases rootCheck_eq a e h1 with ⟨h3, h4⟩ | ⟨p, h3, h4, h5⟩
    · rw [h3]
      rcases ih h2 with ⟨h6, h7⟩ | ⟨l1, d, l2, p, h6, h7, h8, h9, h10⟩
      · left
        refine ⟨h6, fun d hd => ?_⟩
        rcases List.mem_cons.1 hd with rfl | hd
        · exact h4
        · exact h7 d hd
      · right
        refine ⟨e :: l1, d, l2, p, by rw [h6]; rfl, h7, h8, h9, fun x hx => ?_⟩
        rcases List.mem_cons.1 hx with rfl | hx
        · exact h4
        · exact h10 x hx
    · right
      exact ⟨[], e, l, p, rfl, by rw [h3]; rfl, h4, h5, fun d hd => by cases hd⟩

end Fern
