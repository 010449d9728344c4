import Verif.Spec.Interpreter
import Verif.Lemmas.Execute
import Verif.Lemmas.Annotate
import Verif.Lemmas.Validate

/-!
Lemmas about the interpreter.
-/

namespace Fern

open Spec

variable {V : Type}

theorem Checked.andThen_eq_ok {a b : Checked} (h : a.andThen b = .ok) : a = .ok ∧ b = .ok := by
  cases a
  · exact ⟨rfl, h⟩
  · cases h
  · cases h

/-- The type stored at an argument that can be passed is the type of the argument. -/
theorem passable_type {ops : Operations V} {tenv : Str → ExpressionType} {s : AnnotateState V} {e : Expr}
    {t : ExpressionType} (ha : AnnotatedAs ops tenv s e)
    (ht : typeExpr (reversedRules ops) tenv e = some t) {p : ExpressionTypes}
    (hp : SomePassable p (s.types e.vid)) : Passable p t := by
  obtain ⟨u, hu, hpu⟩ := hp
  cases e with
  | name v n =>
    rw [typeExpr] at ht; cases ht
    rw [AnnotatedAs] at ha; rw [Expr.vid, ha, List.mem_singleton] at hu; rw [← hu]; exact hpu
  | number v n =>
    rw [typeExpr] at ht; cases ht
    rw [AnnotatedAs] at ha; rw [Expr.vid, ha, List.mem_singleton] at hu; rw [← hu]; exact hpu
  | string v n =>
    rw [typeExpr] at ht; cases ht
    rw [AnnotatedAs] at ha; rw [Expr.vid, ha, List.mem_singleton] at hu; rw [← hu]; exact hpu
  | call v n args =>
    rw [AnnotatedAs] at ha
    obtain ⟨_, t', h1, h2⟩ := ha
    rw [ht] at h1; cases h1
    rw [Expr.vid, h2, List.mem_singleton] at hu; rw [← hu]; exact hpu
  | operator v n args =>
    rw [AnnotatedAs] at ha
    obtain ⟨_, t', h1, h2⟩ := ha
    rw [ht] at h1; cases h1
    rw [Expr.vid, h2, List.mem_singleton] at hu; rw [← hu]; exact hpu
  | subscript v e i => rw [AnnotatedAs] at ha; rw [Expr.vid, ha] at hu; cases hu
  | «attribute» v e m => rw [AnnotatedAs] at ha; rw [Expr.vid, ha] at hu; cases hu

theorem mem_subterms_self (e : Expr) : e ∈ subterms e := by
  cases e <;> simp [subterms]

theorem checkArguments_passable {a : Annotations V} {v : Vid} {n : Str} {k : Nat}
    {ps : List ExpressionTypes} {es : List Expr} {ts : List ExpressionType}
    (h : checkArguments a v n k ps es = .ok) (hlen : es.length = ps.length)
    (hts : List.Forall₂ (fun e t => ∀ p, SomePassable p (a.types e.vid) → Passable p t) es ts) :
    List.Forall₂ Passable ps ts := by
  induction ps generalizing es ts k with
  | nil =>
    cases es with
    | nil => cases hts; exact .nil
    | cons e es => simp at hlen
  | cons p ps ih =>
    cases es with
    | nil => simp at hlen
    | cons e es =>
      cases hts with
      | cons h1 h2 =>
        rw [checkArguments] at h
        split at h
        · rename_i hsat
          exact .cons (h1 p ((somePassable_iff _ _).1 hsat)) (ih h (by simpa using hlen) h2)
        · cases h

/-- Values for all names with a defined type. -/
def NamesHaveValues (hasType : V → ExpressionType → Prop) (env : Str → Option V)
    (tenv : Str → ExpressionType) : Prop :=
  ∀ n, IsDefined (tenv n) → ∃ x, env n = some x ∧ hasType x (tenv n)

theorem arityRight_operation {ops : Operations V} {l : List Expr} {e : Expr} {n : Str}
    {args : List Expr} {op : Operation V} (he : (∃ v, e = .call v n args) ∨ ∃ v, e = .operator v n args)
    (hl : ArityRight ops l) (hop : ops n = some op) (hlen : args.length = op.parameters.length) :
    ArityRight ops (l ++ [e]) := by
  constructor
  · intro v' n' args' hm op' hop'
    rcases List.mem_append.1 hm with hm | hm
    · exact hl.call v' n' args' hm op' hop'
    · rw [List.mem_singleton] at hm
      rcases he with ⟨v, rfl⟩ | ⟨v, rfl⟩
      · cases hm
        rw [hop] at hop'; cases hop'; exact hlen
      · cases hm
  · intro v' n' args' hm op' hop'
    rcases List.mem_append.1 hm with hm | hm
    · exact hl.operator v' n' args' hm op' hop'
    · rw [List.mem_singleton] at hm
      rcases he with ⟨v, rfl⟩ | ⟨v, rfl⟩
      · cases hm
      · cases hm
        rw [hop] at hop'; cases hop'; exact hlen

theorem arityRight_append {ops : Operations V} {a b : List Expr} (ha : ArityRight ops a)
    (hb : ArityRight ops b) : ArityRight ops (a ++ b) := by
  constructor
  · intro v n args hm
    rcases List.mem_append.1 hm with hm | hm
    · exact ha.call v n args hm
    · exact hb.call v n args hm
  · intro v n args hm
    rcases List.mem_append.1 hm with hm | hm
    · exact ha.operator v n args hm
    · exact hb.operator v n args hm

/-- A validated operation, given what holds of its arguments. -/
theorem operation_sound (c : ExecuteContext V) {hasType : V → ExpressionType → Prop}
    (hw : WellTyped ⟨c.ops, c.number, c.string⟩ hasType) {env : Str → Option V}
    {tenv : Str → ExpressionType} {s : AnnotateState V} {v : Vid} {n : Str} {args : List Expr}
    {xs : List V} {ts : List ExpressionType} (hop : s.operation v = c.ops n)
    {t : ExpressionType} (ht : (typeExprs (reversedRules c.ops) tenv args).bind
      (operationType (reversedRules c.ops) n) = some t)
    (h1 : evalExprs c env args = some xs) (h2 : typeExprs (reversedRules c.ops) tenv args = some ts)
    (h3 : List.Forall₂ hasType xs ts)
    (h4 : List.Forall₂ (fun e t => ∀ p, SomePassable p (s.types e.vid) → Passable p t) args ts)
    (hv : checkOperation ⟨s.types, s.operation⟩ v n args = .ok) :
    ∃ x op, (evalExprs c env args).bind (operationValue c.ops n) = some x ∧ hasType x t ∧
      c.ops n = some op ∧ args.length = op.parameters.length := by
  rw [checkOperation] at hv
  dsimp only at hv
  rw [hop] at hv
  cases ho : c.ops n with
  | none => rw [ho] at hv; cases hv
  | some op =>
    rw [ho] at hv
    dsimp only at hv
    split at hv
    · cases hv
    · rename_i hlen
      rw [not_not, Operation.arity] at hlen
      have hpass := checkArguments_passable hv hlen h4
      rw [h2, Option.bind_some, operationType_reversed, operationType, ho] at ht
      dsimp only at ht
      rw [if_pos (by rw [List.length_reverse, typeExprs_length h2, hlen])] at ht
      obtain ⟨x, hx, hxt⟩ := hw.operation n op ho xs ts h3 hpass t ht
      refine ⟨x, op, ?_, hxt, rfl, hlen⟩
      rw [h1, Option.bind_some, operationValue, ho]
      dsimp only
      rw [hx]

mutual

/-- A validated expression has a value of its type. -/
theorem expr_sound (c : ExecuteContext V) {hasType : V → ExpressionType → Prop}
    (hw : WellTyped ⟨c.ops, c.number, c.string⟩ hasType) (env : Str → Option V)
    (tenv : Str → ExpressionType) (henv : NamesHaveValues hasType env tenv) (s : AnnotateState V)
    (e : Expr) (hs : NoSubscript e) (ha : ∀ d ∈ subterms e, AnnotatedAs c.ops tenv s d)
    (hv : validateExpr ⟨s.types, s.operation⟩ e = .ok) :
    (∃ x t, evalExpr c env e = some x ∧ typeExpr (reversedRules c.ops) tenv e = some t ∧ hasType x t) ∧
      ArityRight c.ops (subterms e) := by
  cases e with
  | name v n =>
    rw [validateExpr, checkName] at hv
    have h1 := ha _ (mem_subterms_self _)
    rw [AnnotatedAs] at h1
    dsimp only at hv
    rw [h1] at hv
    dsimp only at hv
    split at hv
    · rename_i hd
      obtain ⟨x, hx, hxt⟩ := henv n ((defined_iff _).1 hd)
      refine ⟨⟨x, _, by rw [evalExpr, hx], by rw [typeExpr], hxt⟩, ?_⟩
      constructor <;> · intro v n args hm; simp [subterms] at hm
    · cases hv
  | number v n =>
    refine ⟨⟨_, _, by rw [evalExpr], by rw [typeExpr], hw.number n⟩, ?_⟩
    constructor <;> · intro v n args hm; simp [subterms] at hm
  | string v n =>
    refine ⟨⟨_, _, by rw [evalExpr], by rw [typeExpr], hw.string n⟩, ?_⟩
    constructor <;> · intro v n args hm; simp [subterms] at hm
  | call v n args =>
    rw [NoSubscript] at hs
    rw [validateExpr] at hv
    obtain ⟨hv1, hv2⟩ := Checked.andThen_eq_ok hv
    obtain ⟨⟨xs, ts, h1, h2, h3, h4⟩, h5⟩ := exprs_sound c hw env tenv henv s args hs
      (fun d hd => ha d (by rw [subterms]; exact List.mem_append_left _ hd)) hv1
    have h6 := ha _ (mem_subterms_self _)
    rw [AnnotatedAs] at h6
    obtain ⟨hop, t, ht, _⟩ := h6
    rw [typeExpr] at ht
    obtain ⟨x, op, hx, hxt, ho, hlen⟩ := operation_sound c hw hop ht h1 h2 h3 h4 hv2
    refine ⟨⟨x, t, by rw [evalExpr]; exact hx, by rw [typeExpr]; exact ht, hxt⟩, ?_⟩
    rw [subterms]
    exact arityRight_operation (.inl ⟨v, rfl⟩) h5 ho hlen
  | operator v n args =>
    rw [NoSubscript] at hs
    rw [validateExpr] at hv
    obtain ⟨hv1, hv2⟩ := Checked.andThen_eq_ok hv
    obtain ⟨⟨xs, ts, h1, h2, h3, h4⟩, h5⟩ := exprs_sound c hw env tenv henv s args hs
      (fun d hd => ha d (by rw [subterms]; exact List.mem_append_left _ hd)) hv1
    have h6 := ha _ (mem_subterms_self _)
    rw [AnnotatedAs] at h6
    obtain ⟨hop, t, ht, _⟩ := h6
    rw [typeExpr] at ht
    obtain ⟨x, op, hx, hxt, ho, hlen⟩ := operation_sound c hw hop ht h1 h2 h3 h4 hv2
    refine ⟨⟨x, t, by rw [evalExpr]; exact hx, by rw [typeExpr]; exact ht, hxt⟩, ?_⟩
    rw [subterms]
    exact arityRight_operation (.inr ⟨v, rfl⟩) h5 ho hlen
  | subscript v e i => rw [NoSubscript] at hs; exact hs.elim
  | «attribute» v e m =>
    rw [NoSubscript] at hs
    rw [validateExpr] at hv
    obtain ⟨⟨x, t, h1, h2, h3⟩, h4⟩ := expr_sound c hw env tenv henv s e hs
      (fun d hd => ha d (by rw [subterms]; exact List.mem_append_left _ hd)) hv
    refine ⟨⟨x, t, by rw [evalExpr]; exact h1, by rw [typeExpr]; exact h2, h3⟩, ?_⟩
    rw [subterms]
    refine arityRight_append h4 ?_
    constructor <;> · intro v n args hm; simp at hm

theorem exprs_sound (c : ExecuteContext V) {hasType : V → ExpressionType → Prop}
    (hw : WellTyped ⟨c.ops, c.number, c.string⟩ hasType) (env : Str → Option V)
    (tenv : Str → ExpressionType) (henv : NamesHaveValues hasType env tenv) (s : AnnotateState V)
    (es : List Expr) (hs : NoSubscripts es) (ha : ∀ d ∈ subtermsList es, AnnotatedAs c.ops tenv s d)
    (hv : validateExprs ⟨s.types, s.operation⟩ es = .ok) :
    (∃ xs ts, evalExprs c env es = some xs ∧ typeExprs (reversedRules c.ops) tenv es = some ts ∧
        List.Forall₂ hasType xs ts ∧
        List.Forall₂ (fun e t => ∀ p, SomePassable p (s.types e.vid) → Passable p t) es ts) ∧
      ArityRight c.ops (subtermsList es) := by
  cases es with
  | nil =>
    refine ⟨⟨[], [], by rw [evalExprs], by rw [typeExprs], .nil, .nil⟩, ?_⟩
    constructor <;> · intro v n args hm; simp [subtermsList] at hm
  | cons e es =>
    rw [NoSubscripts] at hs
    rw [validateExprs] at hv
    obtain ⟨hv1, hv2⟩ := Checked.andThen_eq_ok hv
    obtain ⟨⟨x, t, h1, h2, h3⟩, h4⟩ := expr_sound c hw env tenv henv s e hs.1
      (fun d hd => ha d (by rw [subtermsList]; exact List.mem_append_left _ hd)) hv1
    obtain ⟨⟨xs, ts, g1, g2, g3, g4⟩, g5⟩ := exprs_sound c hw env tenv henv s es hs.2
      (fun d hd => ha d (by rw [subtermsList]; exact List.mem_append_right _ hd)) hv2
    refine ⟨⟨x :: xs, t :: ts, by rw [evalExprs, h1, Option.bind_some, g1]; rfl,
      by rw [typeExprs, h2, Option.bind_some, g2]; rfl, .cons h3 g3, .cons ?_ g4⟩, ?_⟩
    · intro p hp
      exact passable_type (ha e (by rw [subtermsList]; exact List.mem_append_left _ (mem_subterms_self e)))
        h2 hp
    · rw [subtermsList]; exact arityRight_append h4 g5

end

/-! ### Statements -/

theorem termIds_expr (e : Expr) (l : List Stmt) : termIds (.expr e :: l) = exprIds e ++ termIds l := by
  simp [termIds, stmtsTerms, stmtTerms, exprIds]

theorem termIds_assign (v target : Vid) (n : Str) (e : Expr) (l : List Stmt) :
    termIds (.assign v target n e :: l) = exprIds e ++ (target :: termIds l) := by
  simp [termIds, stmtsTerms, stmtTerms, exprIds, Expr.vid]

theorem finishAssign_some {s s' : AnnotateState V} {target : Vid} {n : Str} {e : Vid}
    (h : s.finishAssign target n e = some s') :
    ∃ t stack, s.stack = t :: stack ∧ s'.stack = stack ∧ s.table ≠ [] ∧ s'.table ≠ [] ∧
      (∀ m, s'.table.value m = if m = n then some t else s.table.value m) ∧
      (∀ v, v ≠ target → s'.types v = s.types v) ∧ s'.operation = s.operation ∧
      s'.types target = s.types e := by
  rw [AnnotateState.finishAssign] at h
  cases hst : s.stack with
  | nil => rw [hst] at h; cases h
  | cons t stack =>
    rw [hst] at h
    dsimp only at h
    obtain ⟨table, h1, h2⟩ := Option.bind_eq_some_iff.1 h
    split at h2
    · cases h2
      have hne : s.table ≠ [] := by
        intro h0; rw [h0] at h1; cases h1
      obtain ⟨t', g1, g2, g3⟩ := SymbolTable.addValue_some hne n t
      rw [h1] at g1
      cases g1
      exact ⟨t, stack, rfl, rfl, hne, g2, g3, fun v hv => updateAt_of_ne hv, rfl, updateAt_self⟩
    · cases h2

/-- Annotation of statements changes the vertices of the statements only. -/
theorem annotateStmts_frame {ops : Operations V} {l : List Stmt} (hl : StraightLine l)
    {s s' : AnnotateState V} (h : annotateStmts ops s l = some s') {v : Vid} (hv : v ∉ termIds l) :
    s'.types v = s.types v ∧ s'.operation v = s.operation v := by
  induction l generalizing s with
  | nil => rw [annotateStmts] at h; cases h; exact ⟨rfl, rfl⟩
  | cons t l ih =>
    rw [annotateStmts] at h
    obtain ⟨s1, h1, h2⟩ := Option.bind_eq_some_iff.1 h
    cases t with
    | expr e =>
      rw [StraightLine] at hl
      rw [termIds_expr, List.mem_append, not_or] at hv
      rw [annotateStmt] at h1
      have hf := annotateExpr_frame ops s s1 e h1
      obtain ⟨g1, g2⟩ := ih hl.2 h2 hv.2
      exact ⟨g1.trans (hf.types v hv.1), g2.trans (hf.operation v hv.1)⟩
    | assign w target n e =>
      rw [StraightLine] at hl
      rw [termIds_assign, List.mem_append, List.mem_cons, not_or, not_or] at hv
      rw [annotateStmt] at h1
      obtain ⟨s0, h0, h01⟩ := Option.bind_eq_some_iff.1 h1
      have hf := annotateExpr_frame ops s s0 e h0
      obtain ⟨t, stack, _, _, _, _, _, k7, k8, _⟩ := finishAssign_some h01
      obtain ⟨g1, g2⟩ := ih hl.2 h2 hv.2.2
      refine ⟨g1.trans ((k7 v hv.2.1).trans (hf.types v hv.1)), g2.trans ?_⟩
      rw [k8]
      exact hf.operation v hv.1
    | ifElse => exact hl.elim
    | «while» => exact hl.elim
    | function => exact hl.elim
    | ret => exact hl.elim

/-- All names with a defined type have a value of that type. -/
def TableHasValues (hasType : V → ExpressionType → Prop) (env : Str → Option V)
    (table : SymbolTable ExpressionType) : Prop :=
  ∀ n t, table.value n = some t → IsDefined t → ∃ x, env n = some x ∧ hasType x t

theorem not_isDefined_undefined : ¬ IsDefined ExpressionType.undefined := by
  rw [← defined_iff]
  decide

theorem TableHasValues.names {hasType : V → ExpressionType → Prop} {env : Str → Option V}
    {s : AnnotateState V} (h : TableHasValues hasType env s.table) :
    NamesHaveValues hasType env s.nameType := by
  intro n hd
  rw [AnnotateState.nameType] at hd ⊢
  cases hv : s.table.value n with
  | none => rw [hv] at hd; exact absurd hd not_isDefined_undefined
  | some t => rw [hv] at hd; exact h n t hv hd

/-- Validated straight-line statements have a meaning, and the values agree with the types. -/
theorem stmts_sound (c : ExecuteContext V) {hasType : V → ExpressionType → Prop}
    (hw : WellTyped ⟨c.ops, c.number, c.string⟩ hasType) (l : List Stmt) (hl : StraightLine l)
    (s s' : AnnotateState V) (h : annotateStmts c.ops s l = some s') (hn : (termIds l).Nodup)
    (hf : Unannotated s (termIds l)) (hv : validateStmts ⟨s'.types, s'.operation⟩ l = .ok)
    (env : Str → Option V) (henv : TableHasValues hasType env s.table) :
    (∃ env' out ts, evalStmts c env l = some (env', out) ∧ s'.stack = ts.reverse ++ s.stack ∧
        List.Forall₂ hasType out ts ∧ TableHasValues hasType env' s'.table) ∧
      ArityRight c.ops (stmtsTerms l) := by
  induction l generalizing s env with
  | nil =>
    rw [annotateStmts] at h
    cases h
    refine ⟨⟨env, [], [], by rw [evalStmts], rfl, .nil, henv⟩, ?_⟩
    constructor <;> · intro v n args hm; simp [stmtsTerms] at hm
  | cons t l ih =>
    rw [annotateStmts] at h
    obtain ⟨s1, h1, h2⟩ := Option.bind_eq_some_iff.1 h
    rw [validateStmts] at hv
    obtain ⟨hv1, hv2⟩ := Checked.andThen_eq_ok hv
    cases t with
    | expr e =>
      rw [StraightLine] at hl
      rw [termIds_expr] at hn hf
      rw [annotateStmt] at h1
      rw [validateStmt] at hv1
      obtain ⟨k1, k2⟩ := annotateExpr_typed c.ops s e hl.1 (List.nodup_append.1 hn).1 hf.left
      have hfr := annotateExpr_frame c.ops s s1 e h1
      have hann : ∀ d ∈ subterms e, AnnotatedAs c.ops s.nameType s' d := by
        intro d hd
        have hvid : d.vid ∉ termIds l := fun hm =>
          nodup_disjoint hn d.vid hm (List.mem_map_of_mem hd)
        obtain ⟨f1, f2⟩ := annotateStmts_frame hl.2 h2 hvid
        exact (k2 s1 h1 d hd).of_eq f1 f2
      obtain ⟨⟨x, t, e1, e2, e3⟩, e4⟩ := expr_sound c hw env s.nameType henv.names s' e hl.1 hann hv1
      rw [h1, e2, Option.map_some, Option.map_some] at k1
      have hst : s1.stack = t :: s.stack := Option.some.inj k1
      obtain ⟨⟨env', out, ts, m1, m2, m3, m4⟩, m5⟩ := ih hl.2 s1 h2 (List.nodup_append.1 hn).2.1
        (hf.right.after hfr (nodup_disjoint hn)) hv2 env (by rw [hfr.table]; exact henv)
      refine ⟨⟨env', x :: out, t :: ts, by rw [evalStmts, e1, Option.bind_some, m1]; rfl, ?_,
        .cons e3 m3, m4⟩, ?_⟩
      · rw [m2, hst]; simp
      · rw [stmtsTerms, stmtTerms]
        exact arityRight_append e4 m5
    | assign v target n e =>
      rw [StraightLine] at hl
      rw [termIds_assign] at hn hf
      rw [annotateStmt] at h1
      obtain ⟨s0, h0, h01⟩ := Option.bind_eq_some_iff.1 h1
      rw [validateStmt] at hv1
      obtain ⟨hv0, _⟩ := Checked.andThen_eq_ok hv1
      obtain ⟨k1, k2⟩ := annotateExpr_typed c.ops s e hl.1 (List.nodup_append.1 hn).1 hf.left
      have hfr := annotateExpr_frame c.ops s s0 e h0
      obtain ⟨t, stack, q1, q2, q3, q4, q5, q6, q7, _⟩ := finishAssign_some h01
      have hann : ∀ d ∈ subterms e, AnnotatedAs c.ops s.nameType s' d := by
        intro d hd
        have hid : d.vid ∈ exprIds e := List.mem_map_of_mem hd
        have hvid : d.vid ∉ termIds l := fun hm =>
          nodup_disjoint hn d.vid (List.mem_cons_of_mem _ hm) hid
        have hne : d.vid ≠ target := fun hm =>
          nodup_disjoint hn target (List.mem_cons_self ..) (hm ▸ hid)
        obtain ⟨f1, f2⟩ := annotateStmts_frame hl.2 h2 hvid
        exact (k2 s0 h0 d hd).of_eq (f1.trans (q6 _ hne)) (f2.trans (by rw [q7]))
      obtain ⟨⟨x, t', e1, e2, e3⟩, e4⟩ := expr_sound c hw env s.nameType henv.names s' e hl.1 hann hv0
      rw [h0, e2, Option.map_some, Option.map_some] at k1
      have hst : s0.stack = t' :: s.stack := Option.some.inj k1
      rw [hst] at q1
      obtain ⟨rfl, rfl⟩ := List.cons.inj q1
      have hn2 := (List.nodup_append.1 hn).2.1
      have hunann : Unannotated s1 (termIds l) := by
        have h3 : Unannotated s0 (target :: termIds l) := hf.right.after hfr (nodup_disjoint hn)
        intro w hw'
        have hne : w ≠ target := fun hm => (List.nodup_cons.1 hn2).1 (hm ▸ hw')
        obtain ⟨u1, u2⟩ := h3 w (List.mem_cons_of_mem _ hw')
        exact ⟨(q6 w hne).trans u1, by rw [q7]; exact u2⟩
      obtain ⟨⟨env', out, ts, m1, m2, m3, m4⟩, m5⟩ := ih hl.2 s1 h2 (List.nodup_cons.1 hn2).2
        hunann hv2 (bindName env n x) (by
          intro m t'' ht hd
          rw [q5] at ht
          by_cases hm : m = n
          · rw [if_pos hm] at ht
            cases ht
            exact ⟨x, by rw [bindName, if_pos hm], e3⟩
          · rw [if_neg hm, hfr.table] at ht
            obtain ⟨y, hy, hyt⟩ := henv m t'' ht hd
            exact ⟨y, by rw [bindName, if_neg hm, hy], hyt⟩)
      refine ⟨⟨env', out, ts, by rw [evalStmts, e1, Option.bind_some, m1], ?_, m3, m4⟩, ?_⟩
      · rw [m2, q2]
      · rw [stmtsTerms, stmtTerms]
        refine arityRight_append (arityRight_append e4 ?_) m5
        constructor <;> · intro v n args hm; simp at hm
    | ifElse => exact hl.elim
    | «while» => exact hl.elim
    | function => exact hl.elim
    | ret => exact hl.elim

end Fern
