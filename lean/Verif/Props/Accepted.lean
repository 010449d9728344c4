import Verif.Spec.Accepted
import Verif.Props.Interpreter

/-!
# C93: the scripts that are accepted are the well-typed ones
-/

namespace Fern

open Spec

variable {V : Type}

theorem somePassable_annotated {ops : Operations V} {tenv : Str → ExpressionType} {s : AnnotateState V} {e : Expr}
    (ha : AnnotatedAs ops tenv s e) (hs : NoSubscript e) (p : ExpressionTypes) :
    SomePassable p (s.types e.vid) ↔ Suits ops tenv p e := by
  cases e with
  | name v n => rw [AnnotatedAs] at ha; simp [SomePassable, Suits, Expr.vid, ha, Expr.isAttribute, typeExpr]
  | number v n => rw [AnnotatedAs] at ha; simp [SomePassable, Suits, Expr.vid, ha, Expr.isAttribute, typeExpr]
  | string v n => rw [AnnotatedAs] at ha; simp [SomePassable, Suits, Expr.vid, ha, Expr.isAttribute, typeExpr]
  | call v n args =>
    rw [AnnotatedAs] at ha
    obtain ⟨_, t, h1, h2⟩ := ha
    simp [SomePassable, Suits, Expr.vid, h2, Expr.isAttribute, h1]
  | operator v n args =>
    rw [AnnotatedAs] at ha
    obtain ⟨_, t, h1, h2⟩ := ha
    simp [SomePassable, Suits, Expr.vid, h2, Expr.isAttribute, h1]
  | subscript v e i => rw [NoSubscript] at hs; exact hs.elim
  | «attribute» v e m =>
    rw [AnnotatedAs] at ha
    simp [SomePassable, Suits, Expr.vid, ha, Expr.isAttribute]

theorem checkArguments_suits {ops : Operations V} {tenv : Str → ExpressionType} {s : AnnotateState V} {v : Vid} {n : Str}
    (ps : List ExpressionTypes) : ∀ (k : Nat) (es : List Expr), (∀ e ∈ es, AnnotatedAs ops tenv s e) → NoSubscripts es →
    es.length = ps.length →
    (checkArguments ⟨s.types, s.operation⟩ v n k ps es = .ok ↔ List.Forall₂ (Suits ops tenv) ps es) := by
  induction ps with
  | nil =>
    intro k es _ _ hl
    cases es with
    | nil => simp [checkArguments]
    | cons e es => simp at hl
  | cons p ps ih =>
    intro k es ha hs hl
    cases es with
    | nil => simp at hl
    | cons e es =>
      rw [NoSubscripts] at hs
      have key := somePassable_annotated (ha e List.mem_cons_self) hs.1 p
      rw [checkArguments, List.forall₂_cons]
      by_cases h : SomePassable p (s.types e.vid)
      · rw [if_pos ((somePassable_iff _ _).2 h), ih (k + 1) es (fun d hd => ha d (List.mem_cons_of_mem _ hd)) hs.2
          (by simpa using hl)]
        exact ⟨fun k => ⟨key.1 h, k⟩, fun k => k.2⟩
      · rw [if_neg (fun h' => h ((somePassable_iff _ _).1 h'))]
        exact ⟨fun k => (by cases k), fun k => absurd (key.2 k.1) h⟩

theorem Checked.andThen_ok_iff {a b : Checked} : a.andThen b = .ok ↔ a = .ok ∧ b = .ok := by
  cases a <;> simp [Checked.andThen]

theorem checkOperation_fine {ops : Operations V} {tenv : Str → ExpressionType} {s : AnnotateState V} {v : Vid} {n : Str}
    {args : List Expr} (hop : s.operation v = ops n) (ha : ∀ e ∈ args, AnnotatedAs ops tenv s e)
    (hs : NoSubscripts args) :
    checkOperation ⟨s.types, s.operation⟩ v n args = .ok ↔ FineCall ops tenv n args := by
  rw [checkOperation, FineCall]
  dsimp only
  rw [hop]
  cases ho : ops n with
  | none => simp
  | some op =>
    dsimp only
    by_cases hl : args.length = op.parameters.length
    · rw [if_neg (by simpa [Operation.arity] using hl), checkArguments_suits _ _ _ ha hs hl]
      simp
    · rw [if_pos (by simpa [Operation.arity] using hl)]
      constructor
      · intro k; cases k
      · rintro ⟨op', h1, h2⟩
        cases h1
        exact absurd h2.length_eq.symm hl

theorem mem_subtermsList {e d : Expr} {es : List Expr} (he : e ∈ es) (hd : d ∈ subterms e) : d ∈ subtermsList es := by
  induction es with
  | nil => cases he
  | cons a es ih =>
    rw [subtermsList, List.mem_append]
    rcases List.mem_cons.1 he with rfl | h
    · exact .inl hd
    · exact .inr (ih h)

mutual

theorem validateExpr_fine {ops : Operations V} {tenv : Str → ExpressionType} {s : AnnotateState V} (e : Expr)
    (hs : NoSubscript e) (ha : ∀ d ∈ subterms e, AnnotatedAs ops tenv s d) :
    validateExpr ⟨s.types, s.operation⟩ e = .ok ↔ Fine ops tenv e := by
  cases e with
  | name v n =>
    have h := ha _ (mem_subterms_self _)
    rw [AnnotatedAs] at h
    rw [validateExpr, checkName, Fine]
    dsimp only
    rw [h]
    dsimp only
    by_cases hd : IsDefined (tenv n)
    · simp [(defined_iff _).2 hd, hd]
    · rw [if_neg (fun k => hd ((defined_iff _).1 k))]
      simp [hd]
  | number v n => simp [validateExpr, Fine]
  | string v n => simp [validateExpr, Fine]
  | call v n args =>
    rw [NoSubscript] at hs
    have h := ha _ (mem_subterms_self _)
    rw [AnnotatedAs] at h
    rw [subterms] at ha
    have ha' : ∀ d ∈ subtermsList args, AnnotatedAs ops tenv s d := fun d hd => ha d (List.mem_append_left _ hd)
    rw [validateExpr, Fine, Checked.andThen_ok_iff, validateExprs_fine args hs ha',
      checkOperation_fine h.1 (fun e he => ha' e (mem_subtermsList he (mem_subterms_self e))) hs]
  | operator v n args =>
    rw [NoSubscript] at hs
    have h := ha _ (mem_subterms_self _)
    rw [AnnotatedAs] at h
    rw [subterms] at ha
    have ha' : ∀ d ∈ subtermsList args, AnnotatedAs ops tenv s d := fun d hd => ha d (List.mem_append_left _ hd)
    rw [validateExpr, Fine, Checked.andThen_ok_iff, validateExprs_fine args hs ha',
      checkOperation_fine h.1 (fun e he => ha' e (mem_subtermsList he (mem_subterms_self e))) hs]
  | subscript v e i => rw [NoSubscript] at hs; exact hs.elim
  | «attribute» v e m =>
    rw [NoSubscript] at hs
    rw [subterms] at ha
    rw [validateExpr, Fine, validateExpr_fine e hs fun d hd => ha d (List.mem_append_left _ hd)]

theorem validateExprs_fine {ops : Operations V} {tenv : Str → ExpressionType} {s : AnnotateState V} (es : List Expr)
    (hs : NoSubscripts es) (ha : ∀ d ∈ subtermsList es, AnnotatedAs ops tenv s d) :
    validateExprs ⟨s.types, s.operation⟩ es = .ok ↔ FineAll ops tenv es := by
  cases es with
  | nil => simp [validateExprs, FineAll]
  | cons e es =>
    rw [NoSubscripts] at hs
    rw [subtermsList] at ha
    rw [validateExprs, FineAll, Checked.andThen_ok_iff,
      validateExpr_fine e hs.1 fun d hd => ha d (List.mem_append_left _ hd),
      validateExprs_fine es hs.2 fun d hd => ha d (List.mem_append_right _ hd)]

end

theorem validateStmts_fine {ops : Operations V} (l : List Stmt) (hl : StraightLine l)
    (s s' : AnnotateState V) (h : annotateStmts ops s l = some s') (hn : (termIds l).Nodup)
    (hf : Unannotated s (termIds l)) :
    (validateStmts ⟨s'.types, s'.operation⟩ l = .ok ↔ FineStmts ops s.nameType l) ∧
      s'.nameType = typesAfter ops s.nameType l := by
  induction l generalizing s with
  | nil =>
    rw [annotateStmts] at h
    cases h
    simp [validateStmts, FineStmts, typesAfter]
  | cons t l ih =>
    rw [annotateStmts] at h
    obtain ⟨s1, h1, h2⟩ := Option.bind_eq_some_iff.1 h
    cases t with
    | expr e =>
      rw [StraightLine] at hl
      rw [termIds_expr] at hn hf
      rw [annotateStmt] at h1
      obtain ⟨-, k2⟩ := annotateExpr_typed ops s e hl.1 (List.nodup_append.1 hn).1 hf.left
      have hfr := annotateExpr_frame ops s s1 e h1
      have hann : ∀ d ∈ subterms e, AnnotatedAs ops s.nameType s' d := by
        intro d hd
        have hvid : d.vid ∉ termIds l := fun hm =>
          nodup_disjoint hn d.vid hm (List.mem_map_of_mem hd)
        obtain ⟨f1, f2⟩ := annotateStmts_frame hl.2 h2 hvid
        exact (k2 s1 h1 d hd).of_eq f1 f2
      obtain ⟨i1, i2⟩ := ih hl.2 s1 h2 (List.nodup_append.1 hn).2.1 (hf.right.after hfr (nodup_disjoint hn))
      have hnt : s1.nameType = s.nameType := by
        funext n; rw [AnnotateState.nameType, hfr.table, AnnotateState.nameType]
      rw [hnt] at i1 i2
      refine ⟨?_, by rw [typesAfter, i2]; intro _ _ _ _ k; cases k⟩
      rw [validateStmts, Checked.andThen_ok_iff, validateStmt, FineStmts, validateExpr_fine e hl.1 hann, i1]
    | assign v target n e =>
      rw [StraightLine] at hl
      rw [termIds_assign] at hn hf
      rw [annotateStmt] at h1
      obtain ⟨s0, h0, h01⟩ := Option.bind_eq_some_iff.1 h1
      have hne := (List.nodup_append.1 hn).1
      obtain ⟨k1, k2⟩ := annotateExpr_typed ops s e hl.1 hne hf.left
      have hfr := annotateExpr_frame ops s s0 e h0
      rw [h0] at k1
      obtain ⟨ty, hty, hst⟩ := Option.map_eq_some_iff.1 k1.symm
      obtain ⟨t, stack, g1, _, _, _, g5, g6, g7, g8⟩ := finishAssign_some h01
      have htt : t = ty := by
        have hst' : ty :: s.stack = s0.stack := hst
        rw [g1] at hst'; cases hst'; rfl
      subst htt
      have hte : s0.types e.vid = [t] := by
        have hlen : (s0.types e.vid).length = 1 := by
          rw [AnnotateState.finishAssign, g1] at h01
          dsimp only at h01
          obtain ⟨_, _, q⟩ := Option.bind_eq_some_iff.1 h01
          split at q
          · rename_i hq; exact hq.2
          · cases q
        have han := k2 s0 h0 e (mem_subterms_self e)
        cases e with
        | name v n => rw [AnnotatedAs] at han; rw [typeExpr] at hty; cases hty; exact han
        | number v n => rw [AnnotatedAs] at han; rw [typeExpr] at hty; cases hty; exact han
        | string v n => rw [AnnotatedAs] at han; rw [typeExpr] at hty; cases hty; exact han
        | call v n args =>
          rw [AnnotatedAs] at han; obtain ⟨_, t', q1, q2⟩ := han; rw [hty] at q1; cases q1; exact q2
        | operator v n args =>
          rw [AnnotatedAs] at han; obtain ⟨_, t', q1, q2⟩ := han; rw [hty] at q1; cases q1; exact q2
        | subscript v e i => rw [AnnotatedAs] at han; rw [Expr.vid, han] at hlen; cases hlen
        | «attribute» v e m => rw [AnnotatedAs] at han; rw [Expr.vid, han] at hlen; cases hlen
      have hd : ∀ w ∈ exprIds e, w ∉ _ := fun w q q' => nodup_disjoint hn w q' q
      have hf1 := hf.right.after hfr fun w q q' => hd w q' q
      have hnt : target ∉ termIds l := (List.nodup_cons.1 (List.nodup_append.1 hn).2.1).1
      have hann : ∀ d ∈ subterms e, AnnotatedAs ops s.nameType s' d := by
        intro d hdm
        have hv2 := hd d.vid (List.mem_map_of_mem hdm)
        rw [List.mem_cons, not_or] at hv2
        obtain ⟨f1, f2⟩ := annotateStmts_frame hl.2 h2 hv2.2
        exact (k2 s0 h0 d hdm).of_eq (f1.trans (g6 _ hv2.1)) (f2.trans (by rw [g7]))
      obtain ⟨i1, i2⟩ := ih hl.2 s1 h2 (List.nodup_cons.1 (List.nodup_append.1 hn).2.1).2
        (fun w hw => by
          have hvt : w ≠ target := by rintro rfl; exact hnt hw
          rw [g6 w hvt, g7]
          exact hf1 w (List.mem_cons_of_mem _ hw))
      have hntype : s1.nameType = bindType s.nameType n t := by
        funext m
        rw [AnnotateState.nameType, g5, bindType]
        split
        · rfl
        · rw [hfr.table]; rfl
      rw [hntype] at i1 i2
      refine ⟨?_, by rw [typesAfter, i2, hty]; rfl⟩
      have htarget : s'.types target = [t] := ((annotateStmts_frame hl.2 h2 (v := target) hnt).1.trans g8).trans hte
      have hname : checkName (⟨s'.types, s'.operation⟩ : Annotations V) target n = .ok ↔ IsDefined t := by
        rw [checkName]
        dsimp only
        rw [htarget]
        dsimp only
        by_cases hdef : IsDefined t
        · simp [(defined_iff _).2 hdef, hdef]
        · rw [if_neg (fun k => hdef ((defined_iff _).1 k))]
          simp [hdef]
      rw [validateStmts, Checked.andThen_ok_iff, validateStmt, Checked.andThen_ok_iff, FineStmts,
        validateExpr_fine e hl.1 hann, hname, i1]
      constructor
      · rintro ⟨⟨q1, q2⟩, q3⟩; exact ⟨q1, t, hty, q2, q3⟩
      · rintro ⟨q1, t', q2, q3, q4⟩
        rw [hty] at q2; cases q2
        exact ⟨⟨q1, q3⟩, q4⟩
    | _ => simp [StraightLine] at hl

/-- Everything validation does to a straight-line module. -/
theorem validate_cases (c : InterpreterContext V) (hr : TotalRules c.ops) (i : Interpreter V)
    (ht : i.table ≠ []) (m : Module) (hl : StraightLine m.statements) (hn : m.vids.Nodup)
    (ha : ∀ t ∈ m.statements, ¬ AssignsAttribute t) (sources : Scope (DataSource V))
    (hsn : (sources.map (·.1)).Nodup) :
    ∃ i1, i1.back = i.back ∧ i1.table ≠ [] ∧
      (∀ n, (i1.table.value n).getD .undefined = typesAfter c.ops (startType i sources) m.statements n) ∧
      ((FineStmts c.ops (startType i sources) m.statements ∧ (i.validate c m .none sources).1 = .done i1) ∨
        (¬ FineStmts c.ops (startType i sources) m.statements ∧
          ∃ p, (i.validate c m .none sources).1 = .refused i1 p)) := by
  obtain ⟨s, _, h1, _⟩ := C60_straight m hn (straight_of_straightLine hl)
  have hids := termIds_nodup hl hn
  obtain ⟨s2, h2⟩ := C56_succeeds m ((stmtsTokens_ids hl).nodup hids)
  obtain ⟨t, h3, h4⟩ := addValues_isSome (sources.map fun e => (e.1, e.2.type)) i.table ht
  have hun : Unannotated (⟨i.types, t, fun _ => [], fun _ => none⟩ : AnnotateState V) (termIds m.statements) :=
    fun v _ => ⟨rfl, rfl⟩
  obtain ⟨s', h5, h6⟩ := annotateStmts_total hr m.statements hl ha
    ⟨i.types, t, fun _ => [], fun _ => none⟩ hids hun h4
  have h7 : i.annotate c m .none sources =
      some ({ i with types := s'.stack, table := s'.table }, ⟨s'.types, s'.operation⟩) := by
    rw [Interpreter.annotate, h1, Option.bind_some, h2, Option.bind_some, AnnotateState.addGlobalSymbols]
    dsimp only
    rw [h3, Option.map_some, Option.bind_some]
    exact congrArg (Option.map _) h5
  obtain ⟨f1, f2⟩ := validateStmts_fine m.statements hl _ s' h5 hids hun
  have hsn' : ((sources.map fun e => (e.1, e.2.type)).map (·.1)).Nodup := by
    rw [List.map_map]; exact hsn
  have hstart : AnnotateState.nameType (⟨i.types, t, fun _ => [], fun _ => none⟩ : AnnotateState V) =
      startType i sources := by
    funext n
    rw [AnnotateState.nameType]
    dsimp only
    rw [addValues_value _ hsn' _ _ h3 n, value_map, startType]
  rw [hstart] at f1 f2
  refine ⟨{ i with types := s'.stack, table := s'.table }, rfl, annotateStmts_table hl h5 h4, fun n => ?_, ?_⟩
  · exact congrFun f2 n
  · rw [Interpreter.validate, h7]
    dsimp only
    rw [← f1, validateStmts_eq]
    rcases checkAll_eq _ _ h6 with ⟨h8, _⟩ | ⟨l1, e, l2, p, _, h8, _⟩
    · rw [h8]; exact .inl ⟨rfl, rfl⟩
    · rw [h8]; exact .inr ⟨by simp, p, rfl⟩

/-- Validation accepts a straight-line module exactly if it is well-typed, given the types that names have; otherwise
it reports a problem. -/
theorem C93_accepted (c : InterpreterContext V) (hr : TotalRules c.ops) (i : Interpreter V)
    (ht : i.table ≠ []) (m : Module) (hl : StraightLine m.statements) (hn : m.vids.Nodup)
    (ha : ∀ t ∈ m.statements, ¬ AssignsAttribute t) (sources : Scope (DataSource V))
    (hsn : (sources.map (·.1)).Nodup) :
    ((∃ i1, (i.validate c m .none sources).1 = .done i1) ↔ FineStmts c.ops (startType i sources) m.statements) ∧
    ((∃ i1 p, (i.validate c m .none sources).1 = .refused i1 p) ↔
      ¬ FineStmts c.ops (startType i sources) m.statements) := by
  obtain ⟨i1, _, _, _, ⟨h1, h2⟩ | ⟨h1, p, h2⟩⟩ := validate_cases c hr i ht m hl hn ha sources hsn
  · rw [h2]
    exact ⟨⟨fun _ => h1, fun _ => ⟨i1, rfl⟩⟩, ⟨fun ⟨_, _, k⟩ => (by cases k), fun k => absurd h1 k⟩⟩
  · rw [h2]
    exact ⟨⟨fun ⟨_, k⟩ => (by cases k), fun k => absurd k h1⟩, ⟨fun _ => h1, fun _ => ⟨i1, p, rfl⟩⟩⟩

/-- Names then have the types that were assigned, in the text; also if the module is refused. -/
theorem C93_types (c : InterpreterContext V) (hr : TotalRules c.ops) (i i1 : Interpreter V)
    (ht : i.table ≠ []) (m : Module) (hl : StraightLine m.statements) (hn : m.vids.Nodup)
    (ha : ∀ t ∈ m.statements, ¬ AssignsAttribute t) (sources : Scope (DataSource V))
    (hsn : (sources.map (·.1)).Nodup)
    (h : (i.validate c m .none sources).1 = .done i1 ∨ ∃ p, (i.validate c m .none sources).1 = .refused i1 p) (n : Str) :
    (i1.table.value n).getD .undefined = typesAfter c.ops (startType i sources) m.statements n := by
  obtain ⟨i2, _, _, h3, ⟨_, h2⟩ | ⟨_, p, h2⟩⟩ := validate_cases c hr i ht m hl hn ha sources hsn
  · rw [h2] at h
    rcases h with h | ⟨p, h⟩
    · cases h; exact h3 n
    · cases h
  · rw [h2] at h
    rcases h with h | ⟨p, h⟩
    · cases h
    · cases h; exact h3 n

/-- A well-typed module is executed without failure, and any other one is refused without anything being computed or
written. -/
theorem C93_executed (c : InterpreterContext V) {hasType : V → ExpressionType → Prop}
    (hw : WellTyped c hasType) (hr : TotalRules c.ops) (i : Interpreter V)
    (hi : InterpreterReady hasType i) (m : Module) (hl : StraightLine m.statements) (hn : m.vids.Nodup)
    (ha : ∀ t ∈ m.statements, ¬ AssignsAttribute t) (sources : Scope (DataSource V))
    (hsn : (sources.map (·.1)).Nodup)
    (hst : ∀ n d, sources.value n = some d → hasType d.value d.type) (syncs : List Str) :
    (FineStmts c.ops (startType i sources) m.statements → ∃ i', i.execute c m .none sources syncs = .done i') ∧
    (¬ FineStmts c.ops (startType i sources) m.statements →
      ∃ i1 p, i.execute c m .none sources syncs = .refused i1 p ∧ i1.back = i.back) := by
  obtain ⟨i1, hb, _, _, ⟨h1, h2⟩ | ⟨h1, p, h2⟩⟩ := validate_cases c hr i hi.scope m hl hn ha sources hsn
  · refine ⟨fun _ => ?_, fun k => absurd h1 k⟩
    obtain ⟨i', h, _⟩ := C77_execute c hw i hi m hl hn sources hsn hst syncs i1 h2
    exact ⟨i', h⟩
  · exact ⟨fun k => absurd k h1, fun _ => ⟨i1, p, by rw [Interpreter.execute, h2], hb⟩⟩

/-! ### Examples -/

theorem suits_int64 (env : Str → ExpressionType) (n : Str) (v : Vid) (h : env n = constantType .int64) :
    Suits exampleInterpreter.ops env [constantType .int64] (.name v n) := by
  refine ⟨rfl, env n, by rw [typeExpr], ?_⟩
  rw [h]
  obtain ⟨t, ht, hp⟩ := (somePassable_iff [constantType .int64] [constantType .int64]).1 (by decide +kernel)
  rw [List.mem_singleton.1 ht] at hp
  exact hp

/-- `b = add(x, x); b` is accepted with the data source `x`, and refused without. -/
def doubleModule : Module := moduleOf [
  .assign 10 11 ['b'] (.call 12 ['a', 'd', 'd'] [.name 13 ['x'], .name 14 ['x']]), .expr (.name 20 ['b'])]

example : FineStmts exampleInterpreter.ops (startType .initial (exampleSources ['x'])) doubleModule.statements := by
  have hx : startType (.initial : Interpreter (ExpressionType × Int)) (exampleSources ['x']) ['x'] = constantType .int64 := rfl
  have hd : IsDefined (constantType .int64) := (defined_iff _).1 (by decide +kernel)
  refine ⟨⟨⟨?_, ?_, trivial⟩, _, rfl, .cons (suits_int64 _ _ _ hx) (.cons (suits_int64 _ _ _ hx) .nil)⟩,
    constantType .int64, rfl, hd, ?_, trivial⟩
  · exact hd
  · exact hd
  · exact hd

example : ¬ FineStmts exampleInterpreter.ops (startType (.initial : Interpreter (ExpressionType × Int)) []) doubleModule.statements := by
  rintro ⟨⟨⟨h, -⟩, -⟩, -⟩
  exact not_isDefined_undefined h

example : ((Interpreter.initial.execute exampleInterpreter doubleModule .none (exampleSources ['x']) []).kind,
    (Interpreter.initial.execute exampleInterpreter doubleModule .none [] []).kind) = (0, 1) := by decide +kernel

end Fern
