import Verif.Lemmas.Optimize

/-!
# C61: inlining of names that are used once

Properties of the model in `Verif.Model.Optimize`.
-/

namespace Fern

open Spec

variable {V : Type}

/-! ### The rounds -/

/-- Every round but the last leaves fewer statements, so the number of rounds is bounded by the number
of statements, whatever the module: a larger bound changes nothing. -/
theorem C61_terminates (c : OptimizeContext) (l : List Stmt) :
    (∀ l', optimizeRound c l = some (l', true) → Stmt.counts l' < Stmt.counts l) ∧
      ∀ k, Stmt.counts l < k → optimizeRounds c k l = optimizeRounds c (Stmt.counts l + 1) l := by
  refine ⟨optimizeRound_counts c l, ?_⟩
  induction hn : Stmt.counts l using Nat.strong_induction_on generalizing l with
  | _ n ih =>
    intro k hk
    obtain ⟨k, rfl⟩ : ∃ j, k = j + 1 := ⟨k - 1, by omega⟩
    rw [optimizeRounds, optimizeRounds]
    cases hr : optimizeRound c l with
    | none => rfl
    | some p =>
      obtain ⟨l', b⟩ := p
      cases b with
      | false => rfl
      | true =>
        have hlt := optimizeRound_counts c l l' hr
        simp only
        rw [ih _ (hn ▸ hlt) l' rfl k (by omega), ih _ (hn ▸ hlt) l' rfl n (by omega)]

/-! ### Meaning -/

theorem optimizable_module {m : Module} {i : IdentifyState} (h : identifyModule m = some i)
    (hl : StraightLine m.statements) (hd : Distinct m.statements) (hw : UsedWhole m.statements)
    (hc : NoChain m.statements) : Optimizable (.ofModule i m) m.statements :=
  ⟨StraightLine.simple hl, hd, hw, hc, knows_module h (StraightLine.simple hl) hd.names⟩

/-- No assertion fails if the names that are used once are used as the expression of an assignment and
are not defined by one another: the definitions that are used once are left out and their expressions
take the place of the uses. -/
theorem C61_result (m : Module) (i : IdentifyState) (h : identifyModule m = some i)
    (hl : StraightLine m.statements) (hd : Distinct m.statements) (hw : UsedWhole m.statements)
    (hc : NoChain m.statements) :
    ∃ l, optimizeModule i m = some { m with statements := l } ∧ Inlines m.statements m.statements l := by
  have ho := optimizable_module h hl hd hw hc
  refine ⟨_, by rw [optimizeModule, ho.rounds _ (Nat.lt_succ_self _)]; rfl, ?_⟩
  have key : ∀ b, (∀ x ∈ b, x ∈ m.statements) →
      Inlines m.statements b (b.filterMap (optimizedStmt (.ofModule i m))) := by
    intro b
    induction b with
    | nil => intro _; exact .nil
    | cons x b ih =>
      intro hb
      have hx := hb x List.mem_cons_self
      have hb' := ih fun y hy => hb y (List.mem_cons_of_mem _ hy)
      rcases ho.simple x hx with ⟨e, rfl⟩ | ⟨v, t, n, e, rfl⟩
      · rw [List.filterMap_cons_some (f := optimizedStmt (.ofModule i m)) (a := .expr e) (b := .expr e) rfl]
        exact .expr hb'
      · by_cases hr : UsedOnce (stmtsTokens m.statements) t
        · rw [List.filterMap_cons_none (by rw [optimizedStmt, if_pos ((ho.knows.removed_iff t).2 hr)])]
          exact .removed hr hb'
        · rw [List.filterMap_cons_some (by
            rw [optimizedStmt, if_neg fun hc => hr ((ho.knows.removed_iff t).1 hc)])]
          rcases ho.clean _ hx with hp | ⟨u, k, w, rfl, -, hi⟩
          · rw [replaceOf_plain hp]
            refine .kept hr (fun u hu d hon => ?_) hb'
            obtain ⟨y, hy⟩ := ho.knows.inlineOf_only ho.simple ho.distinct.names hon
            rw [(hp u hu).2] at hy
            cases hy
          · rw [replaceOf, hi, Option.getD_some]
            obtain ⟨v2, d, n2, hm, hon⟩ := (ho.knows.inlineOf_iff ho.simple ho.distinct.names
              (ho.use_mem hx rfl Optimizable.name_use) w).1 hi
            exact .replaced hr hon hm hb'
  exact key _ fun _ hx => hx

/-- If furthermore no name in a defining expression that is moved is assigned to in between, the
optimized module fails iff the module does, and otherwise leaves the same values of the expressions that
are statements and of the names that remain. -/
theorem C61_meaning (m : Module) (i : IdentifyState) (h : identifyModule m = some i)
    (hl : StraightLine m.statements) (hd : Distinct m.statements) (hw : UsedWhole m.statements)
    (hc : NoChain m.statements) (hna : NotReassigned m.statements) :
    ∃ m', optimizeModule i m = some m' ∧ ∀ (c : ExecuteContext V) (env : Str → Option V),
      ((evalStmts c env m.statements = none ∧ evalStmts c env m'.statements = none) ∨
        ∃ r r', evalStmts c env m.statements = some r ∧ evalStmts c env m'.statements = some r' ∧
          r.2 = r'.2 ∧ ∀ n, Remains m.statements n → r.1 n = r'.1 n) := by
  have ho := optimizable_module h hl hd hw hc
  refine ⟨{ m with statements := m.statements.filterMap (optimizedStmt (.ofModule i m)) },
    by rw [optimizeModule, ho.rounds _ (Nat.lt_succ_self _)]; rfl, fun c env => ?_⟩
  have hs := ho.simulate hna c m.statements [] env env rfl
    ⟨fun k => .inl rfl, fun a1 v t n e a2 u ha => by simp at ha⟩
  revert hs
  dsimp only
  generalize evalStmts c env m.statements = r
  generalize evalStmts c env (m.statements.filterMap (optimizedStmt (.ofModule i m))) = r'
  intro hs
  cases r <;> cases r'
  · exact .inl ⟨rfl, rfl⟩
  · exact hs.elim
  · exact hs.elim
  · exact .inr ⟨_, _, rfl, rfl, hs.1, hs.2⟩

/-! ### What is not supported -/

theorem optimizeName_keys {c : OptimizeContext} {s s' : OptimizeState} {v u : Vid}
    (h : optimizeName c s v = some s') (hu : u ∈ s.inline.map (·.1)) : u ∈ s'.inline.map (·.1) := by
  unfold optimizeName at h
  split at h
  · split at h
    · split at h
      · simp only [Option.bind_eq_bind] at h
        obtain ⟨e, _, h⟩ := Option.bind_eq_some_iff.1 h
        cases h
        by_cases huv : u = v
        · subst huv; simp
        · obtain ⟨p, hp, rfl⟩ := List.mem_map.1 hu
          simp only [List.map_append, List.mem_append, List.mem_map, List.mem_filter]
          exact .inl ⟨p, ⟨hp, by simpa using huv⟩, rfl⟩
      · cases h
    · cases h; exact hu
  · cases h; exact hu

mutual

theorem optimizeExpr_keys {c : OptimizeContext} {s s' : OptimizeState} {u : Vid} (e : Expr)
    (h : optimizeExpr c s e = some s')
    (hu : u ∈ s.inline.map (·.1) ∨
      (u ∈ useIds (exprTokens e) ∧ Linked c u ∧ ∃ x, inlineOf c u = some x)) :
    u ∈ s'.inline.map (·.1) := by
  cases e with
  | name v n =>
    rw [optimizeExpr] at h
    rcases hu with hu | ⟨hu, hl, x, hx⟩
    · exact optimizeName_keys h hu
    · rw [exprTokens] at hu
      have : u = v := by simpa [useIds] using hu
      subst this
      rw [optimizeName_some hl hx] at h
      cases h
      simp
  | number v n =>
    rw [optimizeExpr] at h; cases h
    rcases hu with hu | ⟨hu, -⟩
    · exact hu
    · rw [exprTokens] at hu; cases hu
  | string v n =>
    rw [optimizeExpr] at h; cases h
    rcases hu with hu | ⟨hu, -⟩
    · exact hu
    · rw [exprTokens] at hu; cases hu
  | call v n args => rw [optimizeExpr] at h; rw [exprTokens] at hu; exact optimizeExprs_keys args h hu
  | operator v n args => rw [optimizeExpr] at h; rw [exprTokens] at hu; exact optimizeExprs_keys args h hu
  | subscript v e i =>
    rw [optimizeExpr] at h
    rw [exprTokens, useIds_append, List.mem_append] at hu
    obtain ⟨s1, h1, h2⟩ := Option.bind_eq_some_iff.1 h
    rcases hu with hu | ⟨hu | hu, hr⟩
    · exact optimizeExpr_keys i h2 (.inl (optimizeExpr_keys e h1 (.inl hu)))
    · exact optimizeExpr_keys i h2 (.inl (optimizeExpr_keys e h1 (.inr ⟨hu, hr⟩)))
    · exact optimizeExpr_keys i h2 (.inr ⟨hu, hr⟩)
  | «attribute» v e m => rw [optimizeExpr] at h; rw [exprTokens] at hu; exact optimizeExpr_keys e h hu

theorem optimizeExprs_keys {c : OptimizeContext} {s s' : OptimizeState} {u : Vid} (es : List Expr)
    (h : optimizeExprs c s es = some s')
    (hu : u ∈ s.inline.map (·.1) ∨
      (u ∈ useIds (exprsTokens es) ∧ Linked c u ∧ ∃ x, inlineOf c u = some x)) :
    u ∈ s'.inline.map (·.1) := by
  cases es with
  | nil =>
    rw [optimizeExprs] at h; cases h
    rcases hu with hu | ⟨hu, -⟩
    · exact hu
    · rw [exprsTokens] at hu; cases hu
  | cons e es =>
    rw [optimizeExprs] at h
    rw [exprsTokens, useIds_append, List.mem_append] at hu
    obtain ⟨s1, h1, h2⟩ := Option.bind_eq_some_iff.1 h
    rcases hu with hu | ⟨hu | hu, hr⟩
    · exact optimizeExprs_keys es h2 (.inl (optimizeExpr_keys e h1 (.inl hu)))
    · exact optimizeExprs_keys es h2 (.inl (optimizeExpr_keys e h1 (.inr ⟨hu, hr⟩)))
    · exact optimizeExprs_keys es h2 (.inr ⟨hu, hr⟩)

end

theorem optimizeReplace_keys {s : OptimizeState} {e : Expr} {u : Vid} (he : e.vid ≠ u)
    (hu : u ∈ s.inline.map (·.1)) : u ∈ (optimizeReplace s e).2.inline.map (·.1) := by
  unfold optimizeReplace
  split
  · obtain ⟨p, hp, rfl⟩ := List.mem_map.1 hu
    simp only [List.mem_map, List.mem_filter]
    exact ⟨p, ⟨hp, by simpa using Ne.symm he⟩, rfl⟩
  · exact hu

theorem optimizeUseStmts_keys {c : OptimizeContext} {s s' : OptimizeState} {u : Vid} {l l' : List Stmt}
    (hl : Simple l) (hv : ∀ v t n e, Stmt.assign v t n e ∈ l → e.vid ≠ u)
    (h : optimizeUseStmts c s l = some (l', s'))
    (hu : u ∈ s.inline.map (·.1) ∨
      (u ∈ useIds (stmtsTokens l) ∧ Linked c u ∧ ∃ x, inlineOf c u = some x)) :
    u ∈ s'.inline.map (·.1) := by
  induction l generalizing s l' with
  | nil =>
    rw [optimizeUseStmts] at h; cases h
    rcases hu with hu | ⟨hu, -⟩
    · exact hu
    · rw [stmtsTokens] at hu; cases hu
  | cons x l ih =>
    rw [optimizeUseStmts] at h
    obtain ⟨⟨x', s1⟩, h1, h⟩ := Option.bind_eq_some_iff.1 h
    obtain ⟨⟨l1, s2⟩, h2, h⟩ := Option.map_eq_some_iff.1 h
    cases h
    rw [stmtsTokens, useIds_append, List.mem_append] at hu
    have hv' : ∀ v t n e, Stmt.assign v t n e ∈ l → e.vid ≠ u :=
      fun v t n e h => hv v t n e (List.mem_cons_of_mem _ h)
    have hend : (u ∈ s1.inline.map (·.1)) ∨
        (u ∈ useIds (stmtsTokens l) ∧ Linked c u ∧ ∃ x, inlineOf c u = some x) := by
      rcases hl x List.mem_cons_self with ⟨e, rfl⟩ | ⟨v, t, n, e, rfl⟩
      · rw [optimizeUseStmt] at h1
        obtain ⟨s3, h3, h1⟩ := Option.map_eq_some_iff.1 h1
        cases h1
        rw [stmtTokens] at hu
        rcases hu with hu | ⟨hu | hu, hr⟩
        · exact .inl (optimizeExpr_keys e h3 (.inl hu))
        · exact .inl (optimizeExpr_keys e h3 (.inr ⟨hu, hr⟩))
        · exact .inr ⟨hu, hr⟩
      · rw [optimizeUseStmt] at h1
        obtain ⟨s3, h3, h1⟩ := Option.map_eq_some_iff.1 h1
        cases h1
        have hne := hv v t n e List.mem_cons_self
        rw [stmtTokens, useIds_append, List.mem_append] at hu
        rcases hu with hu | ⟨(hu | hu) | hu, hr⟩
        · exact .inl (optimizeReplace_keys hne (optimizeExpr_keys e h3 (.inl hu)))
        · exact .inl (optimizeReplace_keys hne (optimizeExpr_keys e h3 (.inr ⟨hu, hr⟩)))
        · cases hu
        · exact .inr ⟨hu, hr⟩
    exact ih hl.tail hv' h2 hend

theorem optimizeDefine_inline (s : OptimizeState) (v : Vid) (e : Expr) :
    (optimizeDefine s v e).inline = s.inline := by
  rw [optimizeDefine]; split <;> rfl

mutual

theorem optimizeDefineStmt_inline (s : OptimizeState) (t : Stmt) :
    (optimizeDefineStmt s t).2.inline = s.inline := by
  cases t with
  | expr e => rw [optimizeDefineStmt]
  | assign v t n e => rw [optimizeDefineStmt]; exact optimizeDefine_inline s v e
  | ifElse v sv e tv ts t fv fs f =>
    simp only [optimizeDefineStmt, optimizeErase]
    rw [optimizeDefineVisits_inline]
    exact optimizeDefineVisits_inline s t
  | «while» v sv e tv ts t fv fs f =>
    simp only [optimizeDefineStmt, optimizeErase]
    rw [optimizeDefineVisits_inline]
    exact optimizeDefineVisits_inline s t
  | function v n args bv bs body =>
    simp only [optimizeDefineStmt, optimizeErase]
    exact optimizeDefineVisits_inline s body
  | ret v e => rw [optimizeDefineStmt]

theorem optimizeDefineVisits_inline (s : OptimizeState) (l : List Stmt) :
    (optimizeDefineVisits s l).2.inline = s.inline := by
  cases l with
  | nil => rw [optimizeDefineVisits]
  | cons t l =>
    simp only [optimizeDefineVisits]
    rw [optimizeDefineVisits_inline, optimizeDefineStmt_inline]

end

/-- A name that is used once fails an assertion where it is part of an expression, or a statement of its
own: no other name can be inlined then. -/
theorem C61_nested (m : Module) (i : IdentifyState) (h : identifyModule m = some i)
    (hl : StraightLine m.statements) (hnd : (tokenIds (stmtsTokens m.statements)).Nodup) (u d : Vid)
    (ho : OnlyUse (stmtsTokens m.statements) u d)
    (hu : ∀ v t n e, Stmt.assign v t n e ∈ m.statements → e.vid ≠ u) : optimizeModule i m = none := by
  have hs := StraightLine.simple hl
  have hk := knows_module h hs hnd
  have hmem := refersTo_use ho.1
  have hr : optimizeRound (.ofModule i m) m.statements = none := by
    rw [optimizeRound]
    cases h1 : optimizeUseStmts (.ofModule i m) .initial m.statements with
    | none => rfl
    | some p =>
      obtain ⟨l', s'⟩ := p
      have hkey := optimizeUseStmts_keys hs hu h1
        (.inr ⟨hmem, hk.linked hs hnd hmem, hk.inlineOf_only hs hnd ho⟩)
      rw [Option.bind_some, optimizeRoundEnd, if_neg]
      intro hi
      simp only [OptimizeState.isInitial, Bool.and_eq_true, List.isEmpty_iff] at hi
      have h2 : (optimizeDefineStmts s' l').2.inline = s'.inline := optimizeDefineVisits_inline s' l'
      rw [← h2, hi.1.1] at hkey
      cases hkey
  rw [optimizeModule, optimizeRounds, hr]
  rfl

/-! ### Witnesses -/

/-- `a = x; x = 3; c = a`. -/
def reassignedProgram : Module where
  v := 0
  scope := 1
  sentinel := 2
  statements := [
    .assign 10 11 ['a'] (.name 12 ['x']),
    .assign 20 21 ['x'] (.number 22 (.int .i64 3)),
    .assign 30 31 ['c'] (.name 32 ['a'])]

/-- The value of a name after a module and after the optimized module. -/
def beforeAndAfter (c : ExecuteContext V) (env : Str → Option V) (m : Module) (n : Str) :
    Option (Option V × Option V) :=
  (identifyModule m).bind fun i =>
  (optimizeModule i m).bind fun m' =>
  (evalStmts c env m.statements).bind fun r =>
  (evalStmts c env m'.statements).map fun r' => (r.1 n, r'.1 n)

/-- Inlining changes the value of a name if a name in the defining expression has been assigned to in
between: `c` is 10, the value of `x` in the beginning; after optimization it is 3. -/
theorem C61_reassigned :
    beforeAndAfter exampleContext exampleContext.source reassignedProgram ['c'] =
      some (some 10, some 3) := by
  decide +kernel

/-- `a = 5; d = a; e = d`. -/
def chainProgram : Module where
  v := 0
  scope := 1
  sentinel := 2
  statements := [
    .assign 10 11 ['a'] (.number 12 (.int .i64 5)),
    .assign 20 21 ['d'] (.name 22 ['a']),
    .assign 30 31 ['e'] (.name 32 ['d'])]

/-- A name whose value is a name that is used once as well is lost: instead of `e = 5` the visitor leaves
`d = 5`, and `e`, which is not used by another definition, has no value. -/
theorem C61_chain :
    beforeAndAfter exampleContext (fun _ => none) chainProgram ['e'] = some (some 5, none) ∧
      ((identifyModule chainProgram).bind fun i => (optimizeModule i chainProgram).map fun m =>
        targets m.statements) = some [['d']] := by
  decide +kernel

/-- Names are inlined in the bodies of control statements and functions as well, also if the definition is in front of the
statement: the branches of an `if` statement, a loop and a function, each with `a = 5; c = a`, and `x = 1` in front of
`if y: z = x`. -/
theorem C61_bodies :
    let body (k : Nat) : List Stmt := [.assign k (k + 1) ['a'] (.number (k + 2) (.int .i64 5)),
      .assign (k + 3) (k + 4) ['c'] (.name (k + 5) ['a'])]
    let done (k : Nat) : List Stmt := [.assign (k + 3) (k + 4) ['c'] (.number (k + 2) (.int .i64 5))]
    let optimized (l : List Stmt) := (identifyModule ⟨0, 1, 2, l⟩).bind fun i => (optimizeModule i ⟨0, 1, 2, l⟩).map (·.statements)
    optimized [.ifElse 10 11 (.name 12 ['y']) 13 14 (body 20) 15 16 (body 30)] =
      some [.ifElse 10 11 (.name 12 ['y']) 13 14 (done 20) 15 16 (done 30)] ∧
    optimized [.while 10 11 (.name 12 ['y']) 13 14 (body 20) 15 16 (body 30)] =
      some [.while 10 11 (.name 12 ['y']) 13 14 (done 20) 15 16 (done 30)] ∧
    optimized [.function 10 ['f'] [.name 11 ['y']] 13 14 (body 20)] = some [.function 10 ['f'] [.name 11 ['y']] 13 14 (done 20)] ∧
    optimized [.assign 3 4 ['x'] (.number 5 (.int .i64 1)),
        .ifElse 10 11 (.name 12 ['y']) 13 14 [.assign 20 21 ['z'] (.name 22 ['x'])] 15 16 []] =
      some [.ifElse 10 11 (.name 12 ['y']) 13 14 [.assign 20 21 ['z'] (.number 5 (.int .i64 1))] 15 16 []] := by
  refine ⟨rfl, rfl, rfl, rfl⟩

/-- In a loop that can be wrong: `a = x` in front of `while y: z = a; x = 2` ends up in the loop, where `x` is assigned. -/
theorem C61_loop_false :
    let l : List Stmt := [.assign 3 4 ['a'] (.name 5 ['x']),
      .while 10 11 (.name 12 ['y']) 13 14 [.assign 20 21 ['z'] (.name 22 ['a']), .assign 23 24 ['x'] (.number 25 (.int .i64 2))]
        15 16 []]
    ((identifyModule ⟨0, 1, 2, l⟩).bind fun i => (optimizeModule i ⟨0, 1, 2, l⟩).map (·.statements)) =
      some [.while 10 11 (.name 12 ['y']) 13 14 [.assign 20 21 ['z'] (.name 5 ['x']), .assign 23 24 ['x'] (.number 25 (.int .i64 2))]
        15 16 []] := rfl

/-- The links of a sequence of names decide which definitions are used once. -/
theorem onlyUse_iff (ts : List Token) (hnd : (tokenIds ts).Nodup) (v d : Vid) :
    OnlyUse ts v d ↔ (v, d) ∈ links [] ts ∧ ∀ p ∈ links [] ts, p.2 = d → p.1 = v := by
  rw [OnlyUse, refersTo_iff _ hnd]
  refine and_congr_right fun _ => ⟨fun h p hp hd => ?_, fun h v' hv' => ?_⟩
  · exact h p.1 ((refersTo_iff _ hnd _ _).2 (by rw [← hd]; exact hp))
  · exact h (v', d) ((refersTo_iff _ hnd _ _).1 hv') rfl

/-- `a = sub(x, 1); y = 2; c = a; sub(y, c)`. -/
def inlineProgram : Module where
  v := 0
  scope := 1
  sentinel := 2
  statements := [
    .assign 10 11 ['a'] (.call 12 ['s', 'u', 'b'] [.name 13 ['x'], .number 14 (.int .i64 1)]),
    .assign 20 21 ['y'] (.number 22 (.int .i64 2)),
    .assign 30 31 ['c'] (.name 32 ['a']),
    .assign 33 34 ['z'] (.call 40 ['s', 'u', 'b'] [.name 41 ['y'], .name 42 ['c']]),
    .assign 43 44 ['w'] (.call 50 ['s', 'u', 'b'] [.name 51 ['y'], .name 52 ['c']])]

example : StraightLine inlineProgram.statements := by
  simp [inlineProgram, StraightLine, NoSubscript, NoSubscripts]

theorem inlineProgram_distinct : Distinct inlineProgram.statements :=
  ⟨by decide +kernel, by decide +kernel, by decide +kernel⟩

theorem inlineProgram_only (v d : Vid) :
    OnlyUse (stmtsTokens inlineProgram.statements) v d ↔ v = 32 ∧ d = 11 := by
  rw [onlyUse_iff _ inlineProgram_distinct.names,
    show links [] (stmtsTokens inlineProgram.statements) =
      [(32, 11), (41, 21), (42, 31), (51, 21), (52, 31)] by decide +kernel]
  simp only [List.mem_cons, List.not_mem_nil, or_false, Prod.mk.injEq, forall_eq_or_imp, forall_eq]
  constructor
  · rintro ⟨h1, h2, h3, h4, h5, h6⟩
    rcases h1 with h | ⟨rfl, rfl⟩ | ⟨rfl, rfl⟩ | ⟨rfl, rfl⟩ | ⟨rfl, rfl⟩
    · exact h
    · exact absurd (h5 rfl) (by decide)
    · exact absurd (h6 rfl) (by decide)
    · exact absurd (h3 rfl) (by decide)
    · exact absurd (h4 rfl) (by decide)
  · rintro ⟨rfl, rfl⟩
    decide

example : UsedWhole inlineProgram.statements := by
  constructor
  · intro e he
    simp [inlineProgram] at he
  · intro v t n e he u hu d ho
    obtain ⟨rfl, rfl⟩ := (inlineProgram_only _ _).1 ho
    simp only [inlineProgram, List.mem_cons, List.not_mem_nil, or_false, Stmt.assign.injEq] at he
    rcases he with ⟨-, -, -, rfl⟩ | ⟨-, -, -, rfl⟩ | ⟨-, -, -, rfl⟩ | ⟨-, -, -, rfl⟩ | ⟨-, -, -, rfl⟩
    · exact absurd hu (by decide +kernel)
    · exact absurd hu (by decide +kernel)
    · exact ⟨_, rfl⟩
    · exact absurd hu (by decide +kernel)
    · exact absurd hu (by decide +kernel)

example : NoChain inlineProgram.statements := by
  rintro v t n u k he ⟨w, hw⟩ d ho
  obtain ⟨-, rfl⟩ := (inlineProgram_only _ _).1 hw
  simp [inlineProgram] at he

example : NotReassigned inlineProgram.statements := by
  intro a v t n e b v' t' n' u k r hl ho m hm
  obtain ⟨rfl, rfl⟩ := (inlineProgram_only _ _).1 ho
  have he : Stmt.assign v 11 n e ∈ inlineProgram.statements := by rw [hl]; simp
  have hx : m = ['x'] := by
    simp [inlineProgram] at he
    obtain ⟨-, -, rfl⟩ := he
    simpa [exprTokens, exprsTokens, usedNames] using hm
  intro hb
  obtain ⟨w, t, e', hw⟩ := mem_targets.1 hb
  have hin : m ∈ targets inlineProgram.statements :=
    mem_targets.2 ⟨w, t, e', by rw [hl]; simp [hw]⟩
  rw [hx] at hin
  exact absurd hin (by decide +kernel)

example : beforeAndAfter exampleContext exampleContext.source inlineProgram ['w'] =
    some (some (-7), some (-7)) := by
  decide +kernel

/-- `a = 5; b = sub(a, 1)`: the only use of `a` is part of an expression. -/
def nestedProgram : Module where
  v := 0
  scope := 1
  sentinel := 2
  statements := [
    .assign 10 11 ['a'] (.number 12 (.int .i64 5)),
    .assign 20 21 ['b'] (.call 22 ['s', 'u', 'b'] [.name 23 ['a'], .number 24 (.int .i64 1)])]

example : ((identifyModule nestedProgram).map fun i => (optimizeModule i nestedProgram).isNone) =
    some true := by
  decide +kernel

example : OnlyUse (stmtsTokens nestedProgram.statements) 23 11 := by
  rw [onlyUse_iff _ (by decide +kernel),
    show links [] (stmtsTokens nestedProgram.statements) = [(23, 11)] by decide +kernel]
  simp

end Fern
