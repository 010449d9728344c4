import Verif.Lemmas.InterpreterTotal
import Verif.Props.Thread
import Verif.Props.Identify
import Verif.Props.InOut
import Verif.Props.Validate
import Verif.Props.Execute

/-!
# C77: the calls of the interpreter
-/

namespace Fern

open Spec

variable {V : Type}

/-- What annotation of a module has done. -/
theorem Interpreter.annotate_eq_some {c : InterpreterContext V} {i i1 : Interpreter V} {m : Module}
    {tree tree' : Annotations V} {sources : Scope (DataSource V)}
    (h : i.annotate c m tree sources = some (i1, tree')) :
    ∃ t s, (sources.map fun e => (e.1, e.2.type)).foldlM
        (fun (t : SymbolTable ExpressionType) (e : Str × ExpressionType) => t.addValue e.1 e.2) i.table =
          some t ∧
      annotateStmts c.ops ⟨i.types, t, tree.types, tree.operation⟩ m.statements = some s ∧
      i1 = { i with types := s.stack, table := s.table } ∧ tree' = ⟨s.types, s.operation⟩ := by
  rw [Interpreter.annotate] at h
  obtain ⟨_, _, h⟩ := Option.bind_eq_some_iff.1 h
  obtain ⟨_, _, h⟩ := Option.bind_eq_some_iff.1 h
  obtain ⟨s0, h0, h⟩ := Option.bind_eq_some_iff.1 h
  obtain ⟨s, h1, h2⟩ := Option.map_eq_some_iff.1 h
  rw [AnnotateState.addGlobalSymbols] at h0
  obtain ⟨t, h3, rfl⟩ := Option.map_eq_some_iff.1 h0
  cases h2
  exact ⟨t, s, h3, h1, rfl, rfl⟩

theorem Interpreter.validate_eq_done {c : InterpreterContext V} {i i1 : Interpreter V} {m : Module}
    {tree : Annotations V} {sources : Scope (DataSource V)}
    (h : (i.validate c m tree sources).1 = .done i1) :
    ∃ t s, (sources.map fun e => (e.1, e.2.type)).foldlM
        (fun (t : SymbolTable ExpressionType) (e : Str × ExpressionType) => t.addValue e.1 e.2) i.table =
          some t ∧
      annotateStmts c.ops ⟨i.types, t, tree.types, tree.operation⟩ m.statements = some s ∧
      i1 = { i with types := s.stack, table := s.table } ∧
      validateStmts ⟨s.types, s.operation⟩ m.statements = .ok := by
  rw [Interpreter.validate] at h
  cases ha : i.annotate c m tree sources with
  | none => rw [ha] at h; cases h
  | some r =>
    obtain ⟨i2, tree'⟩ := r
    rw [ha] at h
    dsimp only at h
    obtain ⟨t, s, h1, h2, h3, h4⟩ := Interpreter.annotate_eq_some ha
    cases hv : validateStmts tree' m.statements with
    | ok =>
      rw [hv] at h
      cases h
      exact ⟨t, s, h1, h2, h3, by rw [← h4, hv]⟩
    | error p => rw [hv] at h; cases h
    | undefined => rw [hv] at h; cases h

/-! ### What an execution computes -/

/-- Names that are not assigned keep their values. -/
theorem evalStmts_other {c : ExecuteContext V} {env env' : Str → Option V} {l : List Stmt} {out : List V}
    (h : evalStmts c env l = some (env', out)) {n : Str}
    (hn : ∀ v, Token.define n v ∉ stmtsTokens l) : env' n = env n := by
  induction l generalizing env out with
  | nil => rw [evalStmts] at h; cases h; rfl
  | cons t l ih =>
    rw [stmtsTokens] at hn
    have hn2 : ∀ v, Token.define n v ∉ stmtsTokens l := fun v hv =>
      hn v (List.mem_append_right _ hv)
    cases t with
    | expr e =>
      rw [evalStmts] at h
      obtain ⟨x, _, h2⟩ := Option.bind_eq_some_iff.1 h
      obtain ⟨r, h3, h4⟩ := Option.map_eq_some_iff.1 h2
      cases h4
      exact ih h3 hn2
    | assign v target m e =>
      rw [evalStmts] at h
      obtain ⟨x, _, h2⟩ := Option.bind_eq_some_iff.1 h
      rw [ih h2 hn2, bindName]
      refine if_neg fun h => ?_
      subst h
      exact hn target (List.mem_append_left _ (by rw [stmtTokens]; simp))
    | _ => simp [evalStmts] at h

/-- Where the names start, whatever the interpreter computed before. -/
theorem eraseSources_env {c : InterpreterContext V} {i : Interpreter V} (ho : i.back.table.length = 1)
    (sources : Scope (DataSource V)) (syncs : List Str) (outputs : List Vid) :
    ∃ t, eraseSources i.back.table sources = some t ∧ t.length = 1 ∧
      (∀ n, t.value n = if (sources.value n).isSome then none else i.back.table.value n) ∧
      ({ i.back with table := t } : ExecuteState V).env (executionContext c sources syncs outputs) =
        startValue i sources := by
  obtain ⟨s, hs⟩ := List.length_eq_one_iff.1 ho
  obtain ⟨s', h1, h2⟩ := eraseSources_value sources s
  have h3 : ∀ s : Scope V, ∀ n, SymbolTable.value [s] n = s.value n := by
    intro s n
    rw [SymbolTable.value_cons, SymbolTable.value_nil]
    cases s.value n <;> rfl
  have h4 : ∀ n, SymbolTable.value [s'] n = if (sources.value n).isSome then none
      else i.back.table.value n := by
    intro n
    rw [h3, h2, hs, h3]
  refine ⟨[s'], by rw [hs]; exact h1, rfl, h4, ?_⟩
  funext n
  change (SymbolTable.value [s'] n).or ((sources.value n).map (·.value)) = startValue i sources n
  rw [h4, startValue]
  cases sources.value n with
  | none => simp
  | some d => simp

/-- A straight-line module whose operations have the right numbers of arguments is executed with the
values of the data sources, and with the values computed by earlier calls for the other names. -/
theorem C77_meaning (c : InterpreterContext V) (hone : OneResult c.ops) (i : Interpreter V)
    (ho : i.back.table.length = 1) (m : Module) (hl : StraightLine m.statements)
    (har : ArityRight c.ops (stmtsTerms m.statements)) (sources : Scope (DataSource V))
    (syncs : List Str) (io : IOState) (hio : ioModule m = some io) :
    let c' := executionContext c sources syncs (io.outputs.map (·.v))
    match evalStmts c' (startValue i sources) m.statements with
    | none => i.executeTree c m sources syncs = .failed
    | some (env, out) => ∃ i', i.executeTree c m sources syncs = .done i' ∧
      i'.types = i.types ∧ i'.table = i.table ∧ i'.back.table.length = 1 ∧
      i'.back.stack = out.reverse ++ i.back.stack ∧
      i'.back.writes = i.back.writes ++ evalWrites c' (startValue i sources) m.statements ∧
      (∀ n, Mentioned m n → i'.back.table.value n = env n) ∧
      ∀ n, ¬ Mentioned m n → i'.back.table.value n =
        if (sources.value n).isSome then none else i.back.table.value n := by
  intro c'
  obtain ⟨t, h1, h2, h3, h4⟩ := eraseSources_env (c := c) ho sources syncs (io.outputs.map (·.v))
  have ht : t ≠ [] := by intro h; rw [h] at h2; cases h2
  have key := executeStmts_eq c' hone { i.back with table := t } m.statements hl har ht
  rw [h4] at key
  have hx : i.executeTree c m sources syncs =
      match executeStmts c' { i.back with table := t } m.statements with
      | none => .failed
      | some s => .done { i with back := s } := by
    rw [Interpreter.executeTree, h1, Option.bind_some, executeModule, hio, Option.bind_some]
    rfl
  rw [hx]
  cases hev : evalStmts c' (startValue i sources) m.statements with
  | none =>
    rw [hev] at key
    rw [key]
  | some r =>
    obtain ⟨env, out⟩ := r
    rw [hev] at key
    obtain ⟨s', k1, k2⟩ := key
    rw [k1]
    refine ⟨_, rfl, rfl, rfl, (executeStmts_length k1).trans h2, k2.stack, ?_, ?_, ?_⟩
    · have := k2.writes
      rw [h4] at this
      exact this
    · intro n hn
      obtain ⟨known, hk⟩ := exists_known t
      have h5 := ((k2.log.known known hk).2 n).1 ((mem_knownAfter _ _ _).2 (.inr hn))
      have h6 := congrFun k2.env n
      rw [ExecuteState.env] at h6
      obtain ⟨x, hx⟩ := Option.isSome_iff_exists.1 h5
      rw [hx] at h6
      change s'.table.value n = env n
      rw [hx, ← h6]; rfl
    · intro n hn
      change s'.table.value n = _
      obtain ⟨known, hk⟩ := exists_known t
      have h5 := ((k2.log.known known hk).2 n)
      rw [mem_knownAfter, hk] at h5
      have h6 := congrFun k2.env n
      rw [ExecuteState.env, evalStmts_other hev fun v hv => hn ⟨v, .inr hv⟩, startValue] at h6
      cases hd : sources.value n with
      | none =>
        change (s'.table.value n).or ((sources.value n).map (·.value)) = _ at h6
        rw [hd] at h6
        simpa using h6
      | some d =>
        have h7 := h3 n
        rw [hd, Option.isSome_some, if_pos rfl] at h7
        rw [h7] at h5
        rw [Option.isSome_some, if_pos rfl]
        cases hs : s'.table.value n with
        | none => rfl
        | some x =>
          rw [hs] at h5
          rcases h5.2 rfl with h8 | h8
          · cases h8
          · exact absurd h8 hn

/-! ### Validated modules can be executed -/

theorem annotateStmts_table {ops : Operations V} {l : List Stmt} (hl : StraightLine l)
    {s s' : AnnotateState V} (h : annotateStmts ops s l = some s') (ht : s.table ≠ []) :
    s'.table ≠ [] := by
  induction l generalizing s with
  | nil => rw [annotateStmts] at h; cases h; exact ht
  | cons t l ih =>
    rw [annotateStmts] at h
    obtain ⟨s1, h1, h2⟩ := Option.bind_eq_some_iff.1 h
    cases t with
    | expr e =>
      rw [StraightLine] at hl
      rw [annotateStmt] at h1
      exact ih hl.2 h2 (by rw [(annotateExpr_frame ops s s1 e h1).table]; exact ht)
    | assign v target m e =>
      rw [StraightLine] at hl
      rw [annotateStmt] at h1
      obtain ⟨s2, _, h4⟩ := Option.bind_eq_some_iff.1 h1
      obtain ⟨_, _, _, _, _, h5, _⟩ := finishAssign_some h4
      exact ih hl.2 h2 h5
    | _ => simp [StraightLine] at hl

/-- A straight-line module that passes validation is executed without a failure. Afterwards the stacks
still agree, and every name that annotation knows has a value of its type, except for data sources that
are not mentioned in the module. -/
theorem C77_execute (c : InterpreterContext V) {hasType : V → ExpressionType → Prop}
    (hw : WellTyped c hasType) (i : Interpreter V) (hr : InterpreterReady hasType i) (m : Module)
    (hl : StraightLine m.statements) (hn : m.vids.Nodup)
    (sources : Scope (DataSource V)) (hsn : (sources.map (·.1)).Nodup)
    (hst : ∀ n d, sources.value n = some d → hasType d.value d.type) (syncs : List Str)
    (i1 : Interpreter V) (hv : (i.validate c m .none sources).1 = .done i1) :
    ∃ i', i.execute c m .none sources syncs = .done i' ∧ i'.types = i1.types ∧ i'.table = i1.table ∧
      i'.table ≠ [] ∧ i'.back.table.length = 1 ∧
      (StacksAgree hasType i → StacksAgree hasType i') ∧
      ∀ n t, i'.table.value n = some t → IsDefined t →
        (∃ x, i'.back.table.value n = some x ∧ hasType x t) ∨
          ((sources.value n).isSome ∧ ¬ Mentioned m n) := by
  obtain ⟨t, s, h1, h2, h3, h4⟩ := Interpreter.validate_eq_done hv
  have hsn' : ((sources.map fun e => (e.1, e.2.type)).map (·.1)).Nodup := by
    rw [List.map_map]; exact hsn
  have htv := addValues_value _ hsn' _ _ h1
  obtain ⟨t', h1', hne⟩ := addValues_isSome (sources.map fun e => (e.1, e.2.type)) i.table hr.scope
  rw [h1] at h1'
  cases h1'
  obtain ⟨io, hio⟩ := Option.isSome_iff_exists.1 (C62_succeeds m)
  have hth : TableHasValues hasType (startValue i sources) t := by
    intro n ty hn hd
    rw [htv, value_map] at hn
    rw [startValue]
    cases hs : sources.value n with
    | some d =>
      rw [hs] at hn
      cases hn
      exact ⟨d.value, rfl, hst n d hs⟩
    | none =>
      rw [hs] at hn
      exact hr.values n ty hn hd
  obtain ⟨⟨env, out, ts, k1, k2, k3, k4⟩, k5⟩ :=
    stmts_sound (executionContext c sources syncs (io.outputs.map (·.v))) hw m.statements hl
      ⟨i.types, t, fun _ => [], fun _ => none⟩ s h2 (termIds_nodup hl hn) (fun v _ => ⟨rfl, rfl⟩) h4
      (startValue i sources) hth
  have hm := C77_meaning c hw.oneResult { i with types := s.stack, table := s.table } hr.oneScope m hl k5
    sources syncs io hio
  have hsv : startValue { i with types := s.stack, table := s.table } sources = startValue i sources := rfl
  rw [hsv] at hm
  dsimp only at hm
  rw [k1] at hm
  obtain ⟨i', e1, e2, e3, e4, e5, _, e7, e8⟩ := hm
  refine ⟨i', ?_, by rw [e2, h3], by rw [e3, h3], ?_, e4, ?_, ?_⟩
  · rw [Interpreter.execute, hv, h3]; exact e1
  · rw [e3]; exact annotateStmts_table hl h2 hne
  · intro ha
    rw [StacksAgree, e5, e2]
    rw [k2]
    exact List.rel_append (List.rel_reverse k3) ha
  · intro n ty hn hd
    rw [e3] at hn
    obtain ⟨x, hx, hxt⟩ := k4 n ty hn hd
    by_cases hmn : Mentioned m n
    · exact .inl ⟨x, by rw [e7 n hmn]; exact hx, hxt⟩
    · rw [evalStmts_other k1 fun v hv => hmn ⟨v, .inr hv⟩, startValue] at hx
      cases hs : sources.value n with
      | some d => exact .inr ⟨rfl, hmn⟩
      | none =>
        left
        rw [e8 n hmn, hs]
        rw [hs] at hx
        exact ⟨x, by simpa using hx, hxt⟩

/-- If every data source passed is mentioned in the module, then the interpreter is ready for the next
call. -/
theorem C77_ready (c : InterpreterContext V) {hasType : V → ExpressionType → Prop}
    (hw : WellTyped c hasType) (i : Interpreter V) (hr : InterpreterReady hasType i) (m : Module)
    (hl : StraightLine m.statements) (hn : m.vids.Nodup)
    (sources : Scope (DataSource V)) (hsn : (sources.map (·.1)).Nodup)
    (hst : ∀ n d, sources.value n = some d → hasType d.value d.type)
    (hmen : ∀ n, (sources.value n).isSome → Mentioned m n) (syncs : List Str)
    (i1 : Interpreter V) (hv : (i.validate c m .none sources).1 = .done i1) :
    ∃ i', i.execute c m .none sources syncs = .done i' ∧ InterpreterReady hasType i' ∧
      (StacksAgree hasType i → StacksAgree hasType i') := by
  obtain ⟨i', h1, _, _, h2, h3, h4, h5⟩ :=
    C77_execute c hw i hr m hl hn sources hsn hst syncs i1 hv
  refine ⟨i', h1, ⟨h2, h3, fun n t hn hd => ?_⟩, h4⟩
  rcases h5 n t hn hd with h | ⟨h, h'⟩
  · exact h
  · exact absurd (hmen n h) h'

/-- Validation of a straight-line module meets no failing assertion: it ends normally or reports a
problem. -/
theorem C77_validate_total (c : InterpreterContext V) (hr : TotalRules c.ops) (i : Interpreter V)
    (ht : i.table ≠ []) (m : Module) (hl : StraightLine m.statements) (hn : m.vids.Nodup)
    (ha : ∀ t ∈ m.statements, ¬ AssignsAttribute t) (sources : Scope (DataSource V)) :
    (∃ i1, (i.validate c m .none sources).1 = .done i1) ∨
      ∃ i1 p, (i.validate c m .none sources).1 = .refused i1 p ∧ i1.back = i.back ∧ i1.table ≠ [] := by
  obtain ⟨s, _, h1, _⟩ := C60_straight m hn (straight_of_straightLine hl)
  have hids := termIds_nodup hl hn
  obtain ⟨s2, h2⟩ := C56_succeeds m ((stmtsTokens_ids hl).nodup hids)
  obtain ⟨t, h3, h4⟩ := addValues_isSome (sources.map fun e => (e.1, e.2.type)) i.table ht
  obtain ⟨s', h5, h6⟩ := annotateStmts_total hr m.statements hl ha
    ⟨i.types, t, fun _ => [], fun _ => none⟩ hids (fun v _ => ⟨rfl, rfl⟩) h4
  have h7 : i.annotate c m .none sources =
      some ({ i with types := s'.stack, table := s'.table }, ⟨s'.types, s'.operation⟩) := by
    rw [Interpreter.annotate, h1, Option.bind_some, h2, Option.bind_some, AnnotateState.addGlobalSymbols]
    dsimp only
    rw [h3, Option.map_some, Option.bind_some]
    exact congrArg (Option.map _) h5
  rw [Interpreter.validate, h7]
  dsimp only
  rw [validateStmts_eq]
  rcases checkAll_eq _ _ h6 with ⟨h8, _⟩ | ⟨l1, e, l2, p, _, h8, _⟩
  · rw [h8]; exact .inl ⟨_, rfl⟩
  · rw [h8]; exact .inr ⟨_, p, rfl, rfl, annotateStmts_table hl h5 h4⟩

/-- Execution of a straight-line module ends normally or reports a problem found by validation, in which
case nothing was computed or written. -/
theorem C77_total (c : InterpreterContext V) {hasType : V → ExpressionType → Prop}
    (hw : WellTyped c hasType) (hr : TotalRules c.ops) (i : Interpreter V)
    (hi : InterpreterReady hasType i) (m : Module) (hl : StraightLine m.statements) (hn : m.vids.Nodup)
    (ha : ∀ t ∈ m.statements, ¬ AssignsAttribute t) (sources : Scope (DataSource V))
    (hsn : (sources.map (·.1)).Nodup)
    (hst : ∀ n d, sources.value n = some d → hasType d.value d.type) (syncs : List Str) :
    (∃ i', i.execute c m .none sources syncs = .done i') ∨
      ∃ i1 p, i.execute c m .none sources syncs = .refused i1 p ∧ i1.back = i.back := by
  rcases C77_validate_total c hr i hi.scope m hl hn ha sources with ⟨i1, h⟩ | ⟨i1, p, h1, h2, _⟩
  · obtain ⟨i', h1, _⟩ := C77_execute c hw i hi m hl hn sources hsn hst syncs i1 h
    exact .inl ⟨i', h1⟩
  · exact .inr ⟨i1, p, by rw [Interpreter.execute, h1], h2⟩

/-! ### Sequences of calls -/

/-- A call that leaves the interpreter ready: a straight-line module is executed with data sources that
are mentioned in it, or the stack is cleared. -/
inductive SafeCall (c : InterpreterContext V) (hasType : V → ExpressionType → Prop) :
    Interpreter V → Interpreter V → Prop
  | execute (i i' : Interpreter V) (m : Module) (sources : Scope (DataSource V)) (syncs : List Str)
      (hl : StraightLine m.statements) (hn : m.vids.Nodup) (hsn : (sources.map (·.1)).Nodup)
      (hst : ∀ n d, sources.value n = some d → hasType d.value d.type)
      (hmen : ∀ n, (sources.value n).isSome → Mentioned m n)
      (h : i.execute c m .none sources syncs = .done i') : SafeCall c hasType i i'
  | clear (i : Interpreter V) : SafeCall c hasType i i.clearStack

theorem initial_ready (hasType : V → ExpressionType → Prop) :
    InterpreterReady hasType (Interpreter.initial : Interpreter V) :=
  ⟨by simp [Interpreter.initial], rfl, fun n t h => by
    rw [show (Interpreter.initial : Interpreter V).table = [[]] from rfl, SymbolTable.value_cons,
      SymbolTable.value_nil] at h
    cases h⟩

/-- After any number of calls, the stack of types describes the stack of values, and names have values of
the types that annotation assumes. -/
theorem C77_session (c : InterpreterContext V) {hasType : V → ExpressionType → Prop}
    (hw : WellTyped c hasType) (i : Interpreter V)
    (h : Relation.ReflTransGen (SafeCall c hasType) .initial i) :
    InterpreterReady hasType i ∧ StacksAgree hasType i := by
  induction h with
  | refl => exact ⟨initial_ready hasType, .nil⟩
  | @tail i i' _ hs ih =>
    cases hs with
    | execute _ m sources syncs hl hn hsn hst hmen h =>
      cases hv : (i.validate c m .none sources).1 with
      | done i1 =>
        obtain ⟨i2, h1, h2, h3⟩ := C77_ready c hw i ih.1 m hl hn sources hsn hst hmen syncs i1 hv
        rw [h] at h1
        cases h1
        exact ⟨h2, h3 ih.2⟩
      | refused i1 p => rw [Interpreter.execute, hv] at h; cases h
      | failed => rw [Interpreter.execute, hv] at h; cases h
    | clear => exact ⟨⟨ih.1.scope, ih.1.oneScope, ih.1.values⟩, .nil⟩

/-! ### What is refused -/

theorem rootCheck_of_checkAll {a : Annotations V} {l : List Expr} (h : checkAll a l = .ok) {e : Expr}
    (he : e ∈ l) : rootCheck a e = .ok := by
  induction l with
  | nil => cases he
  | cons d l ih =>
    rw [checkAll] at h
    obtain ⟨h1, h2⟩ := Checked.andThen_eq_ok h
    rcases List.mem_cons.1 he with rfl | he
    · exact h1
    · exact ih h2 he

/-- A module that calls something that is not an operation does not pass validation. This holds for all
modules; so the functions that a module defines can not be called. -/
theorem C77_unknown (c : InterpreterContext V) (i i1 : Interpreter V) (m : Module)
    (sources : Scope (DataSource V)) (v : Vid) (n : Str) (args : List Expr)
    (hm : Expr.call v n args ∈ stmtsTerms m.statements)
    (hu : ∀ e ∈ stmtsTerms m.statements, e.vid = v → e = .call v n args) (hno : c.ops n = none) :
    (i.validate c m .none sources).1 ≠ .done i1 := by
  intro h
  obtain ⟨t, s, _, h2, _, h4⟩ := Interpreter.validate_eq_done h
  have h5 := annotateStmts_unknown h2 (w := v) ⟨fun n' args' hm' => by
      have := hu _ hm' rfl
      cases this; exact hno, fun n' args' hm' => by
      have := hu _ hm' rfl
      cases this⟩
  rw [validateStmts_eq] at h4
  have h6 := rootCheck_of_checkAll h4 hm
  rw [rootCheck, checkOperation] at h6
  dsimp only at h6
  rw [h5] at h6
  cases h6

/-- A tree that was annotated can not be passed again. -/
theorem C77_twice (c : InterpreterContext V) (i i1 i2 : Interpreter V) (m : Module) (t : Stmt)
    (ts : List Stmt) (hm : m.statements = t :: ts) (ht : StraightLine m.statements)
    (tree tree' : Annotations V) (sources sources' : Scope (DataSource V))
    (h : i.annotate c m tree sources = some (i1, tree')) :
    (i2.validate c m tree' sources').1 = .failed := by
  obtain ⟨_, s, _, h2, _, h4⟩ := Interpreter.annotate_eq_some h
  have key : ∀ s0 : AnnotateState V, s0.types = tree'.types → annotateStmts c.ops s0 m.statements = none := by
    intro s0 hs0
    have hs : s0.types = s.types := by rw [hs0, h4]
    rw [hm] at ht h2 ⊢
    rw [annotateStmts] at h2
    obtain ⟨s1, h5, h6⟩ := Option.bind_eq_some_iff.1 h2
    cases t with
    | expr e =>
      rw [annotateStmt] at h5
      rw [annotateStmts, annotateStmt, annotateExpr_first e
        (by rw [hs]; exact annotateStmts_mono h6 (annotateExpr_marks e h5))]
      rfl
    | assign v target n e =>
      rw [annotateStmt] at h5
      obtain ⟨s2, h7, h8⟩ := Option.bind_eq_some_iff.1 h5
      have h10 := finishAssign_mono h8 (annotateExpr_marks e h7)
      rw [annotateStmts, annotateStmt, annotateExpr_first e (by rw [hs]; exact annotateStmts_mono h6 h10)]
      rfl
    | _ => simp [StraightLine] at ht
  have h5 : i2.annotate c m tree' sources' = none := by
    rw [Interpreter.annotate]
    cases threadModule m with
    | none => rfl
    | some _ =>
      cases identifyModule m with
      | none => rfl
      | some _ =>
        rw [Option.bind_some, Option.bind_some, AnnotateState.addGlobalSymbols]
        cases (sources'.map fun e => (e.1, e.2.type)).foldlM
          (fun (t : SymbolTable ExpressionType) (e : Str × ExpressionType) => t.addValue e.1 e.2)
          i2.table with
        | none => rfl
        | some t =>
          rw [Option.map_some, Option.bind_some, key _ rfl]; rfl
  rw [Interpreter.validate, h5]

/-! ### Examples -/

/-- Values are integers with the type they were given; `add` adds two 64 bit integers. -/
def exampleInterpreter : InterpreterContext (ExpressionType × Int) where
  ops := fun n => if n = ['a', 'd', 'd'] then
    some ⟨[[constantType .int64], [constantType .int64]], fun _ => some (constantType .int64),
      fun l => match l with | [a, b] => some [(constantType .int64, a.2 + b.2)] | _ => none⟩ else none
  number := fun n => (⟨DataTypes.constant, n.valueType.flag⟩, match n with | .int _ v => v | _ => 0)
  string := fun _ => (⟨DataTypes.constant, ValueType.string.flag⟩, 0)

theorem exampleInterpreter_wellTyped : WellTyped exampleInterpreter fun x t => x.1 = t where
  oneResult := by
    intro n op h args rs hr
    simp only [exampleInterpreter] at h
    split at h
    · cases h
      match args, hr with
      | [a, b], hr => cases hr; rfl
      | [], hr => cases hr
      | [a], hr => cases hr
      | a :: b :: d :: l, hr => cases hr
    · cases h
  number := fun n => rfl
  string := fun s => rfl
  operation := by
    intro n op h args ts ha hp t ht
    simp only [exampleInterpreter] at h
    split at h
    · cases h
      cases hp with
      | cons _ hp => cases hp with
        | cons _ hp => cases hp with
          | nil =>
            cases ha with
            | cons _ ha => cases ha with
              | cons _ ha => cases ha with
                | nil => cases ht; exact ⟨_, rfl, rfl⟩
    · cases h

example : TotalRules exampleInterpreter.ops := by
  intro n op h l _
  simp only [exampleInterpreter] at h
  split at h
  · cases h; rfl
  · cases h

/-- The module with the statements. -/
def moduleOf (l : List Stmt) : Module := ⟨0, 1, 2, l⟩

/-- `b = add(x, 3); b`. -/
def exampleModule : Module := moduleOf [
  .assign 10 11 ['b'] (.call 12 ['a', 'd', 'd'] [.name 13 ['x'], .number 14 (.int .i64 3)]),
  .expr (.name 20 ['b'])]

/-- The data source `x`. -/
def exampleSources (n : Str) : Scope (DataSource (ExpressionType × Int)) :=
  [(n, ⟨constantType .int64, (constantType .int64, 10)⟩)]

example : StraightLine exampleModule.statements := by
  simp [exampleModule, moduleOf, StraightLine, NoSubscript, NoSubscripts]

example : exampleModule.vids.Nodup := by decide +kernel

/-- What a call leaves, for use in examples. -/
def Called.state {V : Type} : Called V → Option (Interpreter V)
  | .done i => some i
  | .refused i _ => some i
  | .failed => none

/-- How the call ended. -/
def Called.kind {V : Type} : Called V → Nat
  | .done _ => 0
  | .refused _ _ => 1
  | .failed => 2

example : ((Interpreter.initial.execute exampleInterpreter exampleModule .none (exampleSources ['x'])
      []).state.map fun i => (i.types.length, i.back.stack.map (·.2))) = some (1, [13]) := by
  decide +kernel

/-- Modules passed one after the other, each with the data sources: how the calls end. -/
def kinds (i : Interpreter (ExpressionType × Int)) :
    List (List Stmt × Scope (DataSource (ExpressionType × Int))) → List Nat
  | [] => []
  | (l, sources) :: ms =>
    let r := i.execute exampleInterpreter (moduleOf l) .none sources []
    r.kind :: match r.state with
      | some i => kinds i ms
      | none => []

/-! ### What goes wrong -/

/-- After `a = 5; b = x` was refused because `x` is not defined, `c = a` passes validation, and execution
fails: `a` has a type but no value. -/
theorem C77_after_refusal :
    kinds .initial [
      ([.assign 10 11 ['a'] (.number 12 (.int .i64 5)), .assign 20 21 ['b'] (.name 22 ['x'])], []),
      ([.assign 10 11 ['c'] (.name 12 ['a'])], [])] = [1, 2] ∧
    kinds .initial [([.assign 10 11 ['c'] (.name 12 ['a'])], [])] = [1] := by
  decide +kernel

/-- The data source `x` is passed with `a = 5`, which does not use it. Then `c = x`, without data sources,
passes validation, and execution fails. It does not fail if the first module uses `x`. -/
theorem C77_unused_source :
    kinds .initial [
      ([.assign 10 11 ['a'] (.number 12 (.int .i64 5))], exampleSources ['x']),
      ([.assign 10 11 ['c'] (.name 12 ['x'])], [])] = [0, 2] ∧
    kinds .initial [
      ([.assign 10 11 ['a'] (.name 12 ['x'])], exampleSources ['x']),
      ([.assign 10 11 ['c'] (.name 12 ['x'])], [])] = [0, 0] := by
  decide +kernel

/-- A value that was computed is lost when a data source of that name is passed with a module that does
not use it. -/
theorem C77_value_lost :
    kinds .initial [
      ([.assign 10 11 ['a'] (.number 12 (.int .i64 5))], []),
      ([.assign 10 11 ['b'] (.number 12 (.int .i64 6))], exampleSources ['a']),
      ([.assign 10 11 ['c'] (.name 12 ['a'])], [])] = [0, 0, 2] := by
  decide +kernel

/-- A name that is assigned in both branches of an `if` passes validation, and using it behind the `if`
fails. -/
theorem C77_if_not_sound :
    kinds .initial [([
      .ifElse 10 11 (.number 12 (.int .i64 1)) 13 14 [.assign 20 21 ['a'] (.number 22 (.int .i64 5))] 15 16
        [.assign 30 31 ['a'] (.number 32 (.int .i64 6))],
      .assign 40 41 ['b'] (.name 42 ['a'])], [])] = [2] := by
  decide +kernel

/-- After the statement `a[0]` the stacks do not agree: there are two types and no value. -/
theorem C77_subscript_stacks :
    ((Interpreter.initial.execute exampleInterpreter (moduleOf [
      .assign 10 11 ['a'] (.number 12 (.int .i64 5)),
      .expr (.subscript 20 (.name 21 ['a']) (.number 22 (.int .i64 0)))]) .none [] []).state.map fun i =>
        (i.types.length, i.back.stack.length)) = some (2, 0) := by
  decide +kernel

/-- A function with a parameter is refused where it is defined. -/
theorem C77_parameter_refused :
    kinds .initial [([.function 10 ['f'] [.name 11 ['p']] 12 13 [.ret 14 (some (.name 15 ['p']))]], [])] =
      [1] := by
  decide +kernel

/-- A function that is defined can not be called. -/
theorem C77_function_refused :
    kinds .initial [([.function 10 ['f'] [] 12 13 [.ret 14 (some (.number 15 (.int .i64 1)))],
      .expr (.call 20 ['f'] [])], [])] = [1] := by
  decide +kernel

/-- An attribute can not be assigned. -/
theorem C77_attribute_fails :
    kinds .initial [([.assign 10 11 ['a'] (.number 12 (.int .i64 5)),
      .assign 20 21 ['b'] (.attribute 22 (.name 23 ['a']) ['m'])], [])] = [2] := by
  decide +kernel

end Fern
