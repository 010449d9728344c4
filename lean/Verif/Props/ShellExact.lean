import Verif.Props.Shell

/-!
# C94: interactive sessions, whatever the lines
-/

namespace Fern.Shell

open Fern Fern.Spec Fern.Shell.Spec

variable {V : Type}

mutual

theorem fine_arity {ops : Operations V} {env : Str → ExpressionType} : ∀ e, Fine ops env e → ArityRight ops (subterms e)
  | .name v n, _ => by constructor <;> intro v n args hm <;> simp [subterms] at hm
  | .number v n, _ => by constructor <;> intro v n args hm <;> simp [subterms] at hm
  | .string v n, _ => by constructor <;> intro v n args hm <;> simp [subterms] at hm
  | .call v n args, h => by
    rw [Fine] at h
    obtain ⟨h1, op, h2, h3⟩ := h
    rw [subterms]
    exact arityRight_operation (.inl ⟨v, rfl⟩) (fineAll_arity args h1) h2 h3.length_eq.symm
  | .operator v n args, h => by
    rw [Fine] at h
    obtain ⟨h1, op, h2, h3⟩ := h
    rw [subterms]
    exact arityRight_operation (.inr ⟨v, rfl⟩) (fineAll_arity args h1) h2 h3.length_eq.symm
  | .subscript v e i, h => by
    rw [Fine] at h
    rw [subterms]
    refine arityRight_append (fine_arity e h.1) (arityRight_append (fine_arity i h.2) ?_)
    constructor <;> intro v n args hm <;> simp at hm
  | .attribute v e m, h => by
    rw [Fine] at h
    rw [subterms]
    refine arityRight_append (fine_arity e h) ?_
    constructor <;> intro v n args hm <;> simp at hm

theorem fineAll_arity {ops : Operations V} {env : Str → ExpressionType} :
    ∀ es, FineAll ops env es → ArityRight ops (subtermsList es)
  | [], _ => by constructor <;> intro v n args hm <;> simp [subtermsList] at hm
  | e :: es, h => by
    rw [FineAll] at h
    rw [subtermsList]
    exact arityRight_append (fine_arity e h.1) (fineAll_arity es h.2)

end

theorem fineStmts_arity {ops : Operations V} (l : List Stmt) : ∀ env : Str → ExpressionType, FineStmts ops env l →
    ArityRight ops (stmtsTerms l) := by
  induction l with
  | nil => intro _ _; constructor <;> intro v n args hm <;> simp [stmtsTerms] at hm
  | cons t l ih =>
    intro env h
    rw [stmtsTerms]
    cases t with
    | expr e =>
      rw [FineStmts] at h
      refine arityRight_append ?_ (ih env h.2)
      simpa [stmtTerms] using fine_arity e h.1
    | assign v target n e =>
      rw [FineStmts] at h
      obtain ⟨h1, t, -, -, h2⟩ := h
      refine arityRight_append ?_ (ih _ h2)
      have := fine_arity e h1
      constructor
      · intro v' n' args hm
        refine this.call v' n' args ?_
        simpa [stmtTerms] using hm
      · intro v' n' args hm
        refine this.operator v' n' args ?_
        simpa [stmtTerms] using hm
    | _ => simp [FineStmts] at h

/-- What an interpreter between two lines is like: nothing is on the stacks, and names have the given types and values, which need
not agree. -/
structure Idle (i : Interpreter V) (types : Str → ExpressionType) (env : Str → Option V) : Prop where
  scope : i.table ≠ []
  oneScope : i.back.table.length = 1
  values : i.back.stack = []
  typeStack : i.types = []
  types : ∀ n, (i.table.value n).getD .undefined = types n
  env : ∀ n, i.back.table.value n = env n

theorem Idle.cleared {i : Interpreter V} {types : Str → ExpressionType} {env : Str → Option V} (h : Idle i types env) :
    i.clearStack = i := by
  cases i with
  | mk a b c =>
    cases c with
    | mk s t r w =>
      obtain ⟨-, -, h1, h2, -, -⟩ := h
      simp only at h1 h2
      subst h1 h2
      rfl

theorem showStack_none {text : V → Option Str} {xs : List V} (h : showStack text xs = none) : ∃ x ∈ xs, text x = none := by
  by_contra hc
  obtain ⟨s, hs⟩ := showStack_total (text := text) (xs := xs) fun x hx => by
    cases hx' : text x with
    | none => exact absurd ⟨x, hx, hx'⟩ hc
    | some _ => rfl
  rw [h] at hs
  cases hs

/-- What one line that is a module does. -/
theorem line_tree (T : Tools V) (hone : OneResult T.context.ops) (hr : TotalRules T.context.ops) (i : Interpreter V)
    (types : Str → ExpressionType) (env : Str → Option V) (hb : Idle i types env) (m : Module)
    (hl : StraightLine m.statements) (hn : m.vids.Nodup) (ha : ∀ t ∈ m.statements, ¬ AssignsAttribute t) :
    (¬ FineStmts T.context.ops types m.statements ∧ ∃ i' p, i.execute T.context m .none [] [] = .refused i' p ∧
      Idle i'.clearStack (typesAfter T.context.ops types m.statements) env) ∨
    FineStmts T.context.ops types m.statements ∧
      ((evalStmts (plain T.context) env m.statements = none ∧ i.execute T.context m .none [] [] = .failed) ∨
      ∃ i' env' values, evalStmts (plain T.context) env m.statements = some (env', values) ∧
        i.execute T.context m .none [] [] = .done i' ∧ i'.back.stack = values.reverse ∧
        Idle i'.clearStack (typesAfter T.context.ops types m.statements) env') := by
  have hst := startType_nil i types hb.types
  obtain ⟨i1, hback, hne, hty, hc⟩ := validate_cases T.context hr i hb.scope m hl hn ha [] List.nodup_nil
  rw [hst] at hty hc
  rcases hc with ⟨hf, hv⟩ | ⟨hf, p, hv⟩
  · refine .inr ⟨hf, ?_⟩
    obtain ⟨io, hio⟩ := Option.isSome_iff_exists.1 (C62_succeeds m)
    have hm := C77_meaning T.context hone i1 (by rw [hback]; exact hb.oneScope) m hl (fineStmts_arity _ _ hf) [] [] io hio
    have hsv : startValue i1 [] = env := startValue_nil i1 env (fun n => by rw [hback]; exact hb.env n)
    rw [hsv] at hm
    dsimp only at hm
    rw [evalStmts_outputs'] at hm
    cases hev : evalStmts (plain T.context) env m.statements with
    | none =>
      rw [hev] at hm
      refine .inl ⟨rfl, ?_⟩
      rw [Interpreter.execute, hv]
      dsimp only
      exact hm
    | some r =>
      obtain ⟨env', values⟩ := r
      rw [hev] at hm
      obtain ⟨i2, e1, e2, e3, e4, e5, _, e7, e8⟩ := hm
      refine .inr ⟨i2, env', values, rfl, ?_, ?_, ?_⟩
      · rw [Interpreter.execute, hv]
        dsimp only
        exact e1
      · rw [e5, hback, hb.values, List.append_nil]
      · refine ⟨?_, e4, rfl, rfl, ?_, ?_⟩
        · change i2.table ≠ []
          rw [e3]; exact hne
        · intro n
          change (i2.table.value n).getD _ = _
          rw [e3]
          exact hty n
        · intro n
          change i2.back.table.value n = _
          by_cases hmn : Mentioned m n
          · exact e7 n hmn
          · rw [e8 n hmn, hback, evalStmts_other hev fun v hv => hmn ⟨v, .inr hv⟩, ← hb.env n]
            rfl
  · refine .inl ⟨hf, i1, p, by rw [Interpreter.execute, hv], hne, ?_, rfl, rfl, hty, ?_⟩
    · change i1.back.table.length = 1
      rw [hback]; exact hb.oneScope
    · intro n
      change i1.back.table.value n = env n
      rw [hback]; exact hb.env n

theorem lines_conversation (T : Tools V) (hone : OneResult T.context.ops) (hr : TotalRules T.context.ops) (ls : List Str) :
    ∀ (k : Console V) (types : Str → ExpressionType) (env : Str → Option V), Idle k.interpreter types env →
      StraightLines T ls → ∃ r, Conversation T types env ls r ∧
        match r with
        | none => lines T k ls = none
        | some (out, err) => ∃ k', lines T k ls = some k' ∧ k'.out = k.out ++ out ∧ k'.err = k.err ++ err ∧
            k'.history = k.history ++ ls := by
  induction ls with
  | nil => intro k types env _ _; exact ⟨_, .nil types env, k, rfl, by simp, by simp, by simp⟩
  | cons l ls ih =>
    intro k types env hb hs
    have hs' : StraightLines T ls := fun x hx => hs x (List.mem_cons_of_mem _ hx)
    rw [lines, line]
    cases hp : T.parse l with
    | fernError message =>
      obtain ⟨r, h1, h2⟩ := ih ⟨k.interpreter.clearStack, k.out, k.err ++ message ++ ['\n'], k.history ++ [l]⟩ types env
        (by dsimp only; rw [hb.cleared]; exact hb) hs'
      refine ⟨_, .unparsed types env l ls message r hp h1, ?_⟩
      cases r with
      | none => exact h2
      | some r =>
        obtain ⟨k', g1, g2, g3, g4⟩ := h2
        exact ⟨k', g1, g2, by rw [g3]; simp, by rw [g4]; simp⟩
    | otherError what =>
      obtain ⟨r, h1, h2⟩ := ih ⟨k.interpreter.clearStack, k.out, k.err ++ "TODO: unhandled exception: ".toList ++ what ++ ['\n'],
        k.history ++ [l]⟩ types env (by dsimp only; rw [hb.cleared]; exact hb) hs'
      refine ⟨_, .unexpected types env l ls what r hp h1, ?_⟩
      cases r with
      | none => exact h2
      | some r =>
        obtain ⟨k', g1, g2, g3, g4⟩ := h2
        exact ⟨k', g1, g2, by rw [g3]; simp only [List.append_assoc], by rw [g4]; simp⟩
    | tree m =>
      obtain ⟨hl, hn, ha⟩ := hs l List.mem_cons_self m hp
      dsimp only
      rcases line_tree T hone hr k.interpreter types env hb m hl hn ha with
        ⟨hf, i', p, h1, h2⟩ | ⟨hf, ⟨hev, h1⟩ | ⟨i', env', values, hev, h1, h2, h3⟩⟩
      · rw [h1]
        obtain ⟨r, g1, g2⟩ := ih ⟨i'.clearStack, k.out, k.err ++ T.problem p ++ ['\n'], k.history ++ [l]⟩ _ env h2 hs'
        refine ⟨_, .refused types env l ls m p r hp hf g1, ?_⟩
        cases r with
        | none => exact g2
        | some r =>
          obtain ⟨k', q1, q2, q3, q4⟩ := g2
          exact ⟨k', q1, q2, by rw [q3]; simp, by rw [q4]; simp⟩
      · rw [h1]
        exact ⟨none, .fails types env l ls m hp hf hev, rfl⟩
      · rw [h1]
        dsimp only
        cases hsh : showStack T.text i'.back.stack with
        | none =>
          rw [h2] at hsh
          obtain ⟨x, hx, hxt⟩ := showStack_none hsh
          exact ⟨none, .unshown types env env' l ls m values hp hf hev ⟨x, List.mem_reverse.1 hx, hxt⟩, rfl⟩
        | some s =>
          rw [h2] at hsh
          obtain ⟨texts, q1, rfl⟩ := showStack_some hsh
          obtain ⟨r, g1, g2⟩ := ih ⟨i'.clearStack, k.out ++ texts.flatten, k.err, k.history ++ [l]⟩ _ env' h3 hs'
          refine ⟨_, .done types env env' l ls m values texts r hp hf hev q1 g1, ?_⟩
          cases r with
          | none => exact g2
          | some r =>
            obtain ⟨k', p1, p2, p3, p4⟩ := g2
            exact ⟨k', p1, by rw [p2]; simp, by rw [p3], by rw [p4]; simp⟩

/-- **C94**: exactly what a session does, whatever the lines mean, also if lines that are refused assign names: these lines change
the types of names and not the values. The program ends at the first well-typed line whose values cannot be computed or shown. -/
theorem C94_exact (T : Tools V) (hone : OneResult T.context.ops) (hr : TotalRules T.context.ops) (home : Str)
    (history ls : List Str) (hs : StraightLines T ls) :
    ∃ r, Conversation T (fun _ => .undefined) (fun _ => none) ls r ∧
      match r with
      | none => enterInterpreter T (some home) history ls = none
      | some (out, err) => ∃ k, enterInterpreter T (some home) history ls = some k ∧
          k.out = T.version ++ out ++ ['\n'] ∧ k.err = err ∧ k.history = history ++ ls := by
  obtain ⟨r, h1, h2⟩ := lines_conversation T hone hr ls ⟨.initial, T.version, [], history⟩ (fun _ => .undefined) (fun _ => none)
    ⟨by simp [Interpreter.initial], by simp [Interpreter.initial, ExecuteState.initial], rfl, rfl, fun n => rfl, fun n => rfl⟩ hs
  refine ⟨r, h1, ?_⟩
  cases r with
  | none => rw [enterInterpreter, h2]; rfl
  | some r =>
    obtain ⟨k, g1, g2, g3, g4⟩ := h2
    exact ⟨{ k with out := k.out ++ ['\n'] }, by rw [enterInterpreter, g1]; rfl, by simp [g2], by simpa using g3, g4⟩

theorem texts_unique {T : Tools V} {xs : List V} {a b : List Str} (h : List.Forall₂ (fun x s => T.text x = some s) xs a)
    (h' : List.Forall₂ (fun x s => T.text x = some s) xs b) : a = b := by
  induction h generalizing b with
  | nil => cases h'; rfl
  | cons h1 _ ih =>
    cases h' with
    | cons g1 g2 =>
      rw [h1] at g1
      rw [Option.some.inj g1, ih g2]

theorem unshown_texts {T : Tools V} {xs : List V} {a : List Str} (h : List.Forall₂ (fun x s => T.text x = some s) xs.reverse a)
    (h' : ∃ x ∈ xs, T.text x = none) : False := by
  obtain ⟨x, hx, hn⟩ := h'
  obtain ⟨y, -, hy⟩ := forall₂_left h (List.mem_reverse.2 hx)
  rw [hn] at hy
  cases hy

/-- The lines determine whether the program ends before the end of the input, and what it shows. -/
theorem C94_determined (T : Tools V) (types : Str → ExpressionType) (env : Str → Option V) (ls : List Str)
    (r r' : Option (Str × Str)) (h : Conversation T types env ls r) (h' : Conversation T types env ls r') :
    r.map (·.1) = r'.map (·.1) := by
  induction h generalizing r' with
  | nil => cases h'; rfl
  | unparsed types env l ls message r hp _ ih =>
    cases h' with
    | unparsed _ _ _ _ _ r' hp' g =>
      have := ih r' g
      cases r <;> cases r' <;> simp_all
    | unexpected _ _ _ _ _ _ hp' => rw [hp] at hp'; cases hp'
    | refused _ _ _ _ _ _ _ hp' => rw [hp] at hp'; cases hp'
    | done _ _ _ _ _ _ _ _ _ hp' => rw [hp] at hp'; cases hp'
    | fails _ _ _ _ _ hp' => rw [hp] at hp'; cases hp'
    | unshown _ _ _ _ _ _ _ hp' => rw [hp] at hp'; cases hp'
  | unexpected types env l ls message r hp _ ih =>
    cases h' with
    | unexpected _ _ _ _ _ r' hp' g =>
      have := ih r' g
      cases r <;> cases r' <;> simp_all
    | unparsed _ _ _ _ _ _ hp' => rw [hp] at hp'; cases hp'
    | refused _ _ _ _ _ _ _ hp' => rw [hp] at hp'; cases hp'
    | done _ _ _ _ _ _ _ _ _ hp' => rw [hp] at hp'; cases hp'
    | fails _ _ _ _ _ hp' => rw [hp] at hp'; cases hp'
    | unshown _ _ _ _ _ _ _ hp' => rw [hp] at hp'; cases hp'
  | refused types env l ls m p r hp hf _ ih =>
    cases h' with
    | refused _ _ _ _ m' p' r' hp' _ g =>
      rw [hp] at hp'; cases hp'
      have := ih r' g
      cases r <;> cases r' <;> simp_all
    | unparsed _ _ _ _ _ _ hp' => rw [hp] at hp'; cases hp'
    | unexpected _ _ _ _ _ _ hp' => rw [hp] at hp'; cases hp'
    | done _ _ _ _ _ _ _ _ _ hp' hf' => rw [hp] at hp'; cases hp'; exact absurd hf' hf
    | fails _ _ _ _ _ hp' hf' => rw [hp] at hp'; cases hp'; exact absurd hf' hf
    | unshown _ _ _ _ _ _ _ hp' hf' => rw [hp] at hp'; cases hp'; exact absurd hf' hf
  | done types env env' l ls m values texts r hp hf hv ht _ ih =>
    cases h' with
    | done _ _ _ _ _ m' _ _ r' hp' hf' hv' ht' g =>
      rw [hp] at hp'; cases hp'
      rw [hv] at hv'; cases hv'
      obtain rfl := texts_unique ht ht'
      have := ih r' g
      cases r <;> cases r' <;> simp_all
    | unparsed _ _ _ _ _ _ hp' => rw [hp] at hp'; cases hp'
    | unexpected _ _ _ _ _ _ hp' => rw [hp] at hp'; cases hp'
    | refused _ _ _ _ _ _ _ hp' hf' => rw [hp] at hp'; cases hp'; exact absurd hf hf'
    | fails _ _ _ _ _ hp' hf' hv' => rw [hp] at hp'; cases hp'; rw [hv] at hv'; cases hv'
    | unshown _ _ _ _ _ _ _ hp' hf' hv' ht' =>
      rw [hp] at hp'; cases hp'
      rw [hv] at hv'; cases hv'
      exact (unshown_texts ht ht').elim
  | fails types env l ls m hp hf hv =>
    cases h' with
    | unparsed _ _ _ _ _ _ hp' => rw [hp] at hp'; cases hp'
    | unexpected _ _ _ _ _ _ hp' => rw [hp] at hp'; cases hp'
    | refused _ _ _ _ _ _ _ hp' hf' => rw [hp] at hp'; cases hp'; exact absurd hf hf'
    | done _ _ _ _ _ _ _ _ _ hp' hf' hv' => rw [hp] at hp'; cases hp'; rw [hv] at hv'; cases hv'
    | fails => rfl
    | unshown => rfl
  | unshown types env env' l ls m values hp hf hv ht =>
    cases h' with
    | unparsed _ _ _ _ _ _ hp' => rw [hp] at hp'; cases hp'
    | unexpected _ _ _ _ _ _ hp' => rw [hp] at hp'; cases hp'
    | refused _ _ _ _ _ _ _ hp' hf' => rw [hp] at hp'; cases hp'; exact absurd hf hf'
    | done _ _ _ _ _ _ _ _ _ hp' hf' hv' ht' =>
      rw [hp] at hp'; cases hp'
      rw [hv] at hv'; cases hv'
      exact (unshown_texts ht' ht).elim
    | fails => rfl
    | unshown => rfl

/-- The hypotheses are met by a session in which a line that is refused assigns a name that is used after that. -/
example : OneResult exampleTools.context.ops ∧
    StraightLines exampleTools ["a = 5; x".toList, "add(a, 2)".toList] := by
  refine ⟨exampleInterpreter_wellTyped.oneResult, fun l hl m hm => ?_⟩
  simp only [List.mem_cons, List.not_mem_nil, or_false] at hl
  rcases hl with rfl | rfl
  · cases hm
    refine ⟨by simp [moduleOf, StraightLine, NoSubscript], by decide +kernel, fun t ht => ?_⟩
    simp only [moduleOf, List.mem_cons, List.not_mem_nil, or_false] at ht
    rcases ht with rfl | rfl <;> intro h <;> simp [AssignsAttribute, Expr.isAttribute] at h
  · cases hm
    refine ⟨by simp [moduleOf, StraightLine, NoSubscript, NoSubscripts], by decide +kernel, fun t ht => ?_⟩
    rw [List.mem_singleton.1 ht]
    exact fun h => h

end Fern.Shell
