import Verif.Spec.Execute
import Verif.Spec.Validate
import Verif.Lemmas.Scope

/-!
Lemmas about execution.
-/

namespace Fern

open Spec

variable {V : Type}

theorem SymbolTable.addValue_some {t : SymbolTable V} (h : t ≠ []) (n : Str) (x : V) :
    ∃ t', t.addValue n x = some t' ∧ t' ≠ [] ∧
      ∀ m, t'.value m = if m = n then some x else t.value m := by
  cases t with
  | nil => exact absurd rfl h
  | cons s t =>
    refine ⟨_, rfl, by simp, fun m => ?_⟩
    rw [SymbolTable.value_cons, SymbolTable.value_cons, Scope.setValue, Scope.value_assign]
    by_cases hm : m = n
    · subst hm; simp
    · rw [if_neg (fun h => hm h.symm), if_neg hm]

/-! ### Names that have a value -/

/-- The names that have a value after the tokens. -/
def knownAfter (known : List Str) : List Token → List Str
  | [] => known
  | .use n _ :: ts => knownAfter (n :: known) ts
  | .define n _ :: ts => knownAfter (n :: known) ts
  | .begin :: ts => knownAfter known ts
  | .finish :: ts => knownAfter known ts

theorem mem_knownAfter (known : List Str) (ts : List Token) (n : Str) :
    n ∈ knownAfter known ts ↔ n ∈ known ∨ ∃ v, Token.use n v ∈ ts ∨ Token.define n v ∈ ts := by
  induction ts generalizing known with
  | nil => simp [knownAfter]
  | cons t ts ih =>
    cases t <;> rw [knownAfter, ih] <;> simp only [List.mem_cons, reduceCtorEq, false_or,
      Token.use.injEq, Token.define.injEq]
    · constructor
      · rintro ((rfl | h) | ⟨v, h⟩)
        · exact .inr ⟨_, .inl (.inl ⟨rfl, rfl⟩)⟩
        · exact .inl h
        · exact .inr ⟨v, by tauto⟩
      · rintro (h | ⟨v, (⟨rfl, rfl⟩ | h) | h⟩)
        · exact .inl (.inr h)
        · exact .inl (.inl rfl)
        · exact .inr ⟨v, .inl h⟩
        · exact .inr ⟨v, .inr h⟩
    · constructor
      · rintro ((rfl | h) | ⟨v, h⟩)
        · exact .inr ⟨_, .inr (.inl ⟨rfl, rfl⟩)⟩
        · exact .inl h
        · exact .inr ⟨v, by tauto⟩
      · rintro (h | ⟨v, h | ⟨rfl, rfl⟩ | h⟩)
        · exact .inl (.inr h)
        · exact .inr ⟨v, .inl h⟩
        · exact .inl (.inl rfl)
        · exact .inr ⟨v, .inr h⟩

theorem needed_congr {known known' : List Str} (h : ∀ n, n ∈ known ↔ n ∈ known') (ts : List Token) :
    needed known ts = needed known' ts := by
  induction ts generalizing known known' with
  | nil => rfl
  | cons t ts ih =>
    have hc : ∀ m n, n ∈ m :: known ↔ n ∈ m :: known' := by
      intro m n; simp only [List.mem_cons, h n]
    cases t with
    | use n v =>
      rw [needed, needed]
      by_cases hn : n ∈ known
      · rw [if_pos hn, if_pos ((h n).1 hn), ih h]
      · rw [if_neg hn, if_neg (fun h' => hn ((h n).2 h')), ih (hc n)]
    | define n v => rw [needed, needed, ih (hc n)]
    | «begin» => rw [needed, needed, ih h]
    | finish => rw [needed, needed, ih h]

theorem needed_append (known : List Str) (a b : List Token) :
    needed known (a ++ b) = needed known a ++ needed (knownAfter known a) b := by
  induction a generalizing known with
  | nil => rfl
  | cons t a ih =>
    cases t with
    | use n v =>
      rw [List.cons_append, needed, needed, knownAfter]
      by_cases hn : n ∈ known
      · rw [if_pos hn, if_pos hn, ih]
        congr 1
        refine needed_congr (fun m => ?_) b
        rw [mem_knownAfter, mem_knownAfter, List.mem_cons]
        constructor
        · rintro (h | h)
          · exact .inl (.inr h)
          · exact .inr h
        · rintro ((rfl | h) | h)
          · exact .inl hn
          · exact .inl h
          · exact .inr h
      · rw [if_neg hn, if_neg hn, ih, List.cons_append]
    | define n v => rw [List.cons_append, needed, needed, knownAfter, ih]
    | «begin» => rw [List.cons_append, needed, needed, knownAfter, ih]
    | finish => rw [List.cons_append, needed, needed, knownAfter, ih]

theorem knownAfter_append (known : List Str) (a b : List Token) :
    knownAfter known (a ++ b) = knownAfter (knownAfter known a) b := by
  induction a generalizing known with
  | nil => rfl
  | cons t a ih => cases t <;> simp [knownAfter, ih]

theorem needed_spec (known : List Str) (ts : List Token) :
    (needed known ts).Nodup ∧ ∀ n ∈ needed known ts, n ∉ known ∧ ∃ v, Token.use n v ∈ ts := by
  induction ts generalizing known with
  | nil => simp [needed]
  | cons t ts ih =>
    cases t with
    | use n v =>
      rw [needed]
      by_cases hn : n ∈ known
      · rw [if_pos hn]
        refine ⟨(ih known).1, fun m hm => ⟨((ih known).2 m hm).1, ?_⟩⟩
        obtain ⟨w, hw⟩ := ((ih known).2 m hm).2
        exact ⟨w, List.mem_cons_of_mem _ hw⟩
      · rw [if_neg hn]
        obtain ⟨h1, h2⟩ := ih (n :: known)
        refine ⟨List.nodup_cons.2 ⟨fun h => (h2 n h).1 List.mem_cons_self, h1⟩, fun m hm => ?_⟩
        rcases List.mem_cons.1 hm with rfl | hm
        · exact ⟨hn, v, List.mem_cons_self⟩
        · obtain ⟨h3, w, hw⟩ := h2 m hm
          exact ⟨fun h => h3 (List.mem_cons_of_mem _ h), w, List.mem_cons_of_mem _ hw⟩
    | define n v =>
      rw [needed]
      obtain ⟨h1, h2⟩ := ih (n :: known)
      refine ⟨h1, fun m hm => ?_⟩
      obtain ⟨h3, w, hw⟩ := h2 m hm
      exact ⟨fun h => h3 (List.mem_cons_of_mem _ h), w, List.mem_cons_of_mem _ hw⟩
    | «begin» =>
      rw [needed]
      refine ⟨(ih known).1, fun m hm => ?_⟩
      obtain ⟨h3, w, hw⟩ := (ih known).2 m hm
      exact ⟨h3, w, List.mem_cons_of_mem _ hw⟩
    | finish =>
      rw [needed]
      refine ⟨(ih known).1, fun m hm => ?_⟩
      obtain ⟨h3, w, hw⟩ := (ih known).2 m hm
      exact ⟨h3, w, List.mem_cons_of_mem _ hw⟩

/-! ### Expressions -/

/-- The value a name has or would be read. -/
def ExecuteState.env (c : ExecuteContext V) (s : ExecuteState V) (n : Str) : Option V :=
  (s.table.value n).or (c.source n)

/-- What a visit of tokens does, apart from the stack, the values of names and the writes. -/
structure ExecuteLog (ts : List Token) (s s' : ExecuteState V) : Prop where
  table : s'.table ≠ []
  known : ∀ known : List Str, (∀ n, n ∈ known ↔ (s.table.value n).isSome) →
    s'.reads = s.reads ++ needed known ts ∧
      ∀ n, n ∈ knownAfter known ts ↔ (s'.table.value n).isSome

theorem ExecuteLog.nil {s s' : ExecuteState V} (ht : s.table ≠ []) (h1 : s'.table = s.table)
    (h2 : s'.reads = s.reads) : ExecuteLog [] s s' :=
  ⟨by rwa [h1], fun known hk => ⟨by rw [h2]; simp [needed], by rw [h1]; exact hk⟩⟩

theorem ExecuteLog.trans {a b : List Token} {s s' s'' : ExecuteState V} (h : ExecuteLog a s s')
    (h' : ExecuteLog b s' s'') : ExecuteLog (a ++ b) s s'' := by
  refine ⟨h'.table, fun known hk => ?_⟩
  obtain ⟨h1, h2⟩ := h.known known hk
  obtain ⟨h3, h4⟩ := h'.known _ h2
  rw [needed_append, knownAfter_append]
  exact ⟨by rw [h3, h1, List.append_assoc], h4⟩

theorem ExecuteLog.of_eq {a : List Token} {s s' s'' : ExecuteState V} (h : ExecuteLog a s s')
    (h1 : s''.table = s'.table) (h2 : s''.reads = s'.reads) : ExecuteLog a s s'' :=
  ⟨by rw [h1]; exact h.table, by rw [h1, h2]; exact h.known⟩

/-- What a visit of an expression does, apart from the stack. -/
structure ExecuteFrame (c : ExecuteContext V) (ts : List Token) (s s' : ExecuteState V) : Prop where
  log : ExecuteLog ts s s'
  env : s'.env c = s.env c
  writes : s'.writes = s.writes

theorem ExecuteFrame.nil {c : ExecuteContext V} {s s' : ExecuteState V} (ht : s.table ≠ [])
    (h1 : s'.table = s.table) (h2 : s'.reads = s.reads) (h3 : s'.writes = s.writes) :
    ExecuteFrame c [] s s' :=
  ⟨.nil ht h1 h2, by funext n; rw [ExecuteState.env, ExecuteState.env, h1], h3⟩

theorem ExecuteFrame.trans {c : ExecuteContext V} {a b : List Token} {s s' s'' : ExecuteState V}
    (h : ExecuteFrame c a s s') (h' : ExecuteFrame c b s' s'') : ExecuteFrame c (a ++ b) s s'' :=
  ⟨h.log.trans h'.log, by rw [h'.env, h.env], by rw [h'.writes, h.writes]⟩

theorem ExecuteFrame.of_eq {c : ExecuteContext V} {a : List Token} {s s' s'' : ExecuteState V}
    (h : ExecuteFrame c a s s') (h1 : s''.table = s'.table) (h2 : s''.reads = s'.reads)
    (h3 : s''.writes = s'.writes) : ExecuteFrame c a s s'' :=
  ⟨h.log.of_eq h1 h2, by rw [← h.env]; funext n; rw [ExecuteState.env, ExecuteState.env, h1],
    by rw [h3, h.writes]⟩

theorem ExecuteState.useName_eq (c : ExecuteContext V) (s : ExecuteState V) (v : Vid) (n : Str)
    (ht : s.table ≠ []) :
    (s.useName c n).map (·.stack) = (s.env c n).map (· :: s.stack) ∧
      ∀ s', s.useName c n = some s' → ExecuteFrame c [.use n v] s s' := by
  rw [ExecuteState.useName, ExecuteState.env]
  cases hv : s.table.value n with
  | some x =>
    refine ⟨rfl, fun s' h => ?_⟩
    cases h
    refine ⟨⟨ht, fun known hk => ?_⟩, rfl, rfl⟩
    have hn : n ∈ known := (hk n).2 (by rw [hv]; rfl)
    refine ⟨by simp [needed, hn], fun m => ?_⟩
    rw [knownAfter, knownAfter, List.mem_cons, ← hk m]
    constructor
    · rintro (rfl | h)
      · exact hn
      · exact h
    · exact .inr
  | none =>
    dsimp only
    cases hx : c.source n with
    | none => exact ⟨rfl, fun s' h => by cases h⟩
    | some x =>
      obtain ⟨t', h1, h2, h3⟩ := SymbolTable.addValue_some ht n x
      rw [Option.bind_some, h1]
      refine ⟨rfl, fun s' h => ?_⟩
      cases h
      refine ⟨⟨h2, fun known hk => ?_⟩, ?_, rfl⟩
      · have hn : n ∉ known := fun h => by rw [hk n, hv] at h; cases h
        refine ⟨by simp [needed, hn], fun m => ?_⟩
        rw [knownAfter, knownAfter, List.mem_cons, h3, hk m]
        by_cases hm : m = n
        · simp [hm]
        · simp [hm]
      · funext m
        simp only [ExecuteState.env]
        rw [h3]
        by_cases hm : m = n
        · subst hm; rw [if_pos rfl, hv, hx]; rfl
        · rw [if_neg hm]

theorem ExecuteState.finishOperation_eq (c : ExecuteContext V) (hone : OneResult c.ops)
    {s : ExecuteState V} {n : Str} {xs stack : List V} {k : Nat} (hk : xs.length = k)
    (hs : s.stack = xs.reverse ++ stack)
    (har : ∀ op, c.ops n = some op → k = op.parameters.length) :
    s.finishOperation c n k =
      (operationValue c.ops n xs).map fun x => { s with stack := x :: stack } := by
  rw [ExecuteState.finishOperation, operationValue]
  cases hop : c.ops n with
  | none => rfl
  | some op =>
    have h1 := har op hop
    have hlen : s.stack.length = k + stack.length := by
      rw [hs, List.length_append, List.length_reverse, hk]
    have htake : s.stack.take k = xs.reverse := by
      rw [hs, List.take_append_of_le_length (by rw [List.length_reverse]; omega),
        List.take_of_length_le (by rw [List.length_reverse]; omega)]
    have hdrop : s.stack.drop k = stack := by
      rw [hs, List.drop_append_of_le_length (by rw [List.length_reverse]; omega),
        List.drop_of_length_le (by rw [List.length_reverse]; omega), List.nil_append]
    rw [Option.bind_some, if_pos ⟨by rw [Operation.arity]; omega, by omega⟩, htake, hdrop,
      List.reverse_reverse]
    cases he : op.execute xs with
    | none => simp [he]
    | some rs =>
      obtain ⟨x, rfl⟩ := List.length_eq_one_iff.1 (hone n op hop xs rs he)
      simp [he]

theorem evalExprs_length {c : ExecuteContext V} {env : Str → Option V} {es : List Expr} {xs : List V}
    (h : evalExprs c env es = some xs) : xs.length = es.length := by
  induction es generalizing xs with
  | nil => rw [evalExprs] at h; cases h; rfl
  | cons e es ih =>
    rw [evalExprs] at h
    obtain ⟨x, hx, h2⟩ := Option.bind_eq_some_iff.1 h
    obtain ⟨xs', h3, h4⟩ := Option.map_eq_some_iff.1 h2
    rw [← h4, List.length_cons, List.length_cons, ih h3]

theorem Spec.ArityRight.mono {ops : Operations V} {l l' : List Expr} (h : ArityRight ops l)
    (hl : ∀ e ∈ l', e ∈ l) : ArityRight ops l' :=
  ⟨fun v n args he => h.call v n args (hl _ he), fun v n args he => h.operator v n args (hl _ he)⟩

/-- An operation, given what a visit of its arguments does. -/
theorem executeOperation_eq (c : ExecuteContext V) (hone : OneResult c.ops) (s : ExecuteState V)
    (n : Str) (args : List Expr) (har : ∀ op, c.ops n = some op → args.length = op.parameters.length)
    (h1 : (executeExprs c s args).map (·.stack) =
      (evalExprs c (s.env c) args).map (fun xs => xs.reverse ++ s.stack))
    (h2 : ∀ s', executeExprs c s args = some s' → ExecuteFrame c (exprsTokens args) s s') :
    ((executeExprs c s args).bind fun s => s.finishOperation c n args.length).map (·.stack) =
        ((evalExprs c (s.env c) args).bind (operationValue c.ops n)).map (· :: s.stack) ∧
      ∀ s', ((executeExprs c s args).bind fun s => s.finishOperation c n args.length) = some s' →
        ExecuteFrame c (exprsTokens args) s s' := by
  cases hev : evalExprs c (s.env c) args with
  | none =>
    rw [hev, Option.map_none, Option.map_eq_none_iff] at h1
    rw [h1]
    exact ⟨rfl, fun s' h => by cases h⟩
  | some xs =>
    rw [hev, Option.map_some] at h1
    obtain ⟨s1, hs1, hst⟩ := Option.map_eq_some_iff.1 h1
    rw [hs1, Option.bind_some, Option.bind_some,
      ExecuteState.finishOperation_eq c hone (evalExprs_length hev) hst har, Option.map_map]
    refine ⟨rfl, fun s' h => ?_⟩
    obtain ⟨x, _, rfl⟩ := Option.map_eq_some_iff.1 h
    exact (h2 s1 hs1).of_eq rfl rfl rfl

mutual

theorem executeExpr_eq (c : ExecuteContext V) (hone : OneResult c.ops) (s : ExecuteState V) (e : Expr)
    (hs : NoSubscript e) (har : ArityRight c.ops (subterms e)) (ht : s.table ≠ []) :
    (executeExpr c s e).map (·.stack) = (evalExpr c (s.env c) e).map (· :: s.stack) ∧
      ∀ s', executeExpr c s e = some s' → ExecuteFrame c (exprTokens e) s s' := by
  cases e with
  | name v n =>
    rw [executeExpr, evalExpr, exprTokens]
    exact ExecuteState.useName_eq c s v n ht
  | number v n =>
    rw [executeExpr, evalExpr, exprTokens]
    exact ⟨rfl, fun s' h => by cases h; exact .nil ht rfl rfl rfl⟩
  | string v n =>
    rw [executeExpr, evalExpr, exprTokens]
    exact ⟨rfl, fun s' h => by cases h; exact .nil ht rfl rfl rfl⟩
  | call v n args =>
    rw [NoSubscript] at hs
    rw [subterms] at har
    obtain ⟨h1, h2⟩ := executeExprs_eq c hone s args hs
      (har.mono fun e he => List.mem_append_left _ he) ht
    rw [executeExpr, evalExpr, exprTokens]
    exact executeOperation_eq c hone s n args (har.call v n args (by simp)) h1 h2
  | operator v n args =>
    rw [NoSubscript] at hs
    rw [subterms] at har
    obtain ⟨h1, h2⟩ := executeExprs_eq c hone s args hs
      (har.mono fun e he => List.mem_append_left _ he) ht
    rw [executeExpr, evalExpr, exprTokens]
    exact executeOperation_eq c hone s n args (har.operator v n args (by simp)) h1 h2
  | subscript v e i => rw [NoSubscript] at hs; exact hs.elim
  | «attribute» v e m =>
    rw [NoSubscript] at hs
    rw [subterms] at har
    rw [executeExpr, evalExpr, exprTokens]
    exact executeExpr_eq c hone s e hs (har.mono fun e he => List.mem_append_left _ he) ht

theorem executeExprs_eq (c : ExecuteContext V) (hone : OneResult c.ops) (s : ExecuteState V)
    (es : List Expr) (hs : NoSubscripts es) (har : ArityRight c.ops (subtermsList es))
    (ht : s.table ≠ []) :
    (executeExprs c s es).map (·.stack) =
        (evalExprs c (s.env c) es).map (fun xs => xs.reverse ++ s.stack) ∧
      ∀ s', executeExprs c s es = some s' → ExecuteFrame c (exprsTokens es) s s' := by
  cases es with
  | nil =>
    rw [executeExprs, evalExprs, exprsTokens]
    exact ⟨rfl, fun s' h => by cases h; exact .nil ht rfl rfl rfl⟩
  | cons e es =>
    rw [NoSubscripts] at hs
    rw [subtermsList] at har
    obtain ⟨h1, h2⟩ := executeExpr_eq c hone s e hs.1
      (har.mono fun e he => List.mem_append_left _ he) ht
    rw [executeExprs, evalExprs, exprsTokens]
    cases hev : evalExpr c (s.env c) e with
    | none =>
      rw [hev, Option.map_none, Option.map_eq_none_iff] at h1
      rw [h1]
      exact ⟨rfl, fun s' h => by cases h⟩
    | some x =>
      rw [hev, Option.map_some] at h1
      obtain ⟨s1, hs1, hst⟩ := Option.map_eq_some_iff.1 h1
      have hfr := h2 s1 hs1
      obtain ⟨h3, h4⟩ := executeExprs_eq c hone s1 es hs.2
        (har.mono fun e he => List.mem_append_right _ he) hfr.log.table
      rw [hfr.env] at h3
      rw [hs1, Option.bind_some, Option.bind_some, h3, hst, Option.map_map]
      refine ⟨by congr 1; funext ts; simp, fun s' h => hfr.trans (h4 s' h)⟩

end

/-! ### Statements -/

theorem ExecuteState.finishAssign_eq (c : ExecuteContext V) {s : ExecuteState V} {x : V}
    {stack : List V} (hs : s.stack = x :: stack) (ht : s.table ≠ []) (target : Vid) (n : Str) :
    ∃ s', s.finishAssign c target n = some s' ∧ s'.stack = stack ∧ s'.reads = s.reads ∧
      s'.writes = s.writes ++ (if target ∈ c.outputs ∧ c.sync n = true then [(n, x)] else []) ∧
      s'.table ≠ [] ∧ (∀ m, s'.table.value m = if m = n then some x else s.table.value m) := by
  obtain ⟨t', h1, h2, h3⟩ := SymbolTable.addValue_some ht n x
  rw [ExecuteState.finishAssign, hs]
  dsimp only
  rw [h1, Option.map_some]
  refine ⟨_, rfl, rfl, rfl, ?_, h2, h3⟩
  dsimp only
  by_cases h : target ∈ c.outputs ∧ c.sync n = true
  · rw [if_pos h, if_pos (by simp [h.1, h.2])]
  · rw [if_neg h, if_neg (by simpa using h)]
    simp

/-- What execution of straight-line statements does. -/
structure ExecutesTo (c : ExecuteContext V) (l : List Stmt) (env : Str → Option V) (out : List V)
    (s s' : ExecuteState V) : Prop where
  log : ExecuteLog (stmtsTokens l) s s'
  env : s'.env c = env
  stack : s'.stack = out.reverse ++ s.stack
  writes : s'.writes = s.writes ++ evalWrites c (s.env c) l

theorem executeStmts_eq (c : ExecuteContext V) (hone : OneResult c.ops) (s : ExecuteState V)
    (l : List Stmt) (hl : StraightLine l) (har : ArityRight c.ops (stmtsTerms l)) (ht : s.table ≠ []) :
    match evalStmts c (s.env c) l with
    | none => executeStmts c s l = none
    | some (env, out) => ∃ s', executeStmts c s l = some s' ∧ ExecutesTo c l env out s s' := by
  induction l generalizing s with
  | nil =>
    rw [evalStmts, executeStmts]
    exact ⟨s, rfl, by rw [stmtsTokens]; exact .nil ht rfl rfl, rfl, rfl, by simp [evalWrites]⟩
  | cons t l ih =>
    rw [stmtsTerms] at har
    have har2 := har.mono fun e he => List.mem_append_right (stmtTerms t) he
    cases t with
    | expr e =>
      rw [StraightLine] at hl
      rw [stmtTerms] at har
      obtain ⟨h1, h2⟩ := executeExpr_eq c hone s e hl.1
        (har.mono fun e he => List.mem_append_left _ he) ht
      rw [evalStmts, executeStmts, executeStmt]
      cases hev : evalExpr c (s.env c) e with
      | none =>
        rw [hev, Option.map_none, Option.map_eq_none_iff] at h1
        rw [h1]; rfl
      | some x =>
        rw [hev, Option.map_some] at h1
        obtain ⟨s1, hs1, hst⟩ := Option.map_eq_some_iff.1 h1
        have hfr := h2 s1 hs1
        have := ih s1 hl.2 har2 hfr.log.table
        rw [hfr.env] at this
        rw [hs1, Option.bind_some, Option.bind_some]
        cases hr : evalStmts c (s.env c) l with
        | none => rw [hr] at this; exact this
        | some r =>
          obtain ⟨env, out⟩ := r
          rw [hr] at this
          obtain ⟨s', h3, h4⟩ := this
          refine ⟨s', h3, ?_, h4.env, ?_, ?_⟩
          · rw [stmtsTokens, stmtTokens]; exact hfr.log.trans h4.log
          · rw [h4.stack, hst]; simp
          · rw [h4.writes, hfr.writes, hfr.env, evalWrites]
    | assign v target n e =>
      rw [StraightLine] at hl
      rw [stmtTerms] at har
      obtain ⟨h1, h2⟩ := executeExpr_eq c hone s e hl.1
        (har.mono fun e he => List.mem_append_left _ (List.mem_append_left _ he)) ht
      rw [evalStmts, executeStmts, executeStmt]
      cases hev : evalExpr c (s.env c) e with
      | none =>
        rw [hev, Option.map_none, Option.map_eq_none_iff] at h1
        rw [h1]; rfl
      | some x =>
        rw [hev, Option.map_some] at h1
        obtain ⟨s1, hs1, hst⟩ := Option.map_eq_some_iff.1 h1
        have hfr := h2 s1 hs1
        obtain ⟨s2, g1, g2, g3, g4, g5, g6⟩ :=
          ExecuteState.finishAssign_eq c hst hfr.log.table target n
        have henv : s2.env c = bindName (s.env c) n x := by
          rw [← hfr.env]
          funext m
          rw [ExecuteState.env, g6, bindName, ExecuteState.env]
          by_cases hm : m = n
          · rw [if_pos hm, if_pos hm]; rfl
          · rw [if_neg hm, if_neg hm]
        have hlog : ExecuteLog [.define n target] s1 s2 := by
          refine ⟨g5, fun known hk => ⟨by rw [g3]; simp [needed], fun m => ?_⟩⟩
          rw [knownAfter, knownAfter, List.mem_cons, g6, hk m]
          by_cases hm : m = n <;> simp [hm]
        have := ih s2 hl.2 har2 g5
        rw [henv] at this
        rw [hs1, Option.bind_some, Option.bind_some, g1, Option.bind_some]
        cases hr : evalStmts c (bindName (s.env c) n x) l with
        | none => rw [hr] at this; exact this
        | some r =>
          obtain ⟨env, out⟩ := r
          rw [hr] at this
          obtain ⟨s', h3, h4⟩ := this
          refine ⟨s', h3, ?_, h4.env, ?_, ?_⟩
          · rw [stmtsTokens, stmtTokens]; exact (hfr.log.trans hlog).trans h4.log
          · rw [h4.stack, g2]
          · rw [h4.writes, g4, hfr.writes, henv, evalWrites, hev, List.append_assoc]
    | ifElse v sv c tv ts t fv fs f => exact hl.elim
    | «while» v sv c tv ts t fv fs f => exact hl.elim
    | function v n args bv bs body => exact hl.elim
    | ret v e => exact hl.elim

end Fern
