import Verif.Lemmas.Interpreter

/-!
Lemmas about the symbol tables of the interpreter.
-/

namespace Fern

open Spec

variable {V : Type}

/-- The names and values after adding symbols. -/
theorem addValues_value {W : Type} (l : Scope W) (hl : (l.map (·.1)).Nodup) (t t' : SymbolTable W)
    (h : l.foldlM (fun (t : SymbolTable W) (e : Str × W) => t.addValue e.1 e.2) t = some t') (n : Str) :
    t'.value n = (l.value n).or (t.value n) := by
  induction l generalizing t with
  | nil => cases h; rfl
  | cons e l ih =>
    obtain ⟨m, x⟩ := e
    rw [List.foldlM_cons] at h
    obtain ⟨t1, h1, h2⟩ := Option.bind_eq_some_iff.1 h
    have hne : t ≠ [] := by
      intro h0; rw [h0] at h1; cases h1
    obtain ⟨t2, g1, _, g3⟩ := SymbolTable.addValue_some hne m x
    rw [h1] at g1
    cases g1
    rw [List.map_cons, List.nodup_cons] at hl
    rw [ih hl.2 t1 h2, g3, Scope.value_cons]
    by_cases hm : n = m
    · subst hm
      have h0 : Scope.value l n = none := by
        by_contra hc
        exact hl.1 ((Scope.mem_names l n).2 hc)
      rw [h0, if_pos rfl, if_pos rfl]; rfl
    · rw [if_neg hm, if_neg (fun h => hm h.symm)]

theorem addValues_isSome {W : Type} (l : Scope W) (t : SymbolTable W) (ht : t ≠ []) :
    ∃ t', l.foldlM (fun (t : SymbolTable W) (e : Str × W) => t.addValue e.1 e.2) t = some t' ∧ t' ≠ [] := by
  induction l generalizing t with
  | nil => exact ⟨t, rfl, ht⟩
  | cons e l ih =>
    obtain ⟨t1, h1, h2, _⟩ := SymbolTable.addValue_some ht e.1 e.2
    obtain ⟨t', h3, h4⟩ := ih t1 h2
    exact ⟨t', by rw [List.foldlM_cons, h1]; exact h3, h4⟩

theorem value_map {W W' : Type} (l : Scope W) (f : W → W') (n : Str) :
    Scope.value (l.map fun e => (e.1, f e.2)) n = (l.value n).map f := by
  induction l with
  | nil => rfl
  | cons e l ih =>
    obtain ⟨m, x⟩ := e
    rw [List.map_cons, Scope.value_cons, Scope.value_cons, ih]
    split <;> rfl

theorem value_mem {W : Type} {l : Scope W} {n : Str} {x : W} (h : l.value n = some x) : (n, x) ∈ l := by
  rw [Scope.value] at h
  obtain ⟨e, h1, h2⟩ := Option.map_eq_some_iff.1 h
  have h3 := List.find?_some h1
  have h4 := List.mem_of_find?_eq_some h1
  obtain ⟨m, y⟩ := e
  simp only [beq_iff_eq] at h3
  subst h3 h2
  exact h4

/-- Erasing the symbols for which there is a data source, in a table of one scope. -/
theorem eraseSources_value (l : Scope (DataSource V)) (s : Scope V) :
    ∃ s', eraseSources [s] l = some [s'] ∧
      ∀ n, Scope.value s' n = if (l.value n).isSome then none else s.value n := by
  induction l generalizing s with
  | nil => exact ⟨s, rfl, fun n => rfl⟩
  | cons e l ih =>
    obtain ⟨m, x⟩ := e
    have key : ∃ s1, (if SymbolTable.hasValue [s] m then SymbolTable.eraseValue [s] m
        else some [s]) = some [s1] ∧ ∀ n, Scope.value s1 n = if m = n then none else s.value n := by
      by_cases hv : SymbolTable.hasValue [s] m = true
      · have hs : s.hasValue m = true := by simpa [SymbolTable.hasValue] using hv
        refine ⟨s.filter fun e => !(e.1 == m), ?_, fun n => Scope.value_filter s m n⟩
        rw [if_pos hv, SymbolTable.eraseValue, Scope.eraseValue, if_pos hs]
        rfl
      · refine ⟨s, if_neg hv, fun n => ?_⟩
        by_cases hn : m = n
        · subst hn
          rw [if_pos rfl]
          have hs : ¬ s.hasValue m = true := by simpa [SymbolTable.hasValue] using hv
          rw [Scope.hasValue_iff, not_not] at hs
          exact hs
        · rw [if_neg hn]
    obtain ⟨s1, h1, h2⟩ := key
    obtain ⟨s', h3, h4⟩ := ih s1
    refine ⟨s', ?_, fun n => ?_⟩
    · rw [eraseSources, List.foldlM_cons]
      change (if SymbolTable.hasValue [s] m then SymbolTable.eraseValue [s] m
        else some [s]).bind _ = _
      rw [h1, Option.bind_some]
      exact h3
    · rw [h4, h2, Scope.value_cons]
      by_cases hn : m = n
      · rw [if_pos hn, if_pos hn]; simp
      · rw [if_neg hn, if_neg hn]

theorem addValue_length {W : Type} {t t' : SymbolTable W} {n : Str} {x : W}
    (h : t.addValue n x = some t') : t'.length = t.length := by
  cases t with
  | nil => cases h
  | cons s t => cases h; rfl

theorem useName_length {c : ExecuteContext V} {s s' : ExecuteState V} {n : Str}
    (h : s.useName c n = some s') : s'.table.length = s.table.length := by
  rw [ExecuteState.useName] at h
  cases hv : s.table.value n with
  | some x => rw [hv] at h; cases h; rfl
  | none =>
    rw [hv] at h
    obtain ⟨x, _, h2⟩ := Option.bind_eq_some_iff.1 h
    obtain ⟨t, h3, h4⟩ := Option.map_eq_some_iff.1 h2
    subst h4
    exact addValue_length h3

theorem executeOperation_length {c : ExecuteContext V} {s s' : ExecuteState V} {n : Str} {k : Nat}
    (h : s.finishOperation c n k = some s') : s'.table.length = s.table.length := by
  rw [ExecuteState.finishOperation] at h
  obtain ⟨op, _, h2⟩ := Option.bind_eq_some_iff.1 h
  split at h2
  · obtain ⟨r, _, rfl⟩ := Option.map_eq_some_iff.1 h2; rfl
  · cases h2

mutual

/-- Execution neither adds nor removes scopes. -/
theorem executeExpr_length {c : ExecuteContext V} {s s' : ExecuteState V} {e : Expr}
    (h : executeExpr c s e = some s') : s'.table.length = s.table.length := by
  cases e with
  | name v n => rw [executeExpr] at h; exact useName_length h
  | number v n => rw [executeExpr] at h; cases h; rfl
  | string v n => rw [executeExpr] at h; cases h; rfl
  | call v n args =>
    rw [executeExpr] at h
    obtain ⟨s1, h1, h2⟩ := Option.bind_eq_some_iff.1 h
    rw [executeOperation_length h2, executeExprs_length h1]
  | operator v n args =>
    rw [executeExpr] at h
    obtain ⟨s1, h1, h2⟩ := Option.bind_eq_some_iff.1 h
    rw [executeOperation_length h2, executeExprs_length h1]
  | subscript v e i => rw [executeExpr] at h; cases h; rfl
  | «attribute» v e m => rw [executeExpr] at h; exact executeExpr_length h

theorem executeExprs_length {c : ExecuteContext V} {s s' : ExecuteState V} {es : List Expr}
    (h : executeExprs c s es = some s') : s'.table.length = s.table.length := by
  cases es with
  | nil => rw [executeExprs] at h; cases h; rfl
  | cons e es =>
    rw [executeExprs] at h
    obtain ⟨s1, h1, h2⟩ := Option.bind_eq_some_iff.1 h
    rw [executeExprs_length h2, executeExpr_length h1]

end

mutual

theorem executeStmt_length {c : ExecuteContext V} {s s' : ExecuteState V} {t : Stmt}
    (h : executeStmt c s t = some s') : s'.table.length = s.table.length := by
  cases t with
  | expr e => rw [executeStmt] at h; exact executeExpr_length h
  | assign v target n e =>
    rw [executeStmt] at h
    obtain ⟨s1, h1, h2⟩ := Option.bind_eq_some_iff.1 h
    rw [← executeExpr_length h1]
    rw [ExecuteState.finishAssign] at h2
    cases hst : s1.stack with
    | nil => rw [hst] at h2; cases h2
    | cons x stack =>
      rw [hst] at h2
      obtain ⟨t, h3, rfl⟩ := Option.map_eq_some_iff.1 h2
      exact addValue_length h3
  | ifElse => rw [executeStmt] at h; cases h; rfl
  | «while» => rw [executeStmt] at h; cases h; rfl
  | function v n args bv bs body =>
    rw [executeStmt] at h
    obtain ⟨s1, h1, h2⟩ := Option.bind_eq_some_iff.1 h
    rw [executeStmts_length h2, executeExprs_length h1]
  | ret v e =>
    cases e with
    | none => rw [executeStmt] at h; cases h; rfl
    | some e => rw [executeStmt] at h; exact executeExpr_length h

theorem executeStmts_length {c : ExecuteContext V} {s s' : ExecuteState V} {l : List Stmt}
    (h : executeStmts c s l = some s') : s'.table.length = s.table.length := by
  cases l with
  | nil => rw [executeStmts] at h; cases h; rfl
  | cons t l =>
    rw [executeStmts] at h
    obtain ⟨s1, h1, h2⟩ := Option.bind_eq_some_iff.1 h
    rw [executeStmts_length h2, executeStmt_length h1]

end

/-- The names that have a value. -/
theorem exists_known (t : SymbolTable V) : ∃ known : List Str, ∀ n, n ∈ known ↔ (t.value n).isSome := by
  refine ⟨t.flatMap Scope.names, fun n => ?_⟩
  induction t with
  | nil => simp [SymbolTable.value_nil]
  | cons s t ih =>
    rw [List.flatMap_cons, List.mem_append, ih, Scope.mem_names, SymbolTable.value_cons]
    cases Scope.value s n <;> simp

end Fern
