import Verif.Spec.InOut
import Verif.Model.InOut
import Verif.Lemmas.Scope

/-!
Lemmas about inputs and outputs.
-/

namespace Fern

open Spec

/-- What the visitor does at a token. -/
def ioStep (s : IOState) : Token → Option IOState
  | .use n _ => some (s.useName n)
  | .define n v => s.defineName v n
  | .begin => some s
  | .finish => some s

/-- Tokens from the first to the last. -/
def ioRun (s : IOState) (ts : List Token) : Option IOState := ts.foldlM ioStep s

theorem ioRun_append (s : IOState) (a b : List Token) :
    ioRun s (a ++ b) = (ioRun s a).bind fun s => ioRun s b := by
  simp only [ioRun, List.foldlM_append]
  rfl

theorem ioRun_cons (s : IOState) (t : Token) (b : List Token) :
    ioRun s (t :: b) = (ioStep s t).bind fun s => ioRun s b := rfl

theorem ioRun_nil (s : IOState) : ioRun s [] = some s := rfl

mutual

theorem ioExpr_eq (s : IOState) (e : Expr) : some (ioExpr s e) = ioRun s (exprTokens e) := by
  cases e with
  | name v n => rw [ioExpr, exprTokens]; rfl
  | number v n => rw [ioExpr, exprTokens, ioRun_nil]
  | string v n => rw [ioExpr, exprTokens, ioRun_nil]
  | call v n args => rw [ioExpr, exprTokens, ioExprs_eq]
  | operator v n args => rw [ioExpr, exprTokens, ioExprs_eq]
  | subscript v e i =>
    rw [ioExpr, exprTokens, ioRun_append, ← ioExpr_eq s e, Option.bind_some, ioExpr_eq]
  | «attribute» v e m => rw [ioExpr, exprTokens, ioExpr_eq]

theorem ioExprs_eq (s : IOState) (es : List Expr) : some (ioExprs s es) = ioRun s (exprsTokens es) := by
  cases es with
  | nil => rw [ioExprs, exprsTokens, ioRun_nil]
  | cons e es =>
    rw [ioExprs, exprsTokens, ioRun_append, ← ioExpr_eq s e, Option.bind_some, ioExprs_eq]

end

mutual

theorem ioStmt_eq (s : IOState) (t : Stmt) : ioStmt s t = ioRun s (stmtTokens t) := by
  cases t with
  | expr e => rw [ioStmt, stmtTokens, ioExpr_eq]
  | assign v target n e =>
    rw [ioStmt, stmtTokens, ioRun_append, ← ioExpr_eq, Option.bind_some, ioRun_cons]
    exact (Option.bind_fun_some _).symm
  | ifElse v sv c tv ts t fv fs f =>
    rw [ioStmt, stmtTokens]
    simp only [ioRun_append, ← ioExpr_eq, ioStmts_eq _ t, ioStmts_eq _ f, ioRun_cons, ioRun_nil,
      ioStep, Option.bind_some, Option.bind_fun_some]
  | «while» v sv c tv ts t fv fs f =>
    rw [ioStmt, stmtTokens]
    simp only [ioRun_append, ← ioExpr_eq, ioStmts_eq _ t, ioStmts_eq _ f, ioRun_cons, ioRun_nil,
      ioStep, Option.bind_some, Option.bind_fun_some]
  | function v n args bv bs body =>
    rw [ioStmt, stmtTokens, ioRun_append, ← ioExprs_eq, Option.bind_some, ioStmts_eq]
  | ret v e => cases e with
    | none => rw [ioStmt, stmtTokens, ioRun_nil]
    | some e => rw [ioStmt, stmtTokens, ioExpr_eq]

theorem ioStmts_eq (s : IOState) (l : List Stmt) : ioStmts s l = ioRun s (stmtsTokens l) := by
  cases l with
  | nil => rw [ioStmts, stmtsTokens, ioRun_nil]
  | cons t l =>
    rw [ioStmts, stmtsTokens, ioRun_append, ioStmt_eq s t]
    congr 1
    funext s
    exact ioStmts_eq s l

end

/-! ### First occurrences -/

theorem mem_firsts (l : List Str) (n : Str) : n ∈ firsts l ↔ n ∈ l := by
  induction l with
  | nil => simp [firsts]
  | cons m l ih =>
    simp only [firsts, List.mem_cons, List.mem_filter, ih, decide_eq_true_eq]
    by_cases h : n = m <;> simp [h]

theorem nodup_firsts (l : List Str) : (firsts l).Nodup := by
  induction l with
  | nil => simp [firsts]
  | cons m l ih =>
    rw [firsts, List.nodup_cons]
    exact ⟨by simp, ih.filter _⟩

theorem firsts_snoc (l : List Str) (n : Str) :
    firsts (l ++ [n]) = if n ∈ l then firsts l else firsts l ++ [n] := by
  induction l with
  | nil => rfl
  | cons m l ih =>
    rw [List.cons_append, firsts, ih]
    by_cases hm : n = m
    · subst hm
      by_cases hn : n ∈ l
      · simp [hn, firsts]
      · simp [hn, firsts]
    · by_cases hn : n ∈ l
      · simp [hn, firsts]
      · simp [hn, hm, firsts]

theorem usedNames_append (a b : List Token) : usedNames (a ++ b) = usedNames a ++ usedNames b :=
  List.filterMap_append

theorem definitions_append (a b : List Token) :
    Spec.definitions (a ++ b) = Spec.definitions a ++ Spec.definitions b := List.filterMap_append

/-! ### Last definitions -/

theorem lastDefinitions_snoc (l : List NameRef) (d : NameRef) :
    lastDefinitions (l ++ [d]) = (lastDefinitions l).filter (fun x => decide (x.n ≠ d.n)) ++ [d] := by
  induction l with
  | nil => simp [lastDefinitions]
  | cons x l ih =>
    rw [List.cons_append, lastDefinitions, lastDefinitions, ih]
    by_cases hx : ∃ d' ∈ l, d'.n = x.n
    · have : ∃ d' ∈ l ++ [d], d'.n = x.n := by
        obtain ⟨d', h1, h2⟩ := hx
        exact ⟨d', by simp [h1], h2⟩
      rw [if_pos hx, if_pos this]
    · rw [if_neg hx]
      by_cases hd : x.n = d.n
      · rw [if_pos ⟨d, by simp, hd.symm⟩]
        simp [hd]
      · rw [if_neg]
        · simp [hd]
        · rintro ⟨d', h1, h2⟩
          rw [List.mem_append, List.mem_singleton] at h1
          rcases h1 with h1 | rfl
          · exact hx ⟨d', h1, h2⟩
          · exact hd h2.symm

theorem names_lastDefinitions (l : List NameRef) : ((lastDefinitions l).map (·.n)).Nodup := by
  induction l with
  | nil => simp [lastDefinitions]
  | cons x l ih =>
    rw [lastDefinitions]
    by_cases hx : ∃ d' ∈ l, d'.n = x.n
    · rw [if_pos hx]; exact ih
    · rw [if_neg hx, List.map_cons, List.nodup_cons]
      refine ⟨fun h => ?_, ih⟩
      rw [List.mem_map] at h
      obtain ⟨d', h1, h2⟩ := h
      have sub : ∀ l : List NameRef, ∀ d ∈ lastDefinitions l, d ∈ l := by
        intro l
        induction l with
        | nil => simp [lastDefinitions]
        | cons y l ih' =>
          intro d hd
          rw [lastDefinitions] at hd
          split at hd
          · exact List.mem_cons_of_mem _ (ih' d hd)
          · rcases List.mem_cons.1 hd with rfl | hd
            · exact List.mem_cons_self
            · exact List.mem_cons_of_mem _ (ih' d hd)
      exact hx ⟨d', sub l d' h1, h2⟩

theorem mem_names_lastDefinitions (l : List NameRef) (n : Str) :
    n ∈ (lastDefinitions l).map (·.n) ↔ n ∈ l.map (·.n) := by
  induction l with
  | nil => simp [lastDefinitions]
  | cons x l ih =>
    rw [lastDefinitions]
    by_cases hx : ∃ d' ∈ l, d'.n = x.n
    · rw [if_pos hx, ih, List.map_cons, List.mem_cons]
      constructor
      · exact .inr
      · rintro (rfl | h)
        · obtain ⟨d', h1, h2⟩ := hx
          rw [← h2]
          exact List.mem_map_of_mem h1
        · exact h
    · rw [if_neg hx, List.map_cons, List.mem_cons, ih, List.map_cons, List.mem_cons]

/-! ### Invariants -/

theorem Scope.length_assign {V : Type} (s : Scope V) (n : Str) (v : V) :
    (s.assign n v).length = if n ∈ Scope.names s then s.length else s.length + 1 := by
  have h : (s.assign n v).length = (Scope.names (s.assign n v)).length := by
    rw [Scope.names, List.length_map]
  rw [h, Scope.names_assign]
  split
  · rw [Scope.names, List.length_map]
  · rw [List.length_append, Scope.names, List.length_map]; rfl

/-- What holds for every module. -/
structure IOInv (ts : List Token) (s : IOState) : Prop where
  inputs : s.inputs = firsts (usedNames ts)
  ids : ∀ n, s.outputIds.value n ≠ none ↔ n ∈ (Spec.definitions ts).map (·.n)
  bound : ∀ n i, s.outputIds.value n = some i → i < s.outputs.length
  length : s.outputs.length = s.outputIds.length
  nodup : (Scope.names s.outputIds).Nodup
  outputs : ∀ d ∈ s.outputs, d ∈ Spec.definitions ts

theorem ioInv_step {ts : List Token} {s : IOState} {t : Token} (hi : IOInv ts s) :
    ∃ s', ioStep s t = some s' ∧ IOInv (ts ++ [t]) s' := by
  cases t with
  | «begin» =>
    refine ⟨s, rfl, ?_⟩
    constructor
    · rw [usedNames_append]; simpa [usedNames] using hi.inputs
    · intro n; rw [definitions_append]; simpa [Spec.definitions] using hi.ids n
    · exact hi.bound
    · exact hi.length
    · exact hi.nodup
    · intro d hd; rw [definitions_append]; simp [hi.outputs d hd]
  | finish =>
    refine ⟨s, rfl, ?_⟩
    constructor
    · rw [usedNames_append]; simpa [usedNames] using hi.inputs
    · intro n; rw [definitions_append]; simpa [Spec.definitions] using hi.ids n
    · exact hi.bound
    · exact hi.length
    · exact hi.nodup
    · intro d hd; rw [definitions_append]; simp [hi.outputs d hd]
  | use n v =>
    refine ⟨s.useName n, rfl, ?_⟩
    have h1 : (s.useName n).outputs = s.outputs ∧ (s.useName n).outputIds = s.outputIds := by
      rw [IOState.useName]; split <;> simp
    constructor
    · have h2 : usedNames [Token.use n v] = [n] := rfl
      rw [usedNames_append, h2, firsts_snoc, ← hi.inputs, IOState.useName]
      have h3 : n ∈ usedNames ts ↔ s.inputs.contains n = true := by
        rw [hi.inputs, List.contains_iff_mem, mem_firsts]
      by_cases h : n ∈ usedNames ts
      · rw [if_pos h, if_pos (h3.1 h)]
      · rw [if_neg h, if_neg (fun h' => h (h3.2 h'))]
    · intro m; rw [h1.2, definitions_append]; simpa [Spec.definitions] using hi.ids m
    · rw [h1.1, h1.2]; exact hi.bound
    · rw [h1.1, h1.2]; exact hi.length
    · rw [h1.2]; exact hi.nodup
    · intro d hd; rw [h1.1] at hd; rw [definitions_append]; simp [hi.outputs d hd]
  | define n v =>
    have hone : Spec.definitions [Token.define n v] = [⟨v, n⟩] := rfl
    -- the erased vector
    obtain ⟨os, ho, hlen, hsub, hids⟩ : ∃ os : List NameRef,
        s.erasePrevious n = some os ∧
        os.length + 1 = (s.outputIds.setValue n os.length).length ∧ (∀ d ∈ os, d ∈ s.outputs) ∧
        (∀ m i, s.outputIds.value m = some i → m ≠ n → i < os.length + 1) := by
      cases hv : s.outputIds.value n with
      | none =>
        have hn : n ∉ Scope.names s.outputIds := by
          rw [Scope.mem_names]; simp [hv]
        refine ⟨s.outputs, by rw [IOState.erasePrevious, hv], ?_, fun d hd => hd, fun m i h _ => ?_⟩
        · rw [Scope.setValue, Scope.length_assign, if_neg hn, hi.length]
        · have := hi.bound m i h; omega
      | some i =>
        have hb := hi.bound n i hv
        have hn : n ∈ Scope.names s.outputIds := by
          rw [Scope.mem_names]; simp [hv]
        refine ⟨s.outputs.eraseIdx i, by rw [IOState.erasePrevious, hv]; exact if_pos hb, ?_, fun d hd => List.mem_of_mem_eraseIdx hd,
          fun m j h _ => ?_⟩
        · rw [Scope.setValue, Scope.length_assign, if_pos hn, List.length_eraseIdx, if_pos hb,
            ← hi.length]
          omega
        · have := hi.bound m j h
          rw [List.length_eraseIdx, if_pos hb]
          omega
    refine ⟨{ s with outputIds := s.outputIds.setValue n os.length, outputs := os ++ [⟨v, n⟩] },
      ?_, ?_⟩
    · simp only [ioStep, IOState.defineName]
      rw [ho]
      rfl
    · constructor
      · rw [usedNames_append]; simpa [usedNames] using hi.inputs
      · intro m
        rw [definitions_append, hone, List.map_append, List.mem_append, ← hi.ids m]
        simp only [Scope.setValue]
        rw [Scope.value_assign]
        by_cases hm : n = m
        · simp [hm]
        · rw [if_neg hm]
          have : ¬ m = n := fun h => hm h.symm
          simp [this]
      · intro m i h
        simp only [Scope.setValue] at h
        rw [Scope.value_assign] at h
        simp only [List.length_append, List.length_cons, List.length_nil]
        by_cases hm : n = m
        · rw [if_pos hm] at h
          cases h
          omega
        · rw [if_neg hm] at h
          have := hids m i h (fun h => hm h.symm)
          omega
      · simp only [List.length_append, List.length_cons, List.length_nil]
        omega
      · simp only [Scope.setValue]
        exact Scope.nodup_assign hi.nodup n _
      · intro d hd
        rw [definitions_append, hone]
        simp only [List.mem_append, List.mem_singleton] at hd ⊢
        rcases hd with hd | hd
        · exact .inl (hi.outputs d (hsub d hd))
        · exact .inr hd

theorem ioInv_run (ts : List Token) : ∃ s, ioRun ⟨[], [], []⟩ ts = some s ∧ IOInv ts s := by
  induction ts using List.reverseRecOn with
  | nil =>
    refine ⟨_, rfl, ?_⟩
    constructor <;> simp [usedNames, firsts, Scope.value_nil, Spec.definitions, Scope.names]
  | append_singleton ts t ih =>
    obtain ⟨s, hs, hi⟩ := ih
    obtain ⟨s', hs', hi'⟩ := ioInv_step (t := t) hi
    refine ⟨s', ?_, hi'⟩
    rw [ioRun_append, hs, Option.bind_some, ioRun_cons, hs']
    rfl

end Fern
