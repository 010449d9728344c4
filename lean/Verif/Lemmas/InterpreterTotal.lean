import Verif.Lemmas.InterpreterTables
import Verif.Lemmas.Identify
import Verif.Spec.Thread

/-!
Lemmas about the vertices of straight-line modules, and about annotation meeting no failing assertion.
-/

namespace Fern

open Spec

variable {V : Type}

mutual

theorem exprIds_perm (e : Expr) : (exprIds e).Perm e.vids := by
  cases e with
  | name v n => simp [exprIds, subterms, Expr.vids, Expr.vid]
  | number v n => simp [exprIds, subterms, Expr.vids, Expr.vid]
  | string v n => simp [exprIds, subterms, Expr.vids, Expr.vid]
  | call v n args =>
    have h := exprsIds_perm args
    rw [exprIds, subterms, List.map_append, Expr.vids]
    exact List.perm_append_comm.trans (h.cons v)
  | operator v n args =>
    have h := exprsIds_perm args
    rw [exprIds, subterms, List.map_append, Expr.vids]
    exact List.perm_append_comm.trans (h.cons v)
  | subscript v e i =>
    have h := exprIds_perm e
    have h' := exprIds_perm i
    rw [exprIds, subterms, List.map_append, List.map_append, Expr.vids, ← List.append_assoc]
    exact List.perm_append_comm.trans ((h.append h').cons v)
  | «attribute» v e m =>
    have h := exprIds_perm e
    rw [exprIds, subterms, List.map_append, Expr.vids]
    exact List.perm_append_comm.trans (h.cons v)

theorem exprsIds_perm (es : List Expr) : (exprsIds es).Perm (Expr.listVids es) := by
  cases es with
  | nil => simp [exprsIds, subtermsList, Expr.listVids]
  | cons e es =>
    rw [exprsIds, subtermsList, List.map_append, Expr.listVids]
    exact (exprIds_perm e).append (exprsIds_perm es)

end

/-- The vertices that are annotated are vertices of the module. -/
theorem termIds_perm {l : List Stmt} (hl : StraightLine l) :
    ∃ rest, (rest ++ termIds l).Perm (Stmt.listVids l) := by
  induction l with
  | nil => exact ⟨[], by simp [termIds, stmtsTerms, Stmt.listVids]⟩
  | cons t l ih =>
    cases t with
    | expr e =>
      rw [StraightLine] at hl
      obtain ⟨rest, h⟩ := ih hl.2
      refine ⟨rest, ?_⟩
      rw [termIds_expr, Stmt.listVids, Stmt.vids, ← List.append_assoc]
      refine (List.perm_append_comm.append_right _).trans ?_
      rw [List.append_assoc]
      exact (exprIds_perm e).append h
    | assign v target n e =>
      rw [StraightLine] at hl
      obtain ⟨rest, h⟩ := ih hl.2
      refine ⟨v :: rest, ?_⟩
      rw [termIds_assign, Stmt.listVids, Stmt.vids, List.cons_append, List.cons_append]
      refine List.Perm.cons v ?_
      have h1 : (rest ++ (exprIds e ++ target :: termIds l)).Perm
          (target :: (exprIds e ++ (rest ++ termIds l))) := by
        refine List.Perm.trans ?_ (List.perm_middle (l₁ := exprIds e) (a := target) (l₂ := rest ++ termIds l))
        rw [← List.append_assoc]
        refine (List.perm_append_comm.append_right _).trans ?_
        rw [List.append_assoc]
        exact (List.perm_middle).append_left _
      exact h1.trans (List.Perm.cons _ ((exprIds_perm e).append h))
    | _ => simp [StraightLine] at hl

theorem termIds_nodup {m : Module} (hl : StraightLine m.statements) (hn : m.vids.Nodup) :
    (termIds m.statements).Nodup := by
  obtain ⟨rest, h⟩ := termIds_perm hl
  rw [Module.vids, List.nodup_cons, List.nodup_cons, List.nodup_cons] at hn
  exact (List.nodup_append.1 (h.nodup_iff.2 hn.2.2.2)).2.1

mutual

theorem exprTokens_ids (e : Expr) : (tokenIds (exprTokens e)).Sublist (exprIds e) := by
  cases e with
  | name v n => simp [exprIds, subterms, exprTokens, tokenIds, Expr.vid]
  | number v n => simp [exprTokens, tokenIds]
  | string v n => simp [exprTokens, tokenIds]
  | call v n args =>
    rw [exprTokens, exprIds, subterms, List.map_append]
    exact (exprsTokens_ids args).trans (List.sublist_append_left _ _)
  | operator v n args =>
    rw [exprTokens, exprIds, subterms, List.map_append]
    exact (exprsTokens_ids args).trans (List.sublist_append_left _ _)
  | subscript v e i =>
    rw [exprTokens, exprIds, subterms, List.map_append, List.map_append, tokenIds_append]
    exact (exprTokens_ids e).append ((exprTokens_ids i).trans (List.sublist_append_left _ _))
  | «attribute» v e m =>
    rw [exprTokens, exprIds, subterms, List.map_append]
    exact (exprTokens_ids e).trans (List.sublist_append_left _ _)

theorem exprsTokens_ids (es : List Expr) : (tokenIds (exprsTokens es)).Sublist (exprsIds es) := by
  cases es with
  | nil => simp [exprsTokens, tokenIds]
  | cons e es =>
    rw [exprsTokens, exprsIds, subtermsList, List.map_append, tokenIds_append]
    exact (exprTokens_ids e).append (exprsTokens_ids es)

end

theorem stmtsTokens_ids {l : List Stmt} (hl : StraightLine l) :
    (tokenIds (stmtsTokens l)).Sublist (termIds l) := by
  induction l with
  | nil => simp [stmtsTokens, tokenIds]
  | cons t l ih =>
    cases t with
    | expr e =>
      rw [StraightLine] at hl
      rw [termIds_expr, stmtsTokens, stmtTokens, tokenIds_append]
      exact (exprTokens_ids e).append (ih hl.2)
    | assign v target n e =>
      rw [StraightLine] at hl
      rw [termIds_assign, stmtsTokens, stmtTokens, tokenIds_append, tokenIds_append, List.append_assoc]
      exact (exprTokens_ids e).append ((ih hl.2).cons_cons target)
    | _ => simp [StraightLine] at hl

theorem straight_of_straightLine {l : List Stmt} (hl : StraightLine l) : l.all Stmt.straight = true := by
  induction l with
  | nil => rfl
  | cons t l ih =>
    cases t with
    | expr e => rw [StraightLine] at hl; rw [List.all_cons, ih hl.2]; rfl
    | assign v target n e => rw [StraightLine] at hl; rw [List.all_cons, ih hl.2]; rfl
    | _ => simp [StraightLine] at hl

/-- A vertex that is not an attribute has one type. -/
theorem AnnotatedAs.one {ops : Operations V} {env : Str → ExpressionType} {s : AnnotateState V} {e : Expr}
    (h : AnnotatedAs ops env s e) (hs : NoSubscript e) (ha : e.isAttribute = false) :
    ∃ t, s.types e.vid = [t] := by
  cases e with
  | name v n => rw [AnnotatedAs] at h; exact ⟨_, h⟩
  | number v n => rw [AnnotatedAs] at h; exact ⟨_, h⟩
  | string v n => rw [AnnotatedAs] at h; exact ⟨_, h⟩
  | call v n args => rw [AnnotatedAs] at h; obtain ⟨_, t, _, h⟩ := h; exact ⟨t, h⟩
  | operator v n args => rw [AnnotatedAs] at h; obtain ⟨_, t, _, h⟩ := h; exact ⟨t, h⟩
  | subscript v e i => rw [NoSubscript] at hs; exact hs.elim
  | «attribute» v e m => cases ha

/-- Annotation of straight-line statements meets no failing assertion, and every name gets a type. -/
theorem annotateStmts_total {ops : Operations V} (hr : TotalRules ops) (l : List Stmt)
    (hl : StraightLine l) (ha : ∀ t ∈ l, ¬ AssignsAttribute t) (s : AnnotateState V)
    (hn : (termIds l).Nodup) (hf : Unannotated s (termIds l)) (ht : s.table ≠ []) :
    ∃ s', annotateStmts ops s l = some s' ∧
      NamesAnnotated (⟨s'.types, s'.operation⟩ : Annotations V) (stmtsTerms l) := by
  induction l generalizing s with
  | nil => exact ⟨s, by rw [annotateStmts], by intro v n h; simp [stmtsTerms] at h⟩
  | cons t l ih =>
    have ha2 : ∀ t ∈ l, ¬ AssignsAttribute t := fun t h => ha t (List.mem_cons_of_mem _ h)
    cases t with
    | expr e =>
      rw [StraightLine] at hl
      rw [termIds_expr] at hn hf
      obtain ⟨s1, h1⟩ := Option.isSome_iff_exists.1
        (annotateExpr_isSome hr s e (List.nodup_append.1 hn).1 hf.left)
      have hfr := annotateExpr_frame ops s s1 e h1
      have hd : ∀ v ∈ exprIds e, v ∉ _ := fun v h h' => nodup_disjoint hn v h' h
      obtain ⟨s', h2, h3⟩ := ih hl.2 ha2 s1 (List.nodup_append.1 hn).2.1
        (hf.right.after hfr fun v h h' => hd v h' h) (by rw [hfr.table]; exact ht)
      refine ⟨s', by rw [annotateStmts, annotateStmt, h1, Option.bind_some, h2], ?_⟩
      intro v n hm
      rw [stmtsTerms, stmtTerms, List.mem_append] at hm
      rcases hm with hm | hm
      · have h4 := (annotateExpr_typed ops s e hl.1 (List.nodup_append.1 hn).1 hf.left).2 s1 h1 _ hm
        rw [AnnotatedAs] at h4
        refine ⟨_, (annotateStmts_frame hl.2 h2 (v := v) ?_).1.trans h4⟩
        exact hd v (List.mem_map.2 ⟨_, hm, rfl⟩)
      · exact h3 v n hm
    | assign w target k e =>
      rw [StraightLine] at hl
      rw [termIds_assign] at hn hf
      have hne := (List.nodup_append.1 hn).1
      obtain ⟨s1, h1⟩ := Option.isSome_iff_exists.1 (annotateExpr_isSome hr s e hne hf.left)
      have hfr := annotateExpr_frame ops s s1 e h1
      have hd : ∀ v ∈ exprIds e, v ∉ _ := fun v h h' => nodup_disjoint hn v h' h
      have hf1 := hf.right.after hfr fun v h h' => hd v h' h
      obtain ⟨hty, han⟩ := annotateExpr_typed ops s e hl.1 hne hf.left
      have hatt : e.isAttribute = false := by
        have := ha _ List.mem_cons_self
        rw [AssignsAttribute] at this
        simpa using this
      obtain ⟨te, hte⟩ := (han s1 h1 e (mem_subterms_self e)).one hl.1 hatt
      rw [h1] at hty
      obtain ⟨ty, _, hst⟩ := Option.map_eq_some_iff.1 hty.symm
      obtain ⟨table, g1, g2, _⟩ := SymbolTable.addValue_some
        (show s1.table ≠ [] by rw [hfr.table]; exact ht) k ty
      have h2 : ∃ s2, s1.finishAssign target k e.vid = some s2 ∧ s2.table ≠ [] := by
        refine ⟨⟨s.stack, table, updateAt s1.types target (s1.types e.vid), s1.operation⟩, ?_, g2⟩
        have hst' : s1.stack = ty :: s.stack := hst.symm
        rw [AnnotateState.finishAssign, hst']
        dsimp only
        rw [g1, Option.bind_some, if_pos ⟨(hf1 target List.mem_cons_self).1, by rw [hte]; rfl⟩]
      obtain ⟨s2, h2, ht2⟩ := h2
      obtain ⟨_, _, _, _, _, _, _, k1, k2, k3⟩ := finishAssign_some h2
      have hnt : target ∉ termIds l := (List.nodup_cons.1 (List.nodup_append.1 hn).2.1).1
      obtain ⟨s', h3, h4⟩ := ih hl.2 ha2 s2 (List.nodup_cons.1 (List.nodup_append.1 hn).2.1).2
        (fun v hv => by
          have hvt : v ≠ target := by rintro rfl; exact hnt hv
          rw [k1 v hvt, k2]
          exact hf1 v (List.mem_cons_of_mem _ hv)) ht2
      refine ⟨s', by rw [annotateStmts, annotateStmt, h1, Option.bind_some, h2, Option.bind_some, h3], ?_⟩
      intro v n hm
      rw [stmtsTerms, stmtTerms, List.mem_append, List.mem_append, List.mem_singleton] at hm
      rcases hm with (hm | hm) | hm
      · have h5 := han s1 h1 _ hm
        rw [AnnotatedAs] at h5
        have hv : v ∈ exprIds e := List.mem_map.2 ⟨_, hm, rfl⟩
        have hv2 := hd v hv
        rw [List.mem_cons, not_or] at hv2
        exact ⟨_, ((annotateStmts_frame hl.2 h3 (v := v) hv2.2).1.trans (k1 v hv2.1)).trans h5⟩
      · cases hm
        exact ⟨te, ((annotateStmts_frame hl.2 h3 (v := target) hnt).1.trans k3).trans hte⟩
      · exact h4 v n hm
    | _ => simp [StraightLine] at hl

/-! ### Vertices that were visited before -/

theorem AnnotateState.leaf_mono {s s' : AnnotateState V} {v : Vid} {t : ExpressionType}
    (h : s.leaf v t = some s') : s'.types v ≠ [] ∧ s'.table = s.table ∧ s'.operation = s.operation ∧
      ∀ w, s.types w ≠ [] → s'.types w ≠ [] := by
  rw [AnnotateState.leaf] at h
  split at h
  · cases h
    refine ⟨by dsimp only; rw [updateAt_self]; simp, rfl, rfl, fun w hw => ?_⟩
    by_cases hwv : w = v
    · subst hwv; dsimp only; rw [updateAt_self]; simp
    · dsimp only; rw [updateAt_of_ne hwv]; exact hw
  · cases h

theorem AnnotateState.finishOperation_mono {ops : Operations V} {s s' : AnnotateState V} {v : Vid}
    {n : Str} {k : Nat} (h : s.finishOperation ops v n k = some s') : s'.types v ≠ [] ∧
      (∀ w, s.types w ≠ [] → s'.types w ≠ []) ∧
      ∀ w, (w = v → ops n = none) → s'.operation w = s.operation w := by
  rw [AnnotateState.finishOperation] at h
  obtain ⟨⟨args, s1⟩, h1, h2⟩ := Option.bind_eq_some_iff.1 h
  rw [AnnotateState.popTypes] at h1
  split at h1
  case isFalse => cases h1
  cases h1
  obtain ⟨⟨t, s2⟩, h3, h4⟩ := Option.map_eq_some_iff.1 h2
  have key : s2.types = s.types ∧ ∀ w, (w = v → ops n = none) → s2.operation w = s.operation w := by
    cases ho : ops n with
    | none => rw [ho] at h3; cases h3; exact ⟨rfl, fun _ _ => rfl⟩
    | some op =>
      rw [ho] at h3
      dsimp only at h3
      have hw : ∀ w, (w = v → (some op : Option (Operation V)) = none) → w ≠ v := fun w h hwv => by
        cases h hwv
      split at h3
      · cases h3
      · split at h3
        · obtain ⟨_, _, h5⟩ := Option.map_eq_some_iff.1 h3
          cases h5
          exact ⟨rfl, fun w h => updateAt_of_ne (hw w h)⟩
        · cases h3
          exact ⟨rfl, fun w h => updateAt_of_ne (hw w h)⟩
  cases h4
  refine ⟨by dsimp only; rw [updateAt_self]; simp, fun w hw => ?_, key.2⟩
  dsimp only
  by_cases hwv : w = v
  · subst hwv; rw [updateAt_self]; simp
  · rw [updateAt_of_ne hwv, key.1]; exact hw

mutual

/-- No vertex loses its types. -/
theorem annotateExpr_mono {ops : Operations V} {s s' : AnnotateState V} {e : Expr}
    (h : annotateExpr ops s e = some s') {w : Vid} (hw : s.types w ≠ []) : s'.types w ≠ [] := by
  cases e with
  | name v n => rw [annotateExpr] at h; exact (AnnotateState.leaf_mono h).2.2.2 w hw
  | number v n => rw [annotateExpr] at h; exact (AnnotateState.leaf_mono h).2.2.2 w hw
  | string v n => rw [annotateExpr] at h; exact (AnnotateState.leaf_mono h).2.2.2 w hw
  | call v n args =>
    rw [annotateExpr] at h
    split at h
    · obtain ⟨s1, h1, h2⟩ := Option.bind_eq_some_iff.1 h
      exact (AnnotateState.finishOperation_mono h2).2.1 w (annotateExprs_mono h1 hw)
    · cases h
  | operator v n args =>
    rw [annotateExpr] at h
    split at h
    · obtain ⟨s1, h1, h2⟩ := Option.bind_eq_some_iff.1 h
      exact (AnnotateState.finishOperation_mono h2).2.1 w (annotateExprs_mono h1 hw)
    · cases h
  | subscript v e i =>
    rw [annotateExpr] at h
    obtain ⟨s1, h1, h2⟩ := Option.bind_eq_some_iff.1 h
    exact annotateExpr_mono h2 (annotateExpr_mono h1 hw)
  | «attribute» v e m => rw [annotateExpr] at h; exact annotateExpr_mono h hw

theorem annotateExprs_mono {ops : Operations V} {s s' : AnnotateState V} {es : List Expr}
    (h : annotateExprs ops s es = some s') {w : Vid} (hw : s.types w ≠ []) : s'.types w ≠ [] := by
  cases es with
  | nil => rw [annotateExprs] at h; cases h; exact hw
  | cons e es =>
    rw [annotateExprs] at h
    obtain ⟨s1, h1, h2⟩ := Option.bind_eq_some_iff.1 h
    exact annotateExprs_mono h2 (annotateExpr_mono h1 hw)

end

theorem finishAssign_mono {s s' : AnnotateState V} {target : Vid} {n : Str} {e : Vid}
    (h : s.finishAssign target n e = some s') {w : Vid} (hw : s.types w ≠ []) : s'.types w ≠ [] := by
  rw [AnnotateState.finishAssign] at h
  cases hst : s.stack with
  | nil => rw [hst] at h; cases h
  | cons t stack =>
    rw [hst] at h
    dsimp only at h
    obtain ⟨table, _, h5⟩ := Option.bind_eq_some_iff.1 h
    split at h5
    case isFalse => cases h5
    case isTrue hc =>
      cases h5
      dsimp only
      by_cases hwt : w = target
      · subst hwt; exact absurd hc.1 hw
      · rw [updateAt_of_ne hwt]; exact hw

mutual

theorem annotateStmt_mono {ops : Operations V} {s s' : AnnotateState V} {t : Stmt}
    (h : annotateStmt ops s t = some s') {w : Vid} (hw : s.types w ≠ []) : s'.types w ≠ [] := by
  cases t with
  | expr e => rw [annotateStmt] at h; exact annotateExpr_mono h hw
  | assign v target n e =>
    rw [annotateStmt] at h
    obtain ⟨s1, h1, h2⟩ := Option.bind_eq_some_iff.1 h
    have h3 := annotateExpr_mono h1 hw
    exact finishAssign_mono h2 h3
  | ifElse v sent c tv ts t fv fs f =>
    rw [annotateStmt] at h
    obtain ⟨s1, h1, h2⟩ := Option.bind_eq_some_iff.1 h
    obtain ⟨s2, h3, h4⟩ := Option.bind_eq_some_iff.1 h2
    exact annotateStmts_mono h4 (annotateStmts_mono h3 (annotateExpr_mono h1 hw))
  | «while» v sent c tv ts t fv fs f =>
    rw [annotateStmt] at h
    obtain ⟨s1, h1, h2⟩ := Option.bind_eq_some_iff.1 h
    obtain ⟨s2, h3, h4⟩ := Option.bind_eq_some_iff.1 h2
    exact annotateStmts_mono h4 (annotateStmts_mono h3 (annotateExpr_mono h1 hw))
  | function v n args bv bs body =>
    rw [annotateStmt] at h
    obtain ⟨s1, h1, h2⟩ := Option.bind_eq_some_iff.1 h
    exact annotateStmts_mono h2 (annotateExprs_mono h1 hw)
  | ret v e =>
    cases e with
    | none => rw [annotateStmt] at h; cases h; exact hw
    | some e => rw [annotateStmt] at h; exact annotateExpr_mono h hw

theorem annotateStmts_mono {ops : Operations V} {s s' : AnnotateState V} {l : List Stmt}
    (h : annotateStmts ops s l = some s') {w : Vid} (hw : s.types w ≠ []) : s'.types w ≠ [] := by
  cases l with
  | nil => rw [annotateStmts] at h; cases h; exact hw
  | cons t l =>
    rw [annotateStmts] at h
    obtain ⟨s1, h1, h2⟩ := Option.bind_eq_some_iff.1 h
    exact annotateStmts_mono h2 (annotateStmt_mono h1 hw)

end

/-- The first vertex that is checked in the visit of an expression. -/
def firstChecked : Expr → Vid
  | .name v _ | .number v _ | .string v _ | .call v _ _ | .operator v _ _ => v
  | .subscript _ e _ | .attribute _ e _ => firstChecked e

theorem annotateExpr_first {ops : Operations V} (e : Expr) {s : AnnotateState V}
    (hw : s.types (firstChecked e) ≠ []) : annotateExpr ops s e = none := by
  cases e with
  | name v n => rw [firstChecked] at hw; rw [annotateExpr, AnnotateState.leaf, if_neg hw]
  | number v n => rw [firstChecked] at hw; rw [annotateExpr, AnnotateState.leaf, if_neg hw]
  | string v n => rw [firstChecked] at hw; rw [annotateExpr, AnnotateState.leaf, if_neg hw]
  | call v n args => rw [firstChecked] at hw; rw [annotateExpr, if_neg hw]
  | operator v n args => rw [firstChecked] at hw; rw [annotateExpr, if_neg hw]
  | subscript v e i =>
    rw [firstChecked] at hw
    rw [annotateExpr, annotateExpr_first e hw]; rfl
  | «attribute» v e m =>
    rw [firstChecked] at hw
    rw [annotateExpr]; exact annotateExpr_first e hw

theorem annotateExpr_marks {ops : Operations V} (e : Expr) {s s' : AnnotateState V}
    (h : annotateExpr ops s e = some s') : s'.types (firstChecked e) ≠ [] := by
  cases e with
  | name v n => rw [annotateExpr] at h; exact (AnnotateState.leaf_mono h).1
  | number v n => rw [annotateExpr] at h; exact (AnnotateState.leaf_mono h).1
  | string v n => rw [annotateExpr] at h; exact (AnnotateState.leaf_mono h).1
  | call v n args =>
    rw [annotateExpr] at h
    split at h
    · obtain ⟨s1, h1, h2⟩ := Option.bind_eq_some_iff.1 h
      exact (AnnotateState.finishOperation_mono h2).1
    · cases h
  | operator v n args =>
    rw [annotateExpr] at h
    split at h
    · obtain ⟨s1, h1, h2⟩ := Option.bind_eq_some_iff.1 h
      exact (AnnotateState.finishOperation_mono h2).1
    · cases h
  | subscript v e i =>
    rw [annotateExpr] at h
    obtain ⟨s1, h1, h2⟩ := Option.bind_eq_some_iff.1 h
    rw [firstChecked]
    exact annotateExpr_mono h2 (annotateExpr_marks e h1)
  | «attribute» v e m =>
    rw [annotateExpr] at h; rw [firstChecked]; exact annotateExpr_marks e h

/-! ### Operations that are not known -/

/-- Every operation at the vertex is not known. -/
def NotKnownAt (ops : Operations V) (w : Vid) (l : List Expr) : Prop :=
  (∀ n args, Expr.call w n args ∈ l → ops n = none) ∧
    ∀ n args, Expr.operator w n args ∈ l → ops n = none

theorem NotKnownAt.left {ops : Operations V} {w : Vid} {a b : List Expr} (h : NotKnownAt ops w (a ++ b)) :
    NotKnownAt ops w a :=
  ⟨fun n args hm => h.1 n args (List.mem_append_left _ hm),
    fun n args hm => h.2 n args (List.mem_append_left _ hm)⟩

theorem NotKnownAt.right {ops : Operations V} {w : Vid} {a b : List Expr} (h : NotKnownAt ops w (a ++ b)) :
    NotKnownAt ops w b :=
  ⟨fun n args hm => h.1 n args (List.mem_append_right _ hm),
    fun n args hm => h.2 n args (List.mem_append_right _ hm)⟩

mutual

theorem annotateExpr_unknown {ops : Operations V} {s s' : AnnotateState V} {e : Expr}
    (h : annotateExpr ops s e = some s') {w : Vid} (hw : NotKnownAt ops w (subterms e)) :
    s'.operation w = s.operation w := by
  cases e with
  | name v n => rw [annotateExpr] at h; rw [(AnnotateState.leaf_mono h).2.2.1]
  | number v n => rw [annotateExpr] at h; rw [(AnnotateState.leaf_mono h).2.2.1]
  | string v n => rw [annotateExpr] at h; rw [(AnnotateState.leaf_mono h).2.2.1]
  | call v n args =>
    rw [annotateExpr] at h
    rw [subterms] at hw
    split at h
    · obtain ⟨s1, h1, h2⟩ := Option.bind_eq_some_iff.1 h
      rw [(AnnotateState.finishOperation_mono h2).2.2 w, annotateExprs_unknown h1 hw.left]
      rintro rfl
      exact hw.1 n args (List.mem_append_right _ (List.mem_singleton.2 rfl))
    · cases h
  | operator v n args =>
    rw [annotateExpr] at h
    rw [subterms] at hw
    split at h
    · obtain ⟨s1, h1, h2⟩ := Option.bind_eq_some_iff.1 h
      rw [(AnnotateState.finishOperation_mono h2).2.2 w, annotateExprs_unknown h1 hw.left]
      rintro rfl
      exact hw.2 n args (List.mem_append_right _ (List.mem_singleton.2 rfl))
    · cases h
  | subscript v e i =>
    rw [annotateExpr] at h
    rw [subterms] at hw
    obtain ⟨s1, h1, h2⟩ := Option.bind_eq_some_iff.1 h
    rw [annotateExpr_unknown h2 hw.right.left, annotateExpr_unknown h1 hw.left]
  | «attribute» v e m =>
    rw [annotateExpr] at h
    rw [subterms] at hw
    exact annotateExpr_unknown h hw.left

theorem annotateExprs_unknown {ops : Operations V} {s s' : AnnotateState V} {es : List Expr}
    (h : annotateExprs ops s es = some s') {w : Vid} (hw : NotKnownAt ops w (subtermsList es)) :
    s'.operation w = s.operation w := by
  cases es with
  | nil => rw [annotateExprs] at h; cases h; rfl
  | cons e es =>
    rw [annotateExprs] at h
    rw [subtermsList] at hw
    obtain ⟨s1, h1, h2⟩ := Option.bind_eq_some_iff.1 h
    rw [annotateExprs_unknown h2 hw.right, annotateExpr_unknown h1 hw.left]

end

mutual

theorem annotateStmt_unknown {ops : Operations V} {s s' : AnnotateState V} {t : Stmt}
    (h : annotateStmt ops s t = some s') {w : Vid} (hw : NotKnownAt ops w (stmtTerms t)) :
    s'.operation w = s.operation w := by
  cases t with
  | expr e => rw [annotateStmt] at h; rw [stmtTerms] at hw; exact annotateExpr_unknown h hw
  | assign v target n e =>
    rw [annotateStmt] at h
    rw [stmtTerms] at hw
    obtain ⟨s1, h1, h2⟩ := Option.bind_eq_some_iff.1 h
    obtain ⟨_, _, _, _, _, _, _, _, h3, _⟩ := finishAssign_some h2
    rw [h3, annotateExpr_unknown h1 hw.left]
  | ifElse v sent c tv ts t fv fs f =>
    rw [annotateStmt] at h
    rw [stmtTerms] at hw
    obtain ⟨s1, h1, h2⟩ := Option.bind_eq_some_iff.1 h
    obtain ⟨s2, h3, h4⟩ := Option.bind_eq_some_iff.1 h2
    rw [annotateStmts_unknown h4 hw.right.right, annotateStmts_unknown h3 hw.right.left,
      annotateExpr_unknown h1 hw.left]
  | «while» v sent c tv ts t fv fs f =>
    rw [annotateStmt] at h
    rw [stmtTerms] at hw
    obtain ⟨s1, h1, h2⟩ := Option.bind_eq_some_iff.1 h
    obtain ⟨s2, h3, h4⟩ := Option.bind_eq_some_iff.1 h2
    rw [annotateStmts_unknown h4 hw.right.right, annotateStmts_unknown h3 hw.right.left,
      annotateExpr_unknown h1 hw.left]
  | function v n args bv bs body =>
    rw [annotateStmt] at h
    rw [stmtTerms] at hw
    obtain ⟨s1, h1, h2⟩ := Option.bind_eq_some_iff.1 h
    rw [annotateStmts_unknown h2 hw.right, annotateExprs_unknown h1 hw.left]
  | ret v e =>
    cases e with
    | none => rw [annotateStmt] at h; cases h; rfl
    | some e => rw [annotateStmt] at h; rw [stmtTerms] at hw; exact annotateExpr_unknown h hw

theorem annotateStmts_unknown {ops : Operations V} {s s' : AnnotateState V} {l : List Stmt}
    (h : annotateStmts ops s l = some s') {w : Vid} (hw : NotKnownAt ops w (stmtsTerms l)) :
    s'.operation w = s.operation w := by
  cases l with
  | nil => rw [annotateStmts] at h; cases h; rfl
  | cons t l =>
    rw [annotateStmts] at h
    rw [stmtsTerms] at hw
    obtain ⟨s1, h1, h2⟩ := Option.bind_eq_some_iff.1 h
    rw [annotateStmts_unknown h2 hw.right, annotateStmt_unknown h1 hw.left]

end

end Fern
