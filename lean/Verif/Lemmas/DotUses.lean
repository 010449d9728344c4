import Verif.Lemmas.DotTree
import Verif.Props.Identify

/-!
# Names in modules
-/

namespace Fern.Dot

open Fern.Spec Spec

mutual

theorem exprTokens_count (x : Vid) : ∀ e, (tokenIds (exprTokens e)).count x ≤ e.vids.count x
  | .name v n => by simp [exprTokens, tokenIds, Expr.vids]
  | .number v n => by simp [exprTokens, tokenIds]
  | .string v n => by simp [exprTokens, tokenIds]
  | .call v n args => by
    have := exprsTokens_count x args
    rw [exprTokens, Expr.vids, List.count_cons]; omega
  | .operator v n args => by
    have := exprsTokens_count x args
    rw [exprTokens, Expr.vids, List.count_cons]; omega
  | .subscript v e i => by
    have h1 := exprTokens_count x e
    have h2 := exprTokens_count x i
    rw [exprTokens, Expr.vids, List.count_cons, tokenIds_append, List.count_append, List.count_append]; omega
  | .attribute v e n => by
    have h1 := exprTokens_count x e
    rw [exprTokens, Expr.vids, List.count_cons]; omega

theorem exprsTokens_count (x : Vid) : ∀ es, (tokenIds (exprsTokens es)).count x ≤ (Expr.listVids es).count x
  | [] => by simp [exprsTokens, tokenIds]
  | e :: es => by
    have h1 := exprTokens_count x e
    have h2 := exprsTokens_count x es
    rw [exprsTokens, Expr.listVids, tokenIds_append, List.count_append, List.count_append]; omega

end

mutual

theorem stmtTokens_count (x : Vid) : ∀ s, (tokenIds (stmtTokens s)).count x ≤ s.vids.count x
  | .expr e => exprTokens_count x e
  | .assign v target n e => by
    have h1 := exprTokens_count x e
    have : tokenIds [Token.define n target] = [target] := rfl
    simp only [stmtTokens, Stmt.vids, tokenIds_append, List.count_append, this, List.count_cons,
      List.count_nil]
    omega
  | .ifElse v z c tv ts th fv fs el => by
    have h1 := exprTokens_count x c
    have h2 := stmtsTokens_count x th
    have h3 := stmtsTokens_count x el
    have e1 : tokenIds [Token.begin] = [] := rfl
    have e2 : tokenIds [Token.finish] = [] := rfl
    simp only [stmtTokens, Stmt.vids, tokenIds_append, List.count_append, e1, e2, List.count_cons,
      List.count_nil]
    omega
  | .while v z c tv ts th fv fs el => by
    have h1 := exprTokens_count x c
    have h2 := stmtsTokens_count x th
    have h3 := stmtsTokens_count x el
    have e1 : tokenIds [Token.begin] = [] := rfl
    have e2 : tokenIds [Token.finish] = [] := rfl
    simp only [stmtTokens, Stmt.vids, tokenIds_append, List.count_append, e1, e2, List.count_cons,
      List.count_nil]
    omega
  | .function v n args bv bs body => by
    have h1 := exprsTokens_count x args
    have h2 := stmtsTokens_count x body
    simp only [stmtTokens, Stmt.vids, tokenIds_append, List.count_append, List.count_cons, List.count_nil]
    omega
  | .ret v none => by simp [stmtTokens, tokenIds]
  | .ret v (some e) => by
    have h1 := exprTokens_count x e
    simp only [stmtTokens, Stmt.vids, List.count_cons]
    omega

theorem stmtsTokens_count (x : Vid) : ∀ ss, (tokenIds (stmtsTokens ss)).count x ≤ (Stmt.listVids ss).count x
  | [] => by simp [stmtsTokens, tokenIds]
  | s :: ss => by
    have h1 := stmtTokens_count x s
    have h2 := stmtsTokens_count x ss
    rw [stmtsTokens, Stmt.listVids, tokenIds_append, List.count_append, List.count_append]; omega

end

theorem tokens_nodup {m : Module} (h : m.vids.Nodup) : (tokenIds (stmtsTokens m.statements)).Nodup := by
  rw [List.nodup_iff_count_le_one]
  intro x
  have h1 := stmtsTokens_count x m.statements
  have h2 := List.nodup_iff_count_le_one.1 h x
  rw [Module.vids] at h2
  simp only [List.count_cons] at h2
  omega

/-! ### Definitions are targets of assignments -/

mutual

theorem define_exprTokens {n : Str} {d : Vid} : ∀ e, Token.define n d ∉ exprTokens e
  | .name v n => by simp [exprTokens]
  | .number v n => by simp [exprTokens]
  | .string v n => by simp [exprTokens]
  | .call v n args => by rw [exprTokens]; exact define_exprsTokens args
  | .operator v n args => by rw [exprTokens]; exact define_exprsTokens args
  | .subscript v e i => by
    rw [exprTokens, List.mem_append, not_or]; exact ⟨define_exprTokens e, define_exprTokens i⟩
  | .attribute v e n => by rw [exprTokens]; exact define_exprTokens e

theorem define_exprsTokens {n : Str} {d : Vid} : ∀ es, Token.define n d ∉ exprsTokens es
  | [] => by simp [exprsTokens]
  | e :: es => by
    rw [exprsTokens, List.mem_append, not_or]; exact ⟨define_exprTokens e, define_exprsTokens es⟩

end

mutual

theorem define_stmtTokens {n : Str} {d : Vid} : ∀ s, Token.define n d ∈ stmtTokens s →
    ∃ v e, .assign v d n e ∈ stmtAll s
  | .expr e, h => absurd h (define_exprTokens e)
  | .assign v target k e, h => by
    rcases List.mem_append.1 h with h | h
    · exact absurd h (define_exprTokens e)
    · cases List.mem_singleton.1 h
      exact ⟨v, e, List.mem_cons_self⟩
  | .ifElse v z c tv ts th fv fs el, h => by
    simp only [stmtTokens, List.mem_append, List.mem_singleton, reduceCtorEq, false_or, or_false] at h
    rcases h with (h | h) | h
    · exact absurd h (define_exprTokens c)
    · obtain ⟨w, e, h⟩ := define_stmtsTokens th h
      exact ⟨w, e, by simp [stmtAll, h]⟩
    · obtain ⟨w, e, h⟩ := define_stmtsTokens el h
      exact ⟨w, e, by simp [stmtAll, h]⟩
  | .while v z c tv ts th fv fs el, h => by
    simp only [stmtTokens, List.mem_append, List.mem_singleton, reduceCtorEq, false_or, or_false] at h
    rcases h with (h | h) | h
    · exact absurd h (define_exprTokens c)
    · obtain ⟨w, e, h⟩ := define_stmtsTokens th h
      exact ⟨w, e, by simp [stmtAll, h]⟩
    · obtain ⟨w, e, h⟩ := define_stmtsTokens el h
      exact ⟨w, e, by simp [stmtAll, h]⟩
  | .function v k args bv bs body, h => by
    rw [stmtTokens, List.mem_append] at h
    rcases h with h | h
    · exact absurd h (define_exprsTokens args)
    · obtain ⟨w, e, h⟩ := define_stmtsTokens body h
      exact ⟨w, e, by simp [stmtAll, h]⟩
  | .ret v none, h => by cases h
  | .ret v (some e), h => absurd h (define_exprTokens e)

theorem define_stmtsTokens {n : Str} {d : Vid} : ∀ ss, Token.define n d ∈ stmtsTokens ss →
    ∃ v e, .assign v d n e ∈ stmtsAll ss
  | [], h => by cases h
  | s :: ss, h => by
    rw [stmtsTokens, List.mem_append] at h
    rcases h with h | h
    · obtain ⟨w, e, h⟩ := define_stmtTokens s h
      exact ⟨w, e, by simp [stmtsAll, h]⟩
    · obtain ⟨w, e, h⟩ := define_stmtsTokens ss h
      exact ⟨w, e, by simp [stmtsAll, h]⟩

end

/-! ### The names drawn -/

theorem names_exprTerms (x : Vid) : ∀ e, ((exprTerms e).filterMap nameVid).count x ≤ ((exprTerms e).map Expr.vid).count x := by
  intro e
  generalize exprTerms e = l
  induction l with
  | nil => simp
  | cons y l ih =>
    cases y <;> simp only [List.filterMap_cons, List.map_cons, List.count_cons, Expr.vid, nameVid] <;>
      omega

mutual

theorem stmtNames_count (x : Vid) : ∀ s, ((stmtAll s).flatMap stmtNames).count x ≤ (stmtDrawn s).count x
  | .expr e => by simpa [stmtAll, stmtNames, expression?, stmtDrawn] using names_exprTerms x e
  | .assign v target n e => by
    have := names_exprTerms x e
    simp only [stmtAll, stmtNames, stmtDrawn, List.flatMap_cons, List.flatMap_nil, List.append_nil,
      List.count_append, List.count_cons, List.count_nil] at *
    omega
  | .ifElse v z c tv ts th fv fs el => by
    have := names_exprTerms x c
    have := stmtsNames_count x th
    have := stmtsNames_count x el
    simp only [stmtAll, stmtNames, expression?, Option.toList_some, stmtDrawn, List.flatMap_cons,
      List.flatMap_append, List.flatMap_nil, List.append_nil,
      List.count_append, List.count_cons, List.count_nil] at *
    omega
  | .while v z c tv ts th fv fs el => by
    have := names_exprTerms x c
    have := stmtsNames_count x th
    have := stmtsNames_count x el
    simp only [stmtAll, stmtNames, expression?, Option.toList_some, stmtDrawn, List.flatMap_cons,
      List.flatMap_append, List.flatMap_nil, List.append_nil,
      List.count_append, List.count_cons, List.count_nil] at *
    omega
  | .function v n args bv bs body => by
    have := stmtsNames_count x body
    simp only [stmtAll, stmtNames, expression?, Option.toList_none, stmtDrawn, List.flatMap_cons,
      List.flatMap_append, List.flatMap_nil, List.append_nil, List.nil_append,
      List.count_append, List.count_cons, List.count_nil] at *
    omega
  | .ret v none => by simp [stmtAll, stmtNames, expression?]
  | .ret v (some e) => by
    have := names_exprTerms x e
    simp only [stmtAll, stmtNames, expression?, Option.toList_some, stmtDrawn, List.flatMap_cons,
      List.flatMap_nil, List.append_nil, List.count_cons] at *
    omega

theorem stmtsNames_count (x : Vid) : ∀ ss,
    ((stmtsAll ss).flatMap stmtNames).count x ≤ (stmtsDrawn ss).count x
  | [] => by simp [stmtsAll]
  | s :: ss => by
    have h1 := stmtNames_count x s
    have h2 := stmtsNames_count x ss
    rw [stmtsAll, stmtsDrawn, List.flatMap_append, List.count_append, List.count_append]; omega

end

theorem names_nodup {m : Module} (h : m.vids.Nodup) : ((stmtsAll m.statements).flatMap stmtNames).Nodup := by
  rw [List.nodup_iff_count_le_one]
  intro x
  have h1 := stmtsNames_count x m.statements
  have h2 := List.nodup_iff_count_le_one.1 h x
  have h3 := List.perm_iff_count.1 (stmtsDrawn_perm m.statements) x
  rw [Module.vids] at h2
  simp only [List.count_cons, List.count_append] at h2 h3
  omega

theorem nodup_star {l : List Vid} {f : Vid → List Vid} (h : l.Nodup) (hf : ∀ v, (f v).Nodup) :
    (l.flatMap fun v => (f v).map fun b => (v, b)).Nodup := by
  rw [List.nodup_flatMap]
  refine ⟨fun v _ => (hf v).map (fun a b hab => (Prod.mk.inj hab).2), ?_⟩
  refine h.imp fun hab => ?_
  intro p hp hq
  obtain ⟨x, -, rfl⟩ := List.mem_map.1 hp
  obtain ⟨y, -, hy⟩ := List.mem_map.1 hq
  exact hab (Prod.mk.inj hy).1.symm

end Fern.Dot
