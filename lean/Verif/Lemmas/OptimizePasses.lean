import Verif.Lemmas.OptimizeRounds
import Verif.Lemmas.Identify

/-!
# The passes of the optimizer over straight-line statements
-/

namespace Fern

open Spec

/-- The expression that takes the place of a use. -/
def inlineOf (c : OptimizeContext) (v : Vid) : Option Expr :=
  match c.definitions v with
  | [d] =>
    match c.uses d with
    | [_] => c.value d
    | _ => none
  | _ => none

/-- The definition is superfluous. -/
def OptimizeContext.removed (c : OptimizeContext) (t : Vid) : Bool := (c.uses t).length == 1

/-- The links between uses and definitions are consistent, and definitions have values. -/
def Linked (c : OptimizeContext) (v : Vid) : Prop :=
  ∀ d u, c.definitions v = [d] → c.uses d = [u] → u = v ∧ (c.value d).isSome

theorem optimizeName_none {c : OptimizeContext} {v : Vid} (hl : Linked c v) (h : inlineOf c v = none)
    (s : OptimizeState) : optimizeName c s v = some s := by
  unfold inlineOf at h
  unfold optimizeName
  split
  · rename_i d hd
    rw [hd] at h
    split
    · rename_i u hu
      obtain ⟨rfl, h2⟩ := hl d u hd hu
      simp only [hu] at h
      rw [h] at h2
      cases h2
    · rfl
  · rfl

theorem optimizeName_some {c : OptimizeContext} {v : Vid} {e : Expr} (hl : Linked c v)
    (h : inlineOf c v = some e) (s : OptimizeState) :
    optimizeName c s v =
      some { s with inline := s.inline.filter (fun p => p.1 != v) ++ [(v, e)] } := by
  unfold inlineOf at h
  unfold optimizeName
  split
  · rename_i d hd
    rw [hd] at h
    split
    · rename_i u hu
      obtain ⟨rfl, h2⟩ := hl d u hd hu
      simp only [hu] at h
      rw [h, if_pos rfl]
      rfl
    · rename_i hu
      simp only at h
      exact absurd h (by simp)
  · rename_i hd
    split at h
    · rename_i d hd'
      exact absurd hd' (hd d)
    · cases h

mutual

theorem optimizeExpr_none {c : OptimizeContext} (s : OptimizeState) (e : Expr)
    (h : ∀ v ∈ useIds (exprTokens e), Linked c v ∧ inlineOf c v = none) :
    optimizeExpr c s e = some s := by
  cases e with
  | name v n =>
    obtain ⟨h1, h2⟩ := h v (by rw [exprTokens]; simp [useIds])
    rw [optimizeExpr, optimizeName_none h1 h2]
  | number v n => rw [optimizeExpr]
  | string v s => rw [optimizeExpr]
  | call v n args => rw [exprTokens] at h; rw [optimizeExpr, optimizeExprs_none s args h]
  | operator v n args => rw [exprTokens] at h; rw [optimizeExpr, optimizeExprs_none s args h]
  | subscript v e i =>
    rw [exprTokens, useIds_append] at h
    rw [optimizeExpr, optimizeExpr_none s e fun v hv => h v (List.mem_append_left _ hv), Option.bind_some,
      optimizeExpr_none s i fun v hv => h v (List.mem_append_right _ hv)]
  | «attribute» v e m => rw [exprTokens] at h; rw [optimizeExpr, optimizeExpr_none s e h]

theorem optimizeExprs_none {c : OptimizeContext} (s : OptimizeState) (es : List Expr)
    (h : ∀ v ∈ useIds (exprsTokens es), Linked c v ∧ inlineOf c v = none) :
    optimizeExprs c s es = some s := by
  cases es with
  | nil => rw [optimizeExprs]
  | cons e es =>
    rw [exprsTokens, useIds_append] at h
    rw [optimizeExprs, optimizeExpr_none s e fun v hv => h v (List.mem_append_left _ hv), Option.bind_some,
      optimizeExprs_none s es fun v hv => h v (List.mem_append_right _ hv)]

end

/-- What becomes of an assigned expression. -/
def replaceOf (c : OptimizeContext) : Expr → Expr
  | .name v n => (inlineOf c v).getD (.name v n)
  | e => e

/-- What becomes of a statement in mode `Using`. -/
def replaceStmt (c : OptimizeContext) : Stmt → Stmt
  | .assign v t n e => .assign v t n (replaceOf c e)
  | t => t

/-- What is inlined in a statement. -/
def inlinedBy (c : OptimizeContext) : Stmt → Option Expr
  | .assign _ _ _ (.name u _) => inlineOf c u
  | _ => none

/-- Nothing is inlined in the expression. -/
def Plain (c : OptimizeContext) (e : Expr) : Prop :=
  ∀ v ∈ useIds (exprTokens e), Linked c v ∧ inlineOf c v = none

/-- Nothing is inlined in the statement but all of the expression of an assignment. -/
def Clean (c : OptimizeContext) : Stmt → Prop
  | .expr e => Plain c e
  | .assign _ _ _ e => Plain c e ∨ ∃ u k x, e = .name u k ∧ Linked c u ∧ inlineOf c u = some x
  | _ => False

theorem replaceOf_plain {c : OptimizeContext} {e : Expr} (h : Plain c e) : replaceOf c e = e := by
  cases e with
  | name v n =>
    rw [replaceOf, (h v (by rw [exprTokens]; simp [useIds])).2]
    rfl
  | _ => rfl

theorem inlinedBy_plain {c : OptimizeContext} {v t : Vid} {n : Str} {e : Expr} (h : Plain c e) :
    inlinedBy c (.assign v t n e) = none := by
  cases e with
  | name v n => exact (h v (by rw [exprTokens]; simp [useIds])).2
  | _ => rfl

theorem optimizeUseStmts_clean {c : OptimizeContext} (s : OptimizeState) (l : List Stmt)
    (hs : s.inline = []) (hl : ∀ t ∈ l, Clean c t) :
    optimizeUseStmts c s l =
      some (l.map (replaceStmt c), { s with inlined := s.inlined ++ l.filterMap (inlinedBy c) }) := by
  induction l generalizing s with
  | nil => rw [optimizeUseStmts]; simp
  | cons t l ih =>
    have ht := hl t List.mem_cons_self
    have hl' : ∀ t ∈ l, Clean c t := fun t h => hl t (List.mem_cons_of_mem _ h)
    rw [optimizeUseStmts]
    cases t with
    | expr e =>
      rw [optimizeUseStmt, optimizeExpr_none s e ht, Option.map_some, Option.bind_some]
      dsimp only
      rw [ih s hs hl']
      rfl
    | assign v t n e =>
      rw [optimizeUseStmt]
      rcases ht with ht | ⟨u, k, x, rfl, h1, h2⟩
      · rw [optimizeExpr_none s e ht, Option.map_some, Option.bind_some]
        have hr : optimizeReplace s e = (e, s) := by rw [optimizeReplace, hs]; rfl
        dsimp only
        rw [hr]
        dsimp only
        rw [ih s hs hl', List.filterMap_cons_none (inlinedBy_plain ht), List.map_cons, replaceStmt,
          replaceOf_plain ht]
        rfl
      · rw [optimizeExpr, optimizeName_some h1 h2, Option.map_some, Option.bind_some, hs]
        have hr : optimizeReplace ⟨([] : List (Vid × Expr)).filter (fun p => p.1 != u) ++ [(u, x)],
            s.inlined, s.superfluous⟩ (.name u k) =
            (x, { s with inline := [], inlined := s.inlined ++ [x] }) := by
          rw [optimizeReplace]
          simp [Expr.vid]
        dsimp only
        rw [hr]
        dsimp only
        rw [ih _ rfl hl', List.filterMap_cons_some (f := inlinedBy c) (a := .assign v t n (.name u k)) (b := x) h2, List.map_cons, replaceStmt,
          replaceOf, h2]
        simp [hs]
    | ifElse v sv e tv ts t fv fs f => exact ht.elim
    | «while» v sv e tv ts t fv fs f => exact ht.elim
    | function v n args bv bs body => exact ht.elim
    | ret v e => exact ht.elim

/-- The expression of a superfluous definition. -/
def removedExpr (c : OptimizeContext) : Stmt → Option Expr
  | .assign _ t _ e => if c.removed t then some e else none
  | _ => none

/-- The identity of a superfluous definition. -/
def removedId (c : OptimizeContext) : Stmt → Option Vid
  | .assign v t _ _ => if c.removed t then some v else none
  | _ => none

/-- What becomes of a statement. -/
def optimizedStmt (c : OptimizeContext) : Stmt → Option Stmt
  | .assign v t n e => if c.removed t then none else some (.assign v t n (replaceOf c e))
  | t => some t

/-- The visits in mode `Defining` find the superfluous definitions. -/
def Findable (c : OptimizeContext) : List Stmt → Prop
  | [] => True
  | .expr _ :: l => Findable c l
  | .assign _ t _ e :: l =>
    (c.removed t = true → replaceOf c e = e) ∧
    (∀ x ∈ l.filterMap (removedExpr c), x.vid ≠ (replaceOf c e).vid) ∧ Findable c l
  | _ :: _ => False

theorem optimizeDefineVisits_findable {c : OptimizeContext} (s : OptimizeState) (l : List Stmt)
    (hf : Findable c l) (hs : s.inlined.Perm (l.filterMap (removedExpr c))) :
    optimizeDefineVisits s (l.map (replaceStmt c)) =
      (l.map (replaceStmt c), { s with
        inlined := []
        superfluous := s.superfluous ++ l.filterMap (removedId c) }) := by
  induction l generalizing s with
  | nil =>
    simp only [List.filterMap_nil, List.perm_nil] at hs
    simp [optimizeDefineVisits, ← hs]
  | cons t l ih =>
    rw [List.map_cons, optimizeDefineVisits]
    cases t with
    | expr e =>
      rw [replaceStmt, optimizeDefineStmt]
      · dsimp only
        rw [ih s hf hs]
        rfl
      · intros; simp_all
    | assign v t n e =>
      obtain ⟨h1, h2, h3⟩ := hf
      rw [replaceStmt, optimizeDefineStmt]
      dsimp only
      by_cases hr : c.removed t = true
      · have e1 : removedExpr c (.assign v t n e) = some e := by rw [removedExpr, if_pos hr]
        have e2 : removedId c (.assign v t n e) = some v := by rw [removedId, if_pos hr]
        rw [List.filterMap_cons_some e1] at hs
        rw [h1 hr] at h2 ⊢
        have hmem : e ∈ s.inlined := hs.mem_iff.2 List.mem_cons_self
        have hany : s.inlined.any (fun x => x.vid == e.vid) = true :=
          List.any_eq_true.2 ⟨e, hmem, by simp⟩
        obtain ⟨a, l1, l2, -, ha, hl, he⟩ :=
          List.exists_of_eraseP (p := fun x : Expr => x.vid == e.vid) hmem (by simp)
        have hae : a = e := by
          have : a ∈ s.inlined := by rw [hl]; simp
          rcases List.mem_cons.1 (hs.mem_iff.1 this) with h | h
          · exact h
          · exact absurd (by simpa using ha) (h2 a h)
        subst hae
        have hperm : (l1 ++ l2).Perm (l.filterMap (removedExpr c)) := by
          rw [hl] at hs
          exact (List.perm_middle.symm.trans hs).cons_inv
        have hd : optimizeDefine s v a = { s with
            superfluous := s.superfluous ++ [v]
            inlined := l1 ++ l2 } := by
          rw [optimizeDefine, if_pos hany, he]
        rw [hd, ih _ h3 hperm, List.filterMap_cons_some e2]
        simp
      · have e1 : removedExpr c (.assign v t n e) = none := by rw [removedExpr, if_neg hr]
        have e2 : removedId c (.assign v t n e) = none := by rw [removedId, if_neg hr]
        rw [List.filterMap_cons_none e1] at hs
        have hany : ¬ s.inlined.any (fun x => x.vid == (replaceOf c e).vid) = true := by
          intro h
          obtain ⟨x, hx, hv⟩ := List.any_eq_true.1 h
          exact h2 x (hs.mem_iff.1 hx) (by simpa using hv)
        rw [optimizeDefine, if_neg hany, ih s h3 hs, List.filterMap_cons_none e2]
    | ifElse v sv e tv ts t fv fs f => exact hf.elim
    | «while» v sv e tv ts t fv fs f => exact hf.elim
    | function v n args bv bs body => exact hf.elim
    | ret v e => exact hf.elim

theorem replaceStmt_vid (c : OptimizeContext) (t : Stmt) : (replaceStmt c t).vid = t.vid := by
  cases t <;> rfl

theorem removedId_mem {c : OptimizeContext} {l : List Stmt} {v : Vid}
    (h : v ∈ l.filterMap (removedId c)) : v ∈ l.map Stmt.vid := by
  obtain ⟨t, ht, hv⟩ := List.mem_filterMap.1 h
  cases t with
  | assign w t n e =>
    rw [removedId] at hv
    split at hv
    · cases hv; exact List.mem_map.2 ⟨_, ht, rfl⟩
    · cases hv
  | _ => cases hv

theorem filter_replaced {c : OptimizeContext} (l : List Stmt) (hnd : (l.map Stmt.vid).Nodup)
    (q : List Vid) (hq : ∀ v ∈ l.map Stmt.vid, v ∈ q ↔ v ∈ l.filterMap (removedId c)) :
    (l.map (replaceStmt c)).filter (fun t => !q.contains t.vid) = l.filterMap (optimizedStmt c) := by
  induction l with
  | nil => rfl
  | cons t l ih =>
    rw [List.map_cons, List.nodup_cons] at hnd
    have hq' : ∀ v ∈ l.map Stmt.vid, v ∈ q ↔ v ∈ l.filterMap (removedId c) := by
      intro v hv
      rw [hq v (List.mem_cons_of_mem _ hv), List.filterMap_cons]
      split
      · rfl
      · rename_i w hw
        rw [List.mem_cons]
        constructor
        · rintro (rfl | h)
          · exfalso
            cases t with
            | assign w' t n e =>
              rw [removedId] at hw
              split at hw
              · cases hw; exact hnd.1 hv
              · cases hw
            | _ => cases hw
          · exact h
        · exact .inr
    have hn : t.vid ∉ l.filterMap (removedId c) := fun h => hnd.1 (removedId_mem h)
    have ht := hq t.vid List.mem_cons_self
    have ih' := ih hnd.2 hq'
    have keep : removedId c t = none → optimizedStmt c t = some (replaceStmt c t) →
        ((t :: l).map (replaceStmt c)).filter (fun t => !q.contains t.vid) =
          (t :: l).filterMap (optimizedStmt c) := by
      intro h1 h2
      rw [List.filterMap_cons_none h1] at ht
      have : t.vid ∉ q := fun h => hn (ht.1 h)
      rw [List.map_cons, List.filter_cons, replaceStmt_vid, if_pos (by simpa using this),
        List.filterMap_cons_some h2, ih']
    cases t with
    | assign v t n e =>
      by_cases hr : c.removed t = true
      · have h1 : removedId c (.assign v t n e) = some v := by rw [removedId, if_pos hr]
        have h2 : optimizedStmt c (.assign v t n e) = none := by rw [optimizedStmt, if_pos hr]
        rw [List.filterMap_cons_some h1] at ht
        have : v ∈ q := ht.2 List.mem_cons_self
        rw [List.map_cons, List.filter_cons, replaceStmt_vid, if_neg (by simpa [Stmt.vid] using this),
          List.filterMap_cons_none h2, ih']
      · exact keep (by rw [removedId, if_neg hr]) (by rw [optimizedStmt, if_neg hr]; rfl)
    | _ => exact keep rfl rfl

theorem optimizeRoundEnd_of {s s' : OptimizeState} {l l' : List Stmt}
    (h : optimizeDefineStmts s l = (l', s')) (hi : s'.isInitial = true) :
    optimizeRoundEnd s l = some (l', !s.inlined.isEmpty) := by
  rw [optimizeRoundEnd, h, if_pos hi]

/-- One round. -/
theorem optimizeRound_clean {c : OptimizeContext} (l : List Stmt) (hl : ∀ t ∈ l, Clean c t)
    (hnd : (l.map Stmt.vid).Nodup) (hf : Findable c l)
    (hp : (l.filterMap (inlinedBy c)).Perm (l.filterMap (removedExpr c))) :
    optimizeRound c l =
      some (l.filterMap (optimizedStmt c), !(l.filterMap (inlinedBy c)).isEmpty) := by
  have hsup : (l.filterMap (removedId c)).filter
      (fun v => !((l.map (replaceStmt c)).map Stmt.vid).contains v) = [] := by
    rw [List.filter_eq_nil_iff]
    intro v hv
    have := removedId_mem hv
    obtain ⟨t, ht, rfl⟩ := List.mem_map.1 this
    simp only [Bool.not_eq_true', Bool.not_eq_false, List.contains_iff_mem]
    rw [List.mem_map]
    exact ⟨replaceStmt c t, List.mem_map.2 ⟨t, ht, rfl⟩, replaceStmt_vid c t⟩
  have hd : optimizeDefineStmts ⟨[], l.filterMap (inlinedBy c), []⟩ (l.map (replaceStmt c)) =
      (l.filterMap (optimizedStmt c), .initial) := by
    rw [optimizeDefineStmts, optimizeDefineVisits_findable _ l hf hp]
    simp only [optimizeErase, List.nil_append]
    rw [filter_replaced l hnd _ fun v _ => Iff.rfl, hsup]
    rfl
  rw [optimizeRound, optimizeUseStmts_clean _ l rfl hl, Option.bind_some]
  exact optimizeRoundEnd_of hd rfl

/-- Nothing is inlined in the statement. -/
def PlainStmt (c : OptimizeContext) : Stmt → Prop
  | .expr e => Plain c e
  | .assign _ _ _ e => Plain c e
  | _ => False

theorem optimizeDefineVisits_none (s : OptimizeState) (l : List Stmt) (hs : s.inlined = [])
    (hl : ∀ t ∈ l, (∃ e, t = .expr e) ∨ ∃ v t' n e, t = .assign v t' n e) :
    optimizeDefineVisits s l = (l, s) := by
  induction l with
  | nil => rfl
  | cons t l ih =>
    have ih' := ih fun t h => hl t (List.mem_cons_of_mem _ h)
    rcases hl t List.mem_cons_self with ⟨e, rfl⟩ | ⟨v, t', n, e, rfl⟩
    · rw [optimizeDefineVisits, optimizeDefineStmt]
      dsimp only
      rw [ih']
    · rw [optimizeDefineVisits, optimizeDefineStmt]
      dsimp only
      have hd : optimizeDefine s v e = s := by
        rw [optimizeDefine, if_neg (by rw [hs]; simp)]
      rw [hd, ih']

/-- The last round. -/
theorem optimizeRound_plain {c : OptimizeContext} (l : List Stmt) (hl : ∀ t ∈ l, PlainStmt c t) :
    optimizeRound c l = some (l, false) := by
  have hclean : ∀ t ∈ l, Clean c t := by
    intro t ht
    have := hl t ht
    cases t with
    | expr e => exact this
    | assign v t n e => exact .inl this
    | ifElse v sv e tv ts t fv fs f => exact this.elim
    | «while» v sv e tv ts t fv fs f => exact this.elim
    | function v n args bv bs body => exact this.elim
    | ret v e => exact this.elim
  have hm : l.map (replaceStmt c) = l := by
    conv_rhs => rw [← List.map_id l]
    refine List.map_congr_left fun t ht => ?_
    have := hl t ht
    cases t with
    | assign v t n e => rw [replaceStmt, replaceOf_plain this]; rfl
    | _ => rfl
  have hi : l.filterMap (inlinedBy c) = [] := by
    rw [List.filterMap_eq_nil_iff]
    intro t ht
    have := hl t ht
    cases t with
    | assign v t n e => exact inlinedBy_plain this
    | _ => rfl
  have hshape : ∀ t ∈ l, (∃ e, t = .expr e) ∨ ∃ v t' n e, t = .assign v t' n e := by
    intro t ht
    have := hl t ht
    cases t with
    | expr e => exact .inl ⟨e, rfl⟩
    | assign v t n e => exact .inr ⟨v, t, n, e, rfl⟩
    | ifElse v sv e tv ts t fv fs f => exact this.elim
    | «while» v sv e tv ts t fv fs f => exact this.elim
    | function v n args bv bs body => exact this.elim
    | ret v e => exact this.elim
  have hd : optimizeDefineStmts .initial l = (l, .initial) := by
    rw [optimizeDefineStmts, optimizeDefineVisits_none _ l rfl hshape]
    simp [optimizeErase, OptimizeState.initial]
  rw [optimizeRound, optimizeUseStmts_clean _ l rfl hclean, Option.bind_some, hm, hi]
  exact optimizeRoundEnd_of hd rfl

end Fern
