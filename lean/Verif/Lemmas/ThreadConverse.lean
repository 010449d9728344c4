import Verif.Lemmas.ThreadModule

/-!
# Lemmas about threading: when it fails
-/

namespace Fern

variable {g : Callable} {s s1 s2 s' : ThreadState} {C C1 C2 : List Vid}

/-- Something comes behind this vertex already, or will. -/
def Used (s : ThreadState) (x : Vid) : Prop := s.succ x ≠ [] ∨ s.last = some x

/-- Nothing comes behind the last vertex yet. -/
def IsOpen (s : ThreadState) : Prop := ∀ u, s.last = some u → s.succ u = []

/-- A visit that calls the functions `C`. -/
structure CallStep (s s' : ThreadState) (C : List Vid) : Prop where
  nodup : C.Nodup
  fresh : ∀ x ∈ C, ¬ Used s x
  used : ∀ x ∈ C, Used s' x
  mono : ∀ x, Used s x → Used s' x

theorem CallStep.ofMono (h : ∀ x, Used s x → Used s' x) : CallStep s s' [] :=
  ⟨List.nodup_nil, by simp, by simp, h⟩

theorem CallStep.trans (h1 : CallStep s s1 C1) (h2 : CallStep s1 s2 C2) : CallStep s s2 (C1 ++ C2) where
  nodup := List.nodup_append'.2 ⟨h1.nodup, h2.nodup, fun x hx hx' => h2.fresh x hx' (h1.used x hx)⟩
  fresh x hx hu := by
    rcases List.mem_append.1 hx with hx | hx
    · exact h1.fresh x hx hu
    · exact h2.fresh x hx (h1.mono x hu)
  used x hx := by
    rcases List.mem_append.1 hx with hx | hx
    · exact h2.mono x (h1.used x hx)
    · exact h2.used x hx
  mono x hu := h2.mono x (h1.mono x hu)

theorem CallStep.after (h1 : CallStep s s1 C) (h2 : ∀ x, Used s1 x → Used s2 x) : CallStep s s2 C := by
  have := h1.trans (CallStep.ofMono h2)
  rwa [List.append_nil] at this

theorem CallStep.before (h1 : ∀ x, Used s x → Used s1 x) (h2 : CallStep s1 s2 C) : CallStep s s2 C :=
  (CallStep.ofMono h1).trans h2

/-! ### Single steps -/

theorem threadTo_used {v : Vid} (h : s.threadTo v = some s') :
    IsOpen s ∧ (∀ x, Used s x → s'.succ x ≠ []) ∧ s'.last = some v ∧
      ∀ x, ∀ y ∈ s'.succ x, y ∈ s.succ x ∨ y = v := by
  refine ⟨?_, ?_, threadTo_last h, ?_⟩
  · rcases threadTo_eq h with ⟨hl, rfl⟩ | ⟨u, hl, hu, rfl⟩
    · intro u hu
      rw [hl] at hu
      cases hu
    · intro w hw
      rw [hl, Option.some.injEq] at hw
      rwa [← hw]
  · rcases threadTo_eq h with ⟨hl, rfl⟩ | ⟨u, hl, hu, rfl⟩
    · rintro x (hx | hx)
      · exact hx
      · rw [hl] at hx
        cases hx
    · rintro x (hx | hx)
      · dsimp only
        split
        · simp
        · exact hx
      · rw [hl, Option.some.injEq] at hx
        dsimp only
        rw [if_pos hx.symm]
        simp
  · rcases threadTo_eq h with ⟨hl, rfl⟩ | ⟨u, hl, hu, rfl⟩
    · intro x y hy
      exact .inl hy
    · intro x y hy
      dsimp only at hy
      split at hy
      · exact .inr (List.mem_singleton.1 hy)
      · exact .inl hy

theorem threadTo_step {v : Vid} (h : s.threadTo v = some s') : IsOpen s ∧ CallStep s s' [] :=
  ⟨(threadTo_used h).1, CallStep.ofMono fun x hx => .inl ((threadTo_used h).2.1 x hx)⟩

theorem setSuccessor_used {u v : Vid} (h : s.setSuccessor u v = some s') :
    (∀ x, Used s x → Used s' x) ∧ s'.succ u ≠ [] ∧ s'.last = s.last := by
  obtain ⟨hu, rfl⟩ := setSuccessor_eq h
  refine ⟨?_, by simp, rfl⟩
  rintro x (hx | hx)
  · refine .inl ?_
    dsimp only
    split
    · simp
    · exact hx
  · exact .inr hx

theorem finishCall_step {v : Vid} {n : Str} (ht : TableExits s.table g)
    (h : s.finishCall v n = some s') (ho : IsOpen s') :
    IsOpen s ∧ CallStep s s' (g n).toList := by
  rw [ThreadState.finishCall, Option.bind_eq_some_iff] at h
  obtain ⟨s1, h1, h⟩ := h
  have t1 := threadTo_used h1
  have e1 : s1.table = s.table := (threadTo_chunk (A := (· = v)) h1 (.inl rfl)).table
  refine ⟨t1.1, ?_⟩
  have hn := ht n
  rw [← e1] at hn
  split at h
  · rename_i hv
    rw [Option.some.injEq] at h
    subst h
    rw [hv] at hn
    rw [← hn]
    exact (threadTo_step h1).2
  · rename_i f hf
    rw [Option.map_eq_some_iff] at h
    obtain ⟨s2, h2, rfl⟩ := h
    have t2 := threadTo_used h2
    rw [hf] at hn
    rw [← hn]
    have hs : s2.succ f.exit = [] := ho f.exit rfl
    have hm : ∀ x, Used s x → s2.succ x ≠ [] := fun x hx => t2.2.1 x (.inl (t1.2.1 x hx))
    refine ⟨by simp, ?_, ?_, fun x hx => .inl (hm x hx)⟩
    · intro x hx hu
      simp only [Option.map_some, Option.toList_some, List.mem_singleton] at hx
      subst hx
      exact hm _ hu hs
    · intro x hx
      simp only [Option.map_some, Option.toList_some, List.mem_singleton] at hx
      subst hx
      exact .inr rfl

theorem finishCall_news {v : Vid} {n : Str} (h : s.finishCall v n = some s') (x y : Vid)
    (hy : y ∈ s'.succ x) : y ∈ s.succ x ∨ y = v ∨ InTable s.table y := by
  rw [ThreadState.finishCall, Option.bind_eq_some_iff] at h
  obtain ⟨s1, h1, h⟩ := h
  have e1 : s1.table = s.table := (threadTo_chunk (A := (· = v)) h1 (.inl rfl)).table
  split at h
  · rw [Option.some.injEq] at h
    subst h
    have := (threadTo_used h1).2.2.2 x y hy
    tauto
  · rename_i f hf
    rw [Option.map_eq_some_iff] at h
    obtain ⟨s2, h2, rfl⟩ := h
    rcases (threadTo_used h2).2.2.2 x y hy with hy | rfl
    · have := (threadTo_used h1).2.2.2 x y hy
      tauto
    · exact .inr (.inr ⟨n, f, by rw [← e1]; exact hf, .inl rfl⟩)

/-! ### Expressions -/

mutual

theorem threadExpr_step {s s' : ThreadState} (e : Expr) (ht : TableExits s.table g)
    (h : threadExpr s e = some s') (ho : IsOpen s') :
    IsOpen s ∧ CallStep s s' (exprCalls g e) :=
  match e with
  | .name v _ | .number v _ | .string v _ => by
    rw [threadExpr] at h
    rw [exprCalls]
    exact threadTo_step h
  | .call v n args => by
    rw [threadExpr, Option.bind_eq_some_iff] at h
    obtain ⟨s1, h1, h⟩ := h
    have c1 := threadExprs_chunk args h1
    rw [exprCalls]
    have f := finishCall_step (g := g) (by rwa [c1.table]) h ho
    have i := threadExprs_step args ht h1 f.1
    exact ⟨i.1, i.2.trans f.2⟩
  | .operator v _ args => by
    rw [threadExpr, Option.bind_eq_some_iff] at h
    obtain ⟨s1, h1, h⟩ := h
    have f := threadTo_step h
    have i := threadExprs_step args ht h1 f.1
    rw [exprCalls]
    exact ⟨i.1, i.2.after f.2.mono⟩
  | .subscript v e1 e2 => by
    rw [threadExpr, Option.bind_eq_some_iff] at h
    obtain ⟨s1, h1, h⟩ := h
    rw [Option.bind_eq_some_iff] at h
    obtain ⟨s2, h2, h⟩ := h
    have c1 := (threadExpr_chunk e1 h1).1
    have f := threadTo_step h
    have i2 := threadExpr_step e2 (by rwa [c1.table]) h2 f.1
    have i1 := threadExpr_step e1 ht h1 i2.1
    rw [exprCalls]
    exact ⟨i1.1, (i1.2.trans i2.2).after f.2.mono⟩
  | .attribute v e1 _ => by
    rw [threadExpr, Option.bind_eq_some_iff] at h
    obtain ⟨s1, h1, h⟩ := h
    have f := threadTo_step h
    have i1 := threadExpr_step e1 ht h1 f.1
    rw [exprCalls]
    exact ⟨i1.1, i1.2.after f.2.mono⟩

theorem threadExprs_step {s s' : ThreadState} (es : List Expr) (ht : TableExits s.table g)
    (h : threadExprs s es = some s') (ho : IsOpen s') :
    IsOpen s ∧ CallStep s s' (exprsCalls g es) :=
  match es with
  | [] => by
    rw [threadExprs, Option.some.injEq] at h
    subst h
    rw [exprsCalls]
    exact ⟨ho, CallStep.ofMono fun _ h => h⟩
  | e :: es => by
    rw [threadExprs, Option.bind_eq_some_iff] at h
    obtain ⟨s1, h1, h⟩ := h
    have c1 := (threadExpr_chunk e h1).1
    have i2 := threadExprs_step es (by rwa [c1.table]) h ho
    have i1 := threadExpr_step e ht h1 i2.1
    rw [exprsCalls]
    exact ⟨i1.1, i1.2.trans i2.2⟩

end

mutual

theorem threadExpr_news {s s' : ThreadState} (e : Expr) (h : threadExpr s e = some s') (x y : Vid)
    (hy : y ∈ s'.succ x) : y ∈ s.succ x ∨ y ∈ e.vids ∨ InTable s.table y :=
  match e with
  | .name v _ | .number v _ | .string v _ => by
    rw [threadExpr] at h
    have := (threadTo_used h).2.2.2 x y hy
    simp only [Expr.vids, List.mem_singleton]
    tauto
  | .call v n args => by
    rw [threadExpr, Option.bind_eq_some_iff] at h
    obtain ⟨s1, h1, h⟩ := h
    have c1 := threadExprs_chunk args h1
    have f := finishCall_news h x y hy
    rw [c1.table] at f
    have := threadExprs_news args h1 x y
    simp only [Expr.vids, List.mem_cons]
    tauto
  | .operator v _ args => by
    rw [threadExpr, Option.bind_eq_some_iff] at h
    obtain ⟨s1, h1, h⟩ := h
    have f := (threadTo_used h).2.2.2 x y hy
    have := threadExprs_news args h1 x y
    simp only [Expr.vids, List.mem_cons]
    tauto
  | .subscript v e1 e2 => by
    rw [threadExpr, Option.bind_eq_some_iff] at h
    obtain ⟨s1, h1, h⟩ := h
    rw [Option.bind_eq_some_iff] at h
    obtain ⟨s2, h2, h⟩ := h
    have c1 := (threadExpr_chunk e1 h1).1
    have f := (threadTo_used h).2.2.2 x y hy
    have i2 := threadExpr_news e2 h2 x y
    rw [c1.table] at i2
    have i1 := threadExpr_news e1 h1 x y
    simp only [Expr.vids, List.mem_cons, List.mem_append]
    tauto
  | .attribute v e1 _ => by
    rw [threadExpr, Option.bind_eq_some_iff] at h
    obtain ⟨s1, h1, h⟩ := h
    have f := (threadTo_used h).2.2.2 x y hy
    have i1 := threadExpr_news e1 h1 x y
    simp only [Expr.vids, List.mem_cons]
    tauto

theorem threadExprs_news {s s' : ThreadState} (es : List Expr) (h : threadExprs s es = some s')
    (x y : Vid) (hy : y ∈ s'.succ x) : y ∈ s.succ x ∨ y ∈ Expr.listVids es ∨ InTable s.table y :=
  match es with
  | [] => by
    rw [threadExprs, Option.some.injEq] at h
    subst h
    exact .inl hy
  | e :: es => by
    rw [threadExprs, Option.bind_eq_some_iff] at h
    obtain ⟨s1, h1, h⟩ := h
    have c1 := (threadExpr_chunk e h1).1
    have i2 := threadExprs_news es h x y hy
    rw [c1.table] at i2
    have i1 := threadExpr_news e h1 x y
    simp only [Expr.listVids, List.mem_append]
    tauto

end

end Fern
