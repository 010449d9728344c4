import Verif.Lemmas.Thread
import Mathlib.Data.List.Nodup
import Mathlib.Data.List.Perm.Subperm

/-!
# Lemmas about threading: when it succeeds
-/

namespace Fern

/-- The functions in a symbol table. -/
def TableExits (t : SymbolTable Threaded) (g : Callable) : Prop :=
  ∀ n, (SymbolTable.value t n).map Threaded.exit = g n

/-- Some name means this function. -/
def IsExit (g : Callable) (x : Vid) : Prop := ∃ n, g n = some x

/-- Nothing has happened yet to the vertices `A` and to the functions `C`. -/
structure Ready (g : Callable) (s : ThreadState) (A C : List Vid) : Prop where
  nodupA : A.Nodup
  nodupC : C.Nodup
  own : ∀ x ∈ A, s.succ x = [] ∧ s.last ≠ some x ∧ ¬ IsExit g x
  calls : ∀ x ∈ C, s.succ x = [] ∧ s.last ≠ some x
  isOpen : ∀ u, s.last = some u → s.succ u = []

/-- What has happened after passing the vertices `A` and calling the functions `C`. -/
structure Done (s s' : ThreadState) (A C : List Vid) : Prop where
  table : s'.table = s.table
  functions : s'.functions = s.functions
  frame : ∀ x, s.last ≠ some x → x ∉ A → x ∉ C → s'.succ x = s.succ x
  last : s'.last = s.last ∨ s'.last = none ∨ ∃ w, s'.last = some w ∧ (w ∈ A ∨ w ∈ C)
  isOpen : ∀ u, s'.last = some u → s'.succ u = []

variable {g : Callable} {s s1 s2 : ThreadState} {A A1 A2 C C1 C2 : List Vid}

theorem Ready.sub (h : Ready g s A C) (hA : A1.Subperm A) (hC : C1.Subperm C) :
    Ready g s A1 C1 where
  nodupA := by
    obtain ⟨l, h1, h2⟩ := hA
    exact h1.nodup_iff.1 (h.nodupA.sublist h2)
  nodupC := by
    obtain ⟨l, h1, h2⟩ := hC
    exact h1.nodup_iff.1 (h.nodupC.sublist h2)
  own x hx := h.own x (hA.subset hx)
  calls x hx := h.calls x (hC.subset hx)
  isOpen := h.isOpen

theorem Done.mono (h : Done s s1 A1 C1) (hA : A1 ⊆ A) (hC : C1 ⊆ C) : Done s s1 A C where
  table := h.table
  functions := h.functions
  frame x h1 h2 h3 := h.frame x h1 (fun h => h2 (hA h)) (fun h => h3 (hC h))
  last := by
    rcases h.last with h | h | ⟨w, h, hw⟩
    · exact .inl h
    · exact .inr (.inl h)
    · exact .inr (.inr ⟨w, h, hw.imp (fun h => hA h) (fun h => hC h)⟩)
  isOpen := h.isOpen

theorem Done.trans (h : Done s s1 A C) (h' : Done s1 s2 A C) : Done s s2 A C where
  table := h'.table.trans h.table
  functions := h'.functions.trans h.functions
  frame x h1 h2 h3 := by
    rw [h'.frame x ?_ h2 h3, h.frame x h1 h2 h3]
    rcases h.last with hl | hl | ⟨w, hl, hw⟩
    · rwa [hl]
    · rw [hl]; simp
    · rw [hl]
      rintro ⟨⟩
      exact hw.elim h2 h3
  last := by
    rcases h'.last with hl | hl | ⟨w, hl, hw⟩
    · rw [hl]; exact h.last
    · exact .inr (.inl hl)
    · exact .inr (.inr ⟨w, hl, hw⟩)
  isOpen := h'.isOpen

/-- One after the other. -/
theorem Ready.next (h : Ready g s (A1 ++ A2) (C1 ++ C2)) (d : Done s s1 A1 C1)
    (h1 : ∀ x ∈ A2, x ∉ C1) (h2 : ∀ x ∈ C2, x ∉ A1) : Ready g s1 A2 C2 := by
  obtain ⟨hA1, hA2, hA⟩ := List.nodup_append'.1 h.nodupA
  obtain ⟨hC1, hC2, hC⟩ := List.nodup_append'.1 h.nodupC
  have key : ∀ x, s.succ x = [] → s.last ≠ some x → x ∉ A1 → x ∉ C1 →
      s1.succ x = [] ∧ s1.last ≠ some x := by
    intro x hx1 hx2 hx3 hx4
    refine ⟨by rw [d.frame x hx2 hx3 hx4, hx1], ?_⟩
    rcases d.last with hl | hl | ⟨w, hl, hw⟩
    · rwa [hl]
    · rw [hl]; simp
    · rw [hl]
      rintro ⟨⟩
      exact hw.elim hx3 hx4
  refine ⟨hA2, hC2, fun x hx => ?_, fun x hx => ?_, d.isOpen⟩
  · obtain ⟨k1, k2, k3⟩ := h.own x (by simp [hx])
    obtain ⟨k4, k5⟩ := key x k1 k2 (fun h => hA h hx) (h1 x hx)
    exact ⟨k4, k5, k3⟩
  · obtain ⟨k1, k2⟩ := h.calls x (by simp [hx])
    exact key x k1 k2 (h2 x hx) (fun h => hC h hx)

/-! ### Expressions -/

mutual

theorem exprCalls_exit (e : Expr) : ∀ x ∈ exprCalls g e, IsExit g x :=
  match e with
  | .name _ _ | .number _ _ | .string _ _ => by simp [exprCalls]
  | .call _ n args => by
    intro x hx
    rw [exprCalls, List.mem_append] at hx
    rcases hx with hx | hx
    · exact exprsCalls_exit args x hx
    · rw [Option.mem_toList] at hx
      exact ⟨n, hx⟩
  | .operator _ _ args => by
    rw [exprCalls]
    exact exprsCalls_exit args
  | .subscript _ e i => by
    intro x hx
    rw [exprCalls, List.mem_append] at hx
    rcases hx with hx | hx
    · exact exprCalls_exit e x hx
    · exact exprCalls_exit i x hx
  | .attribute _ e _ => by
    rw [exprCalls]
    exact exprCalls_exit e

theorem exprsCalls_exit (es : List Expr) : ∀ x ∈ exprsCalls g es, IsExit g x :=
  match es with
  | [] => by simp [exprsCalls]
  | e :: es => by
    intro x hx
    rw [exprsCalls, List.mem_append] at hx
    rcases hx with hx | hx
    · exact exprCalls_exit e x hx
    · exact exprsCalls_exit es x hx

end

theorem threadTo_success {v : Vid} (h : Ready g s [v] []) :
    ∃ s', s.threadTo v = some s' ∧ Done s s' [v] [] ∧ s'.last = some v := by
  obtain ⟨h1, h2, h3⟩ := h.own v (by simp)
  cases hl : s.last with
  | none =>
    refine ⟨{ s with last := some v }, by rw [ThreadState.threadTo, hl], ?_, rfl⟩
    refine ⟨rfl, rfl, fun _ _ _ _ => rfl, .inr (.inr ⟨v, rfl, .inl (by simp)⟩), ?_⟩
    rintro u ⟨⟩
    exact h1
  | some u =>
    have hu := h.isOpen u hl
    have huv : v ≠ u := by
      rintro rfl
      exact h2 hl
    refine ⟨{ s with succ := fun x => if x = u then [v] else s.succ x, last := some v }, ?_, ?_, rfl⟩
    · rw [ThreadState.threadTo, hl]
      dsimp only
      rw [ThreadState.setSuccessor, if_pos hu, ThreadState.addSuccessor, hu]
      rfl
    · refine ⟨rfl, rfl, fun x hx _ _ => if_neg ?_, .inr (.inr ⟨v, rfl, .inl (by simp)⟩), ?_⟩
      · rintro rfl
        exact hx hl
      · rintro _ ⟨⟩
        dsimp only
        rw [if_neg huv, h1]

theorem finishCall_success {v : Vid} {n : Str} (ht : TableExits s.table g)
    (h : Ready g s [v] (g n).toList) :
    ∃ s', s.finishCall v n = some s' ∧ Done s s' [v] (g n).toList ∧ s'.last ≠ none := by
  obtain ⟨s1, e1, d1, l1⟩ := threadTo_success (h.sub (List.Subperm.refl _) (List.nil_subperm))
  have hn := ht n
  obtain ⟨h1, h2, h3⟩ := h.own v (by simp)
  rw [ThreadState.finishCall, e1, Option.bind_some]
  rw [d1.table]
  cases hv : SymbolTable.value s.table n with
  | none =>
    refine ⟨s1, rfl, d1.mono (by simp) (by simp), ?_⟩
    rw [l1]; simp
  | some f =>
    rw [hv, Option.map_some] at hn
    rw [← hn] at h ⊢
    have hf : f.exit ≠ v := by
      rintro h'
      exact h3 ⟨n, by rw [← hn, h']⟩
    obtain ⟨k1, k2⟩ := h.calls f.exit (by simp)
    have k3 : s1.succ f.exit = [] := by
      rw [d1.frame _ k2 (by simp [hf]) (by simp), k1]
    have k4 : s1.succ v = [] := d1.isOpen v l1
    refine ⟨{ s1 with succ := fun x => if x = v then [f.entry] else s1.succ x, last := some f.exit },
      ?_, ?_, by simp⟩
    · dsimp only
      rw [ThreadState.threadTo, l1]
      dsimp only
      rw [ThreadState.setSuccessor, if_pos k4, ThreadState.addSuccessor, k4]
      rfl
    · refine ⟨d1.table, d1.functions, ?_, .inr (.inr ⟨_, rfl, .inr (by simp)⟩), ?_⟩
      · intro x hx1 hx2 hx3
        dsimp only
        rw [if_neg (by simpa using hx2), d1.frame x hx1 hx2 (by simp)]
      · rintro _ ⟨⟩
        dsimp only
        rw [if_neg hf, k3]

mutual

theorem threadExpr_success {s : ThreadState} (e : Expr) (ht : TableExits s.table g)
    (h : Ready g s e.vids (exprCalls g e)) :
    ∃ s', threadExpr s e = some s' ∧ Done s s' e.vids (exprCalls g e) ∧ s'.last ≠ none :=
  match e with
  | .name v _ | .number v _ | .string v _ => by
    rw [threadExpr]
    obtain ⟨s', e1, d, l⟩ := threadTo_success h
    exact ⟨s', e1, d, by rw [l]; simp⟩
  | .call v n args => by
    have hv : ∀ x ∈ [v], x ∉ exprsCalls g args := by
      intro x hx hx'
      rw [List.mem_singleton] at hx
      subst hx
      exact (h.own x (by simp [Expr.vids])).2.2 (exprsCalls_exit args x hx')
    have hn : ∀ x ∈ (g n).toList, x ∉ Expr.listVids args := by
      intro x hx hx'
      rw [Option.mem_toList] at hx
      exact (h.own x (by simp [Expr.vids, hx'])).2.2 ⟨n, hx⟩
    have h' : Ready g s (Expr.listVids args ++ [v]) (exprsCalls g args ++ (g n).toList) :=
      h.sub (by
        rw [Expr.vids]
        exact (List.perm_append_singleton _ _).subperm) (by rw [exprCalls])
    obtain ⟨s1, e1, d1⟩ := threadExprs_success args ht
      (h'.sub (List.sublist_append_left _ _).subperm (List.sublist_append_left _ _).subperm)
    obtain ⟨s2, e2, d2, l2⟩ := finishCall_success (s := s1) (n := n) (v := v) (by rwa [d1.table])
      (h'.next d1 hv hn)
    refine ⟨s2, by rw [threadExpr, e1, Option.bind_some, e2], ?_, l2⟩
    rw [exprCalls]
    exact (d1.mono (by simp [Expr.vids]) (by simp)).trans (d2.mono (by simp [Expr.vids]) (by simp))
  | .operator v n args => by
    have hv : ∀ x ∈ [v], x ∉ exprsCalls g args := by
      intro x hx hx'
      rw [List.mem_singleton] at hx
      subst hx
      exact (h.own x (by simp [Expr.vids])).2.2 (exprsCalls_exit args x hx')
    have h' : Ready g s (Expr.listVids args ++ [v]) (exprsCalls g args ++ []) :=
      h.sub (by
        rw [Expr.vids]
        exact (List.perm_append_singleton _ _).subperm) (by rw [exprCalls, List.append_nil])
    obtain ⟨s1, e1, d1⟩ := threadExprs_success args ht
      (h'.sub (List.sublist_append_left _ _).subperm (List.sublist_append_left _ _).subperm)
    obtain ⟨s2, e2, d2, l2⟩ := threadTo_success (h'.next d1 hv (by simp))
    refine ⟨s2, by rw [threadExpr, e1, Option.bind_some, e2], ?_, by rw [l2]; simp⟩
    rw [exprCalls]
    exact (d1.mono (by simp [Expr.vids]) (by simp)).trans (d2.mono (by simp [Expr.vids]) (by simp))
  | .subscript v e i => by
    have hown : ∀ x ∈ (Expr.subscript v e i).vids, ¬ IsExit g x := fun x hx => (h.own x hx).2.2
    have h' : Ready g s (e.vids ++ (i.vids ++ [v])) (exprCalls g e ++ (exprCalls g i ++ [])) :=
      h.sub (by
        rw [Expr.vids, ← List.append_assoc]
        exact (List.perm_append_singleton _ _).subperm) (by rw [exprCalls, List.append_nil])
    obtain ⟨s1, e1, d1, _⟩ := threadExpr_success e ht
      (h'.sub (List.sublist_append_left _ _).subperm (List.sublist_append_left _ _).subperm)
    have h1 := h'.next d1
      (fun x hx hx' => hown x (by simp only [List.mem_append, List.mem_singleton] at hx
                                  simp only [Expr.vids, List.mem_cons, List.mem_append]; tauto)
        (exprCalls_exit e x hx'))
      (fun x hx hx' => hown x (by simp [Expr.vids, hx'])
        (exprCalls_exit i x (by simpa using hx)))
    obtain ⟨s2, e2, d2, _⟩ := threadExpr_success i (s := s1) (by rwa [d1.table])
      (h1.sub (List.sublist_append_left _ _).subperm (List.sublist_append_left _ _).subperm)
    have h2 := h1.next d2
      (fun x hx hx' => hown x (by rw [List.mem_singleton] at hx; simp [Expr.vids, hx])
        (exprCalls_exit i x hx')) (by simp)
    obtain ⟨s3, e3, d3, l3⟩ := threadTo_success h2
    refine ⟨s3, by rw [threadExpr, e1, Option.bind_some, e2, Option.bind_some, e3], ?_,
      by rw [l3]; simp⟩
    rw [exprCalls]
    exact ((d1.mono (fun x hx => by simp [Expr.vids, hx]) (by simp)).trans
      (d2.mono (fun x hx => by simp [Expr.vids, hx]) (by simp))).trans
      (d3.mono (by simp [Expr.vids]) (by simp))
  | .attribute v e n => by
    have hv : ∀ x ∈ [v], x ∉ exprCalls g e := by
      intro x hx hx'
      rw [List.mem_singleton] at hx
      subst hx
      exact (h.own x (by simp [Expr.vids])).2.2 (exprCalls_exit e x hx')
    have h' : Ready g s (e.vids ++ [v]) (exprCalls g e ++ []) :=
      h.sub (by
        rw [Expr.vids]
        exact (List.perm_append_singleton _ _).subperm) (by rw [exprCalls, List.append_nil])
    obtain ⟨s1, e1, d1, _⟩ := threadExpr_success e ht
      (h'.sub (List.sublist_append_left _ _).subperm (List.sublist_append_left _ _).subperm)
    obtain ⟨s2, e2, d2, l2⟩ := threadTo_success (h'.next d1 hv (by simp))
    refine ⟨s2, by rw [threadExpr, e1, Option.bind_some, e2], ?_, by rw [l2]; simp⟩
    rw [exprCalls]
    exact (d1.mono (by simp [Expr.vids]) (by simp)).trans (d2.mono (by simp [Expr.vids]) (by simp))

theorem threadExprs_success {s : ThreadState} (es : List Expr) (ht : TableExits s.table g)
    (h : Ready g s (Expr.listVids es) (exprsCalls g es)) :
    ∃ s', threadExprs s es = some s' ∧ Done s s' (Expr.listVids es) (exprsCalls g es) :=
  match es with
  | [] => ⟨s, by rw [threadExprs],
      ⟨rfl, rfl, fun _ _ _ _ => rfl, .inl rfl, h.isOpen⟩⟩
  | e :: es => by
    rw [Expr.listVids, exprsCalls] at h
    obtain ⟨s1, e1, d1, _⟩ := threadExpr_success e ht
      (h.sub (List.sublist_append_left _ _).subperm (List.sublist_append_left _ _).subperm)
    have h1 := h.next d1
      (fun x hx hx' => (h.own x (by simp [hx])).2.2 (exprCalls_exit e x hx'))
      (fun x hx hx' => (h.own x (by simp [hx'])).2.2 (exprsCalls_exit es x hx))
    obtain ⟨s2, e2, d2⟩ := threadExprs_success es (s := s1) (by rwa [d1.table]) h1
    refine ⟨s2, by rw [threadExprs, e1, Option.bind_some, e2], ?_⟩
    rw [Expr.listVids, exprsCalls]
    exact (d1.mono (by simp) (by simp)).trans (d2.mono (by simp) (by simp))

end

end Fern
