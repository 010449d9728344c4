import Verif.Model.Optimize

/-!
# The rounds of the optimizer end
-/

namespace Fern

/-! ### The number of statements -/

theorem Stmt.count_pos (t : Stmt) : 0 < t.count := by
  cases t <;> rw [Stmt.count] <;> omega

mutual

theorem optimizeUseStmt_count (c : OptimizeContext) (s s' : OptimizeState) (t t' : Stmt)
    (h : optimizeUseStmt c s t = some (t', s')) : t'.count = t.count := by
  cases t with
  | expr e =>
    rw [optimizeUseStmt] at h
    obtain ⟨s1, _, h⟩ := Option.map_eq_some_iff.1 h
    cases h; rfl
  | assign v target n e =>
    rw [optimizeUseStmt] at h
    obtain ⟨s1, _, h⟩ := Option.map_eq_some_iff.1 h
    cases h; simp only [Stmt.count]
  | ifElse v sv e tv ts t fv fs f =>
    rw [optimizeUseStmt] at h
    obtain ⟨s1, _, h⟩ := Option.bind_eq_some_iff.1 h
    obtain ⟨⟨t1, s2⟩, h1, h⟩ := Option.bind_eq_some_iff.1 h
    obtain ⟨⟨f1, s3⟩, h2, h⟩ := Option.map_eq_some_iff.1 h
    cases h
    rw [Stmt.count, Stmt.count, optimizeUseStmts_counts c _ _ _ _ h1,
      optimizeUseStmts_counts c _ _ _ _ h2]
  | «while» v sv e tv ts t fv fs f =>
    rw [optimizeUseStmt] at h
    obtain ⟨s1, _, h⟩ := Option.bind_eq_some_iff.1 h
    obtain ⟨⟨t1, s2⟩, h1, h⟩ := Option.bind_eq_some_iff.1 h
    obtain ⟨⟨f1, s3⟩, h2, h⟩ := Option.map_eq_some_iff.1 h
    cases h
    rw [Stmt.count, Stmt.count, optimizeUseStmts_counts c _ _ _ _ h1,
      optimizeUseStmts_counts c _ _ _ _ h2]
  | function v n args bv bs body =>
    rw [optimizeUseStmt] at h
    obtain ⟨s1, _, h⟩ := Option.bind_eq_some_iff.1 h
    obtain ⟨⟨t1, s2⟩, h1, h⟩ := Option.map_eq_some_iff.1 h
    cases h
    rw [Stmt.count, Stmt.count, optimizeUseStmts_counts c _ _ _ _ h1]
  | ret v e =>
    cases e with
    | none => rw [optimizeUseStmt] at h; cases h; rfl
    | some e =>
      rw [optimizeUseStmt] at h
      obtain ⟨s1, _, h⟩ := Option.map_eq_some_iff.1 h
      cases h; rfl

theorem optimizeUseStmts_counts (c : OptimizeContext) (s s' : OptimizeState) (l l' : List Stmt)
    (h : optimizeUseStmts c s l = some (l', s')) : Stmt.counts l' = Stmt.counts l := by
  cases l with
  | nil => rw [optimizeUseStmts] at h; cases h; rfl
  | cons t ts =>
    rw [optimizeUseStmts] at h
    obtain ⟨⟨t1, s2⟩, h1, h⟩ := Option.bind_eq_some_iff.1 h
    obtain ⟨⟨f1, s3⟩, h2, h⟩ := Option.map_eq_some_iff.1 h
    cases h
    rw [Stmt.counts, Stmt.counts, optimizeUseStmt_count c _ _ _ _ h1,
      optimizeUseStmts_counts c _ _ _ _ h2]

end

/-- The number of entries that still have to lead to the removal of a statement. -/
def OptimizeState.pending (s : OptimizeState) : Nat := s.inlined.length + s.superfluous.length

theorem counts_filter_le (p : Stmt → Bool) (l : List Stmt) : Stmt.counts (l.filter p) ≤ Stmt.counts l := by
  induction l with
  | nil => rfl
  | cons t l ih =>
    rw [List.filter_cons, Stmt.counts]
    split
    · rw [Stmt.counts]; omega
    · omega

theorem counts_filter_lt (p : Stmt → Bool) (l : List Stmt) (t : Stmt) (ht : t ∈ l) (hp : p t = false) :
    Stmt.counts (l.filter p) < Stmt.counts l := by
  induction l with
  | nil => cases ht
  | cons x l ih =>
    rw [List.filter_cons, Stmt.counts]
    rcases List.mem_cons.1 ht with rfl | ht
    · rw [hp, if_neg (by simp)]
      have := counts_filter_le p l
      have := Stmt.count_pos t
      omega
    · have := ih ht
      split
      · rw [Stmt.counts]; omega
      · omega

/-- The number of statements does not grow, and unless it shrinks as many entries are pending as
before. -/
structure Shrinks (n n' : Nat) (s s' : OptimizeState) : Prop where
  le : n' ≤ n
  pending : n' = n → s'.pending = s.pending

theorem optimizeErase_shrinks (s : OptimizeState) (l : List Stmt) :
    Shrinks (Stmt.counts l) (Stmt.counts (optimizeErase s l).1) s (optimizeErase s l).2 := by
  refine ⟨counts_filter_le _ _, fun h => ?_⟩
  have key : ∀ v ∈ s.superfluous, (!(l.map Stmt.vid).contains v) = true := by
    intro v hv
    by_contra hc
    have hc' : v ∈ l.map Stmt.vid := by simpa using hc
    obtain ⟨t, ht, rfl⟩ := List.mem_map.1 hc'
    have := counts_filter_lt (fun t => !s.superfluous.contains t.vid) l t ht (by simpa using hv)
    simp only [optimizeErase] at h
    omega
  simp only [optimizeErase, OptimizeState.pending]
  rw [List.filter_eq_self.2 key]

theorem optimizeDefine_pending (s : OptimizeState) (v : Vid) (e : Expr) :
    (optimizeDefine s v e).pending = s.pending := by
  rw [optimizeDefine]
  split
  · rename_i h
    obtain ⟨x, hx, hp⟩ := List.any_eq_true.1 h
    have h1 := List.length_eraseP_of_mem (p := fun x : Expr => x.vid == e.vid) hx hp
    have h2 := List.length_pos_of_mem hx
    simp only [OptimizeState.pending, List.length_append, List.length_singleton]
    omega
  · rfl

theorem Shrinks.trans {a b c : Nat} {s s' s'' : OptimizeState} (h : Shrinks a b s s')
    (h' : Shrinks b c s' s'') : Shrinks a c s s'' :=
  ⟨h'.le.trans h.le, fun e => by
    have e1 : b = a := by have := h.le; have := h'.le; omega
    rw [h'.pending (by omega), h.pending e1]⟩

theorem Shrinks.add {a b a' b' : Nat} {s s' s'' : OptimizeState} (h : Shrinks a a' s s')
    (h' : Shrinks b b' s' s'') : Shrinks (a + b) (a' + b') s s'' :=
  ⟨by have := h.le; have := h'.le; omega, fun e => by
    have := h.le
    have := h'.le
    rw [h'.pending (by omega), h.pending (by omega)]⟩

theorem Shrinks.succ {a a' : Nat} {s s' : OptimizeState} (h : Shrinks a a' s s') :
    Shrinks (1 + a) (1 + a') s s' :=
  ⟨by have := h.le; omega, fun e => h.pending (by omega)⟩

mutual

theorem optimizeDefineStmt_shrinks (s : OptimizeState) (t : Stmt) :
    Shrinks t.count (optimizeDefineStmt s t).1.count s (optimizeDefineStmt s t).2 := by
  cases t with
  | expr e => rw [optimizeDefineStmt]; exact ⟨le_rfl, fun _ => rfl⟩
  | assign v target n e =>
    rw [optimizeDefineStmt]; exact ⟨le_rfl, fun _ => optimizeDefine_pending s v e⟩
  | ifElse v sv e tv ts t fv fs f =>
    simp only [optimizeDefineStmt, Stmt.count]
    have h1 := (optimizeDefineVisits_shrinks s t).trans (optimizeErase_shrinks _ _)
    have h2 := (optimizeDefineVisits_shrinks
      (optimizeErase (optimizeDefineVisits s t).2 (optimizeDefineVisits s t).1).2 f).trans
        (optimizeErase_shrinks _ _)
    exact h1.succ.add h2
  | «while» v sv e tv ts t fv fs f =>
    simp only [optimizeDefineStmt, Stmt.count]
    have h1 := (optimizeDefineVisits_shrinks s t).trans (optimizeErase_shrinks _ _)
    have h2 := (optimizeDefineVisits_shrinks
      (optimizeErase (optimizeDefineVisits s t).2 (optimizeDefineVisits s t).1).2 f).trans
        (optimizeErase_shrinks _ _)
    exact h1.succ.add h2
  | function v n args bv bs body =>
    simp only [optimizeDefineStmt, Stmt.count]
    exact ((optimizeDefineVisits_shrinks s body).trans (optimizeErase_shrinks _ _)).succ
  | ret v e => rw [optimizeDefineStmt]; exact ⟨le_rfl, fun _ => rfl⟩

theorem optimizeDefineVisits_shrinks (s : OptimizeState) (l : List Stmt) :
    Shrinks (Stmt.counts l) (Stmt.counts (optimizeDefineVisits s l).1) s (optimizeDefineVisits s l).2 := by
  cases l with
  | nil => rw [optimizeDefineVisits]; exact ⟨le_rfl, fun _ => rfl⟩
  | cons t ts =>
    simp only [optimizeDefineVisits, Stmt.counts]
    exact (optimizeDefineStmt_shrinks s t).add (optimizeDefineVisits_shrinks _ ts)

end

/-- A round in which expressions have been inlined leaves fewer statements. -/
theorem optimizeRound_counts (c : OptimizeContext) (l l' : List Stmt)
    (h : optimizeRound c l = some (l', true)) : Stmt.counts l' < Stmt.counts l := by
  rw [optimizeRound] at h
  obtain ⟨⟨l1, s⟩, h1, h⟩ := Option.bind_eq_some_iff.1 h
  have h2 := optimizeUseStmts_counts c _ _ _ _ h1
  have h3 := (optimizeDefineVisits_shrinks s l1).trans (optimizeErase_shrinks _ _)
  rw [optimizeRoundEnd, optimizeDefineStmts] at h
  by_cases hi : (optimizeErase (optimizeDefineVisits s l1).2
      (optimizeDefineVisits s l1).1).2.isInitial = true
  · rw [if_pos hi] at h
    simp only [Option.some.injEq, Prod.mk.injEq] at h
    obtain ⟨rfl, h5⟩ := h
    simp only [OptimizeState.isInitial, Bool.and_eq_true, List.isEmpty_iff] at hi
    have hle := h3.le
    rcases Nat.lt_or_ge (Stmt.counts (optimizeErase (optimizeDefineVisits s l1).2
      (optimizeDefineVisits s l1).1).1) (Stmt.counts l1) with hlt | hge
    · omega
    · have hp := h3.pending (by omega)
      simp only [OptimizeState.pending, hi.1.2, hi.2, List.length_nil] at hp
      have : s.inlined = [] := List.length_eq_zero_iff.1 (by omega)
      rw [this] at h5
      simp at h5
  · rw [if_neg hi] at h
    cases h

end Fern
