import Verif.Lemmas.Scope

/-!
# Scopes (C44), symbol tables (C45), scope exit guards (C54), stacks (C55)
-/

namespace Fern

/-! ### C44: scopes -/

section Scope

variable {V : Type}

/-- What is known about a scope after a history. -/
theorem scope_history (ops : List (ScopeOp V)) (s : Scope V) (h : runScope [] ops = some s) :
    (∀ n, s.value n = Spec.bound n ops.reverse) ∧ (Scope.names s).Nodup := by
  induction ops using List.reverseRecOn generalizing s with
  | nil => cases h; exact ⟨fun n => rfl, by simp [Scope.names]⟩
  | append_singleton ops op ih =>
    rw [runScope, foldlM_snoc] at h
    obtain ⟨s', hs', hop⟩ := Option.bind_eq_some_iff.1 h
    obtain ⟨i1, i2⟩ := ih s' hs'
    rw [List.reverse_append, List.reverse_singleton, List.singleton_append]
    cases op with
    | set m v =>
      cases hop
      exact ⟨fun n => by rw [Scope.setValue, Scope.value_assign, i1]; rfl, Scope.nodup_assign i2 _ _⟩
    | erase m =>
      simp only [ScopeOp.run, Scope.eraseValue] at hop
      split at hop
      · cases hop
        exact ⟨fun n => by rw [Scope.value_filter, i1]; rfl, Scope.nodup_filter i2 _⟩
      · simp at hop
    | clear =>
      cases hop
      exact ⟨fun n => rfl, by simp [Scope.names, Scope.clear]⟩

/-- Lookup: the value is the one that the most recent operation concerning the name gave it. -/
theorem C44_value (ops : List (ScopeOp V)) (s : Scope V) (h : runScope [] ops = some s) (n : Str) :
    s.value n = Spec.bound n ops.reverse :=
  (scope_history ops s h).1 n

/-- Membership. -/
theorem C44_has_value (ops : List (ScopeOp V)) (s : Scope V) (h : runScope [] ops = some s)
    (n : Str) : s.hasValue n = true ↔ Spec.bound n ops.reverse ≠ none := by
  rw [Scope.hasValue_iff, C44_value ops s h]

/-- The size is the number of bound names. -/
theorem C44_size (ops : List (ScopeOp V)) (s : Scope V) (h : runScope [] ops = some s) :
    ∃ names : List Str, names.Nodup ∧ (∀ n, n ∈ names ↔ Spec.bound n ops.reverse ≠ none) ∧
      s.size = names.length :=
  ⟨Scope.names s, (scope_history ops s h).2, fun n => by
    rw [Scope.mem_names, C44_value ops s h], by rw [Scope.names, List.length_map]; rfl⟩

/-- A history runs without failing assertion iff only bound names are erased. -/
theorem C44_possible (ops : List (ScopeOp V)) :
    (∃ s, runScope [] ops = some s) ↔ Spec.Possible ops.reverse := by
  induction ops using List.reverseRecOn with
  | nil => exact ⟨fun _ => trivial, fun _ => ⟨_, rfl⟩⟩
  | append_singleton ops op ih =>
    rw [List.reverse_append, List.reverse_singleton, List.singleton_append, runScope]
    rw [foldlM_snoc]
    change (∃ s, (runScope [] ops).bind (fun s' => op.run s') = some s) ↔ _
    cases hs : runScope [] ops with
    | none =>
      rw [hs] at ih
      have hn : ¬ Spec.Possible ops.reverse := fun hp => by simpa using ih.2 hp
      constructor
      · rintro ⟨s, h⟩; simp at h
      · intro h
        cases op with
        | set => exact absurd h hn
        | erase => exact absurd h.2 hn
        | clear => exact absurd h hn
    | some s' =>
      rw [hs] at ih
      have hp : Spec.Possible ops.reverse := ih.1 ⟨s', rfl⟩
      rw [Option.bind_some]
      cases op with
      | set => exact ⟨fun _ => hp, fun _ => ⟨_, rfl⟩⟩
      | clear => exact ⟨fun _ => hp, fun _ => ⟨_, rfl⟩⟩
      | erase n =>
        rw [Spec.Possible, ← C44_has_value ops s' hs, ScopeOp.run, Scope.eraseValue]
        constructor
        · rintro ⟨s, h⟩
          split at h
          · rename_i hv; exact ⟨hv, hp⟩
          · simp at h
        · rintro ⟨hv, -⟩
          exact ⟨_, by rw [if_pos hv]⟩

example : ∃ s, runScope ([] : Scope ℕ) [.set ['a'] 1, .set ['b'] 2, .set ['a'] 3, .erase ['b']] = some s ∧
    s.value ['a'] = some 3 ∧ s.value ['b'] = none ∧ s.size = 1 :=
  ⟨_, rfl, by decide, by decide, by decide⟩

end Scope

/-! ### C45: symbol tables -/

section SymbolTable

variable {V : Type}

/-- Lookup: the value most recently added for the name in the innermost open scope that has one. -/
theorem C45_value (ops : List (TableOp V)) (t : SymbolTable V) (h : runTable [] ops = some t)
    (n : Str) : t.value n = Spec.visible n ops.reverse 0 false := by
  rw [SymbolTable.visible_eq n ops t h]
  rfl

theorem C45_has_value (ops : List (TableOp V)) (t : SymbolTable V) (h : runTable [] ops = some t)
    (n : Str) : t.hasValue n = true ↔ Spec.visible n ops.reverse 0 false ≠ none := by
  rw [SymbolTable.hasValue_iff, C45_value ops t h]

/-- Closing a scope restores the table as it was before the scope was opened, whatever happened
inside, and from whatever state. -/
theorem C45_restore (t u : SymbolTable V) (ops : List (TableOp V)) (hi : Spec.Inside ops)
    (h : runTable t (.push :: ops ++ [.pop]) = some u) : u = t := by
  rw [runTable, foldlM_snoc] at h
  obtain ⟨w, hw, hp⟩ := Option.bind_eq_some_iff.1 h
  change runTable ([] :: t) ops = some w at hw
  obtain ⟨s, rfl⟩ := SymbolTable.inside_run ops hi [] t w hw
  cases hp
  rfl

example : ∃ t : SymbolTable ℕ, runTable [[(['a'], 1)]]
      (.push :: [.add ['a'] 2, .push, .add ['b'] 3, .pop, .clear] ++ [.pop]) = some t ∧
    Spec.Inside ([.add ['a'] 2, .push, .add ['b'] 3, .pop, .clear] : List (TableOp ℕ)) :=
  ⟨_, rfl, .add _ _ _ (.nested [.add ['b'] 3] [.clear] (.add _ _ _ .nil) (.clear _ .nil))⟩

/-- The scope level is the number of scopes opened and not closed. -/
theorem C45_level (ops : List (TableOp V)) (t : SymbolTable V) (h : runTable [] ops = some t) :
    t.scopeLevel + ops.countP (fun o => match o with | .pop => true | _ => false) =
      ops.countP (fun o => match o with | .push => true | _ => false) := by
  induction ops using List.reverseRecOn generalizing t with
  | nil => cases h; rfl
  | append_singleton ops op ih =>
    rw [runTable, foldlM_snoc] at h
    obtain ⟨t', ht', hop⟩ := Option.bind_eq_some_iff.1 h
    have ih := ih t' ht'
    rw [List.countP_append, List.countP_append, List.countP_singleton, List.countP_singleton]
    simp only [SymbolTable.scopeLevel] at *
    cases op with
    | push =>
      cases hop
      simp only [SymbolTable.pushScope, List.length_cons, if_true, Bool.false_eq_true, if_false]
      omega
    | pop =>
      cases t' with
      | nil => simp [TableOp.run, SymbolTable.popScope] at hop
      | cons s t' =>
        cases hop
        simp only [List.length_cons, if_true, Bool.false_eq_true, if_false] at *
        omega
    | clear =>
      cases t' with
      | nil => simp [TableOp.run, SymbolTable.clearScope] at hop
      | cons s t' =>
        cases hop
        simpa using ih
    | add n v =>
      cases t' with
      | nil => simp [TableOp.run, SymbolTable.addValue] at hop
      | cons s t' =>
        cases hop
        simpa using ih
    | erase n =>
      cases t' with
      | nil => simp [TableOp.run, SymbolTable.eraseValue] at hop
      | cons s t' =>
        simp only [TableOp.run, SymbolTable.eraseValue, Option.map_eq_some_iff] at hop
        obtain ⟨s', -, rfl⟩ := hop
        simpa using ih

/-- The level of a name is that of the innermost scope that has it: the scope at that level has the
visible value, and no scope at a higher level has the name. -/
theorem C45_level_of (t : SymbolTable V) (n : Str) :
    (t.scopeLevelOf n = none ↔ t.value n = none) ∧
    ∀ l, t.scopeLevelOf n = some l → 0 < l ∧ l ≤ t.scopeLevel ∧
      (∃ s, t.scope l = some s ∧ s.value n = t.value n ∧ s.hasValue n = true) ∧
      ∀ l' s, l < l' → t.scope l' = some s → s.hasValue n = false := by
  constructor
  · rw [SymbolTable.scopeLevelOf]
    by_cases h : t.hasValue n = true
    · rw [if_pos h]
      rw [SymbolTable.hasValue_iff] at h
      simp [h]
    · rw [if_neg h]
      rw [SymbolTable.hasValue_iff, not_not] at h
      simp [h]
  · induction t with
    | nil => intro l h; simp [SymbolTable.scopeLevelOf, SymbolTable.hasValue] at h
    | cons s t ih =>
      intro l h
      rw [SymbolTable.scopeLevelOf] at h
      split at h
      swap
      · simp at h
      rename_i hv
      cases h
      rw [SymbolTable.levelLoop]
      by_cases hs : s.hasValue n = true
      · rw [if_pos hs]
        refine ⟨by omega, by simp [SymbolTable.scopeLevel], ⟨s, ?_, ?_, hs⟩, ?_⟩
        · simp [SymbolTable.scope]
        · rw [SymbolTable.value_cons]
          rw [Scope.hasValue_iff] at hs
          cases hn : s.value n with
          | none => exact absurd hn hs
          | some v => rfl
        · intro l' s' hl h
          rw [SymbolTable.scope, if_neg (by rw [List.length_cons]; omega)] at h
          simp at h
      · rw [if_neg hs]
        have ht : SymbolTable.hasValue t n = true := by
          rw [SymbolTable.hasValue, List.any_cons, Bool.or_eq_true] at hv
          rcases hv with h | h
          · exact absurd h hs
          · exact h
        obtain ⟨h1, h2, ⟨s', h3, h4, h5⟩, h6⟩ := ih (SymbolTable.levelLoop t n) (by
          rw [SymbolTable.scopeLevelOf, if_pos ht])
        rw [SymbolTable.scopeLevel] at h2
        have up : ∀ l, l ≤ t.length → SymbolTable.scope (s :: t) l = SymbolTable.scope t l := by
          intro l hl
          rw [SymbolTable.scope, SymbolTable.scope]
          by_cases h0 : l > 0
          · rw [if_pos ⟨by rw [List.length_cons]; omega, h0⟩, if_pos ⟨hl, h0⟩, List.length_cons,
              show t.length + 1 - l = (t.length - l) + 1 from by omega, List.getElem?_cons_succ]
          · rw [if_neg (by omega), if_neg (by omega)]
        refine ⟨h1, by rw [SymbolTable.scopeLevel, List.length_cons]; omega,
          ⟨s', by rw [up _ h2]; exact h3, ?_, h5⟩, ?_⟩
        · rw [SymbolTable.value_cons, h4]
          rw [Scope.hasValue_iff, not_not] at hs
          rw [hs]
          rfl
        · intro l' s'' hl h
          by_cases hl' : l' ≤ t.length
          · rw [up _ hl'] at h
            exact h6 l' s'' hl h
          · rw [SymbolTable.scope] at h
            split at h
            · rename_i hc
              rw [List.length_cons] at hc h
              have : t.length + 1 - l' = 0 := by omega
              rw [this] at h
              cases h
              simpa using hs
            · simp at h

/-- A table is empty iff no name has a value. -/
theorem C45_empty (t : SymbolTable V) : t.empty = true ↔ ∀ n, t.value n = none := by
  rw [SymbolTable.empty, beq_iff_eq, SymbolTable.size]
  induction t with
  | nil => simp [SymbolTable.value_nil]
  | cons s t ih =>
    rw [List.map_cons, List.sum_cons, Nat.add_eq_zero_iff, ih]
    constructor
    · rintro ⟨h1, h2⟩ n
      have : s = [] := List.length_eq_zero_iff.1 h1
      rw [SymbolTable.value_cons, h2, this]
      rfl
    · intro h
      constructor
      · cases s with
        | nil => rfl
        | cons e s =>
          have := h e.1
          rw [SymbolTable.value_cons, Scope.value_cons] at this
          simp at this
      · intro n
        have := h n
        rw [SymbolTable.value_cons] at this
        cases hs : s.value n with
        | none => rw [hs] at this; exact this
        | some v => rw [hs] at this; simp at this

example : ∃ t : SymbolTable ℕ, runTable [] [.push, .add ['a'] 1, .push, .add ['a'] 2, .push,
      .add ['b'] 3, .pop] = some t ∧ t.value ['a'] = some 2 ∧ t.value ['b'] = none ∧
      t.scopeLevelOf ['a'] = some 2 ∧ t.size = 2 :=
  ⟨_, rfl, by decide, by decide, by decide, by decide⟩

end SymbolTable

/-! ### C54: scope exit guards -/

/-- After any possible sequence of creations, releases, moves and destructions, the action has been
called by a guard once if the guard has been destroyed and neither it nor (before the move) the
guard it was moved from was released, and not at all otherwise. -/
theorem C54_calls (ops : List GuardOp) (s : GuardState) (h : runGuards ops = some s) (id a : ℕ) :
    s.calls.count (id, a) =
      if .destroy id ∈ ops ∧ Spec.released id ops.reverse = false ∧
        Spec.actionOf id ops.reverse = some a then 1 else 0 := by
  have hv := guard_invariant ops s h id
  rw [guardView] at hv
  generalize hu : decide (id ∈ s.used) = u at hv
  generalize hl : s.live id = l at hv
  generalize hd : decide (GuardOp.destroy id ∈ ops) = d at hv
  generalize hr : Spec.released id ops.reverse = r at hv
  generalize ha : Spec.actionOf id ops.reverse = ac at hv
  generalize hc : (fun a => s.calls.count (id, a)) = cnt at hv
  have hc' : s.calls.count (id, a) = cnt a := by rw [← hc]
  rw [hc']
  cases hv with
  | unused _ _ h =>
    rw [decide_eq_false_iff_not] at hd
    rw [h, if_neg (fun k => hd k.1)]
  | live _ _ _ _ h =>
    rw [decide_eq_false_iff_not] at hd
    rw [h, if_neg (fun k => hd k.1)]
  | dead r b _ h =>
    rw [decide_eq_true_iff] at hd
    rw [h]
    simp only [hd, true_and, Option.some.injEq, eq_comm]

/-- Without moves: a guard that is not released calls its action exactly once when it is destroyed,
a released guard never. -/
theorem C54_once (ops : List GuardOp) (s : GuardState) (h : runGuards ops = some s)
    (hm : ∀ i j, .move i j ∉ ops) (id a : ℕ) (hc : .create id a ∈ ops) (hd : .destroy id ∈ ops) :
    s.calls.count (id, a) = if .release id ∈ ops then 0 else 1 := by
  have hrel : ∀ h : List GuardOp, (∀ i j, .move i j ∉ h) →
      (Spec.released id h = true ↔ .release id ∈ h) := by
    intro h hm
    induction h with
    | nil => simp [Spec.released]
    | cons o h ih =>
      have ih := ih (fun i j hh => hm i j (by simp [hh]))
      cases o with
      | create => simpa [Spec.released] using ih
      | destroy => simpa [Spec.released] using ih
      | move i j => exact absurd (by simp) (hm i j)
      | release i =>
        rw [Spec.released, Bool.or_eq_true, ih]
        simp only [decide_eq_true_eq, beq_iff_eq, List.mem_cons, GuardOp.release.injEq]
        rw [@eq_comm _ id i]
  have hact : ∀ h : List GuardOp, (∀ i j, .move i j ∉ h) → .create id a ∈ h →
      Spec.actionOf id h ≠ none := by
    intro h hm hc
    induction h with
    | nil => simp at hc
    | cons o h ih =>
      have hm' : ∀ i j, GuardOp.move i j ∉ h := fun i j hh => hm i j (by simp [hh])
      cases o with
      | create i b =>
        rw [Spec.actionOf]
        by_cases hi : i = id
        · simp [hi]
        · rw [if_neg hi]
          refine ih hm' ?_
          rcases List.mem_cons.1 hc with e | e
          · injection e with e1 e2
            exact absurd e1.symm hi
          · exact e
      | destroy => exact ih hm' (by simpa using hc)
      | move i j => exact absurd (by simp) (hm i j)
      | release i => exact ih hm' (by simpa using hc)
  -- the identity is created only once
  have huniq : Spec.actionOf id ops.reverse = some a := by
    clear hd
    induction ops using List.reverseRecOn generalizing s with
    | nil => simp at hc
    | append_singleton ops op ih =>
      rw [runGuards, foldlM_snoc] at h
      obtain ⟨s', hs', hop⟩ := Option.bind_eq_some_iff.1 h
      have hm' : ∀ i j, GuardOp.move i j ∉ ops := fun i j hh => hm i j (by simp [hh])
      have ih := ih s' hs' hm'
      rw [List.reverse_append, List.reverse_singleton, List.singleton_append]
      cases op with
      | create i b =>
        rw [Spec.actionOf]
        by_cases hi : i = id
        · subst hi
          rw [if_pos rfl]
          rcases List.mem_append.1 hc with e | e
          · exfalso
            simp only [GuardOp.run] at hop
            split at hop
            · simp at hop
            rename_i hu
            have hv := guard_invariant ops s' hs' i
            rw [guardView] at hv
            have ha := hact ops.reverse (fun i j hh => hm' i j (by simpa using hh)) (by simpa using e)
            have ih := ih e
            -- an identity that has an action is in use
            exact hu (used_of_create ops s' hs' i a e)
          · simp only [List.mem_singleton, GuardOp.create.injEq, true_and] at e
            rw [e]
        · rw [if_neg hi]
          refine ih ?_
          rcases List.mem_append.1 hc with e | e
          · exact e
          · simp only [List.mem_singleton, GuardOp.create.injEq] at e
            exact absurd e.1.symm hi
      | destroy => exact ih (by simpa using hc)
      | move i j => exact absurd (by simp) (hm i j)
      | release i => exact ih (by simpa using hc)
  have hr := hrel ops.reverse (fun i j hh => hm i j (by simpa using hh))
  rw [List.mem_reverse] at hr
  rw [C54_calls ops s h, huniq]
  by_cases hrl : GuardOp.release id ∈ ops
  · rw [if_neg (by rw [hr.2 hrl]; simp), if_pos hrl]
  · have : Spec.released id ops.reverse = false := by
      rw [Bool.eq_false_iff, ne_eq, hr]; exact hrl
    rw [if_pos ⟨hd, this, rfl⟩, if_neg hrl]
where
  used_mono (op : GuardOp) (s s' : GuardState) (h : op.run s = some s') (i : ℕ) (hi : i ∈ s.used) :
      i ∈ s'.used := by
    cases op <;> simp only [GuardOp.run] at h <;> repeat' split at h
    all_goals first
      | (cases h; simp [hi])
      | simp at h
  used_of_create (ops : List GuardOp) (s : GuardState) (h : runGuards ops = some s) (i a : ℕ)
      (hc : .create i a ∈ ops) : i ∈ s.used := by
    induction ops using List.reverseRecOn generalizing s with
    | nil => simp at hc
    | append_singleton ops op ih =>
      rw [runGuards, foldlM_snoc] at h
      obtain ⟨s', hs', hop⟩ := Option.bind_eq_some_iff.1 h
      rcases List.mem_append.1 hc with e | e
      · exact used_mono op s' s hop i (ih s' hs' e)
      · rw [List.mem_singleton] at e
        subst e
        simp only [GuardOp.run] at hop
        split at hop
        · simp at hop
        · cases hop; simp

example : ∃ s, runGuards [.create 0 7, .create 1 8, .release 1, .destroy 1, .destroy 0] = some s ∧
    s.calls = [(0, 7)] := ⟨_, rfl, rfl⟩

/-- Moving makes the action run twice: the guard moved from still runs it. -/
theorem C54_move_twice : ∃ s, runGuards [.create 0 7, .move 0 1, .destroy 0, .destroy 1] = some s ∧
    s.calls = [(1, 7), (0, 7)] := ⟨_, rfl, rfl⟩

/-- In general: a guard moved from and the one moved to, both destroyed and none released, each run
the action. -/
theorem C54_moved (ops : List GuardOp) (s : GuardState) (h : runGuards ops = some s) (i j a : ℕ)
    (hi : .destroy i ∈ ops) (hj : .destroy j ∈ ops)
    (ri : Spec.released i ops.reverse = false) (rj : Spec.released j ops.reverse = false)
    (ai : Spec.actionOf i ops.reverse = some a) (aj : Spec.actionOf j ops.reverse = some a) :
    s.calls.count (i, a) = 1 ∧ s.calls.count (j, a) = 1 := by
  rw [C54_calls ops s h, C54_calls ops s h, if_pos ⟨hi, ri, ai⟩, if_pos ⟨hj, rj, aj⟩]
  exact ⟨rfl, rfl⟩

/-! ### C55: stacks -/

section Stack

variable {τ : Type} {val : τ → Type}

/-- The top is the most recently pushed value that has not been popped; reading it as its own type
gives it, as another type is reported; there is no top (undefined behaviour) iff everything pushed
has been popped. -/
theorem C55_top [DecidableEq τ] (ops : List (StackOp τ val)) (s : AnyStack τ val)
    (h : runStack [] ops = some s) (t : τ) :
    (∀ t' (v : val t'), Spec.lastPushed ops.reverse 0 = some ⟨t', v⟩ →
      (∀ e : t' = t, s.top t = .value (e ▸ v)) ∧ (t' ≠ t → s.top t = .badCast)) ∧
    (s.top t = .undefined ↔ Spec.lastPushed ops.reverse 0 = none) := by
  rw [lastPushed_eq ops s h]
  cases s with
  | nil =>
    refine ⟨fun t' v h => by simp at h, ?_⟩
    simp [AnyStack.top]
  | cons x s =>
    obtain ⟨t₀, v₀⟩ := x
    refine ⟨?_, ?_⟩
    · intro t' v hv
      simp only [List.getElem?_cons_zero, Option.some.injEq] at hv
      injection hv with h1 h2
      subst h1
      cases h2
      refine ⟨?_, ?_⟩
      · rintro rfl; simp [AnyStack.top]
      · intro hne; simp [AnyStack.top, hne]
    · simp only [List.getElem?_cons_zero, reduceCtorEq, iff_false, AnyStack.top]
      split <;> simp

/-- All values below the top are those pushed and not popped, in order: popping after pushing
restores the stack. -/
theorem C55_contents (ops : List (StackOp τ val)) (s : AnyStack τ val)
    (h : runStack [] ops = some s) (k : ℕ) : s[k]? = Spec.lastPushed ops.reverse k :=
  (lastPushed_eq ops s h k).symm

theorem C55_push_pop (s : AnyStack τ val) (t : τ) (v : val t) : (s.push t v).pop = some s := rfl

/-- Sizes: pushes minus pops; a sequence is possible iff no prefix has more pops than pushes. -/
theorem C55_size (ops : List (StackOp τ val)) :
    (∀ s, runStack [] ops = some s →
      s.size + ops.countP (fun o => match o with | .pop => true | _ => false) =
        ops.countP (fun o => match o with | .push _ _ => true | _ => false)) ∧
    ((∃ s, runStack [] ops = some s) ↔ ∀ k ≤ ops.length,
      (ops.take k).countP (fun o => match o with | .pop => true | _ => false) ≤
        (ops.take k).countP (fun o => match o with | .push _ _ => true | _ => false)) := by
  induction ops using List.reverseRecOn with
  | nil =>
    refine ⟨fun s h => by cases h; rfl, fun _ k _ => by simp, fun _ => ⟨[], rfl⟩⟩
  | append_singleton ops op ih =>
    obtain ⟨i1, i2⟩ := ih
    have hrun : runStack [] (ops ++ [op]) = (runStack [] ops).bind fun s => op.run s := by
      rw [runStack, foldlM_snoc]; rfl
    constructor
    · intro s h
      rw [hrun] at h
      obtain ⟨s', hs', hop⟩ := Option.bind_eq_some_iff.1 h
      have i1 := i1 s' hs'
      rw [List.countP_append, List.countP_append, List.countP_singleton, List.countP_singleton]
      cases op with
      | push t v =>
        cases hop
        simp only [AnyStack.size, AnyStack.push, List.length_cons, if_true, Bool.false_eq_true,
          if_false] at *
        omega
      | pop =>
        cases s' with
        | nil => simp [StackOp.run, AnyStack.pop] at hop
        | cons x s' =>
          cases hop
          simp only [AnyStack.size, List.length_cons, if_true, Bool.false_eq_true, if_false] at *
          omega
    · rw [hrun]
      constructor
      · rintro ⟨s, h⟩ k hk
        obtain ⟨s', hs', hop⟩ := Option.bind_eq_some_iff.1 h
        rw [List.length_append, List.length_singleton] at hk
        by_cases hk' : k ≤ ops.length
        · rw [List.take_append_of_le_length hk']
          exact i2.1 ⟨s', hs'⟩ k hk'
        · have : k = ops.length + 1 := by omega
          subst this
          have i1 := i1 s' hs'
          rw [List.take_of_length_le (by simp), List.countP_append, List.countP_append,
            List.countP_singleton, List.countP_singleton]
          cases op with
          | push t v => simp only [if_true, Bool.false_eq_true, if_false]; omega
          | pop =>
            cases s' with
            | nil => simp [StackOp.run, AnyStack.pop] at hop
            | cons x s' =>
              simp only [AnyStack.size, List.length_cons, if_true, Bool.false_eq_true, if_false] at *
              omega
      · intro h
        have hp := i2.2 (fun k hk => by
          have := h k (by rw [List.length_append]; omega)
          rwa [List.take_append_of_le_length hk] at this)
        obtain ⟨s', hs'⟩ := hp
        rw [hs', Option.bind_some]
        cases op with
        | push t v => exact ⟨_, rfl⟩
        | pop =>
          cases s' with
          | cons x s' => exact ⟨s', rfl⟩
          | nil =>
            exfalso
            have i1 := i1 [] hs'
            have := h (ops.length + 1) (by simp)
            rw [List.take_of_length_le (by simp), List.countP_append, List.countP_append,
              List.countP_singleton, List.countP_singleton] at this
            simp only [AnyStack.size, List.length_nil, if_true, Bool.false_eq_true, if_false] at *
            omega

/-- Reading does not change the stack: `top` is a constant member function, the model has no new
stack as its result. A concrete history with values of two types. -/
example : ∃ s, runStack (τ := Bool) (val := fun b => if b then ℕ else String) []
      [.push true (5 : ℕ), .push false "x", .pop] = some s ∧
    s.top true = .value (5 : ℕ) ∧ s.top false = .badCast := ⟨_, rfl, rfl, rfl⟩

end Stack

end Fern
