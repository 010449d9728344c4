import Verif.Spec.Scope
import Mathlib.Data.List.Nodup

/-!
# Lemmas about scopes, symbol tables, stacks and guards
-/

namespace Fern

theorem foldlM_snoc {σ α : Type} (f : σ → α → Option σ) (s : σ) (l : List α) (x : α) :
    (l ++ [x]).foldlM f s = (l.foldlM f s).bind fun s' => f s' x := by
  rw [List.foldlM_append]
  cases l.foldlM f s with
  | none => rfl
  | some s' =>
    rw [Option.bind_eq_bind, Option.bind_some, Option.bind_some, List.foldlM_cons]
    cases f s' x <;> rfl

namespace Scope

variable {V : Type}

theorem value_nil (m : Str) : value ([] : Scope V) m = none := rfl

theorem value_cons (n : Str) (v : V) (s : Scope V) (m : Str) :
    value ((n, v) :: s) m = if n = m then some v else value s m := by
  rw [value, List.find?_cons]
  by_cases h : n = m
  · subst h
    simp
  · have : (n == m) = false := by rwa [beq_eq_false_iff_ne]
    simp [this, h, value]

theorem hasValue_iff (s : Scope V) (m : Str) : s.hasValue m = true ↔ s.value m ≠ none := by
  induction s with
  | nil => simp [hasValue, value_nil]
  | cons e s ih =>
    obtain ⟨n, v⟩ := e
    rw [value_cons, hasValue, List.any_cons, Bool.or_eq_true, ← hasValue, ih, beq_iff_eq]
    by_cases h : n = m
    · simp [h]
    · simp [h]

theorem value_assign (s : Scope V) (n : Str) (v : V) (m : Str) :
    value (assign s n v) m = if n = m then some v else value s m := by
  induction s with
  | nil => rw [assign, value_cons]
  | cons e s ih =>
    obtain ⟨k, w⟩ := e
    rw [assign]
    by_cases h : k = n
    · subst h
      rw [if_pos (by simp), value_cons, value_cons]
      by_cases hm : k = m
      · simp [hm]
      · simp [hm]
    · rw [if_neg (by simpa using h), value_cons, ih, value_cons]
      by_cases hm : k = m
      · subst hm
        have : ¬ n = k := fun e => h e.symm
        simp [this]
      · simp [hm]

theorem value_filter (s : Scope V) (n m : Str) :
    value (s.filter fun e => !(e.1 == n)) m = if n = m then none else value s m := by
  induction s with
  | nil => simp [value_nil]
  | cons e s ih =>
    obtain ⟨k, w⟩ := e
    by_cases h : k = n
    · subst h
      rw [List.filter_cons_of_neg (by simp), ih, value_cons]
      by_cases hm : k = m <;> simp [hm]
    · rw [List.filter_cons_of_pos (by simpa using h), value_cons, ih, value_cons]
      by_cases hm : k = m
      · subst hm
        have : ¬ n = k := fun e => h e.symm
        simp [this]
      · simp [hm]

/-- The names of the entries. -/
def names (s : Scope V) : List Str := s.map (·.1)

theorem mem_names (s : Scope V) (m : Str) : m ∈ names s ↔ s.value m ≠ none := by
  induction s with
  | nil => simp [names, value_nil]
  | cons e s ih =>
    obtain ⟨n, v⟩ := e
    rw [value_cons, names, List.map_cons, List.mem_cons, ← names, ih]
    by_cases h : n = m
    · simp [h]
    · have : ¬ m = n := fun e => h e.symm
      simp [h, this]

theorem names_assign (s : Scope V) (n : Str) (v : V) :
    names (assign s n v) = if n ∈ names s then names s else names s ++ [n] := by
  induction s with
  | nil => simp [assign, names]
  | cons e s ih =>
    obtain ⟨k, w⟩ := e
    rw [assign]
    by_cases h : k = n
    · subst h
      simp [names]
    · rw [if_neg (by simpa using h)]
      have hn : ¬ n = k := fun e => h e.symm
      change k :: names (assign s n v) = if n ∈ k :: names s then k :: names s
        else k :: names s ++ [n]
      rw [ih]
      by_cases hm : n ∈ names s
      · simp [hm]
      · simp [hm, hn]

theorem nodup_assign {s : Scope V} (h : (names s).Nodup) (n : Str) (v : V) :
    (names (assign s n v)).Nodup := by
  rw [names_assign]
  split
  · exact h
  · rename_i hm
    rw [List.nodup_append]
    refine ⟨h, by simp, ?_⟩
    intro a ha b hb
    rw [List.mem_singleton] at hb
    subst hb
    rintro rfl
    exact hm ha

theorem nodup_filter {s : Scope V} (h : (names s).Nodup) (p : Str × V → Bool) :
    (names (s.filter p)).Nodup := by
  rw [names]
  exact List.Nodup.sublist ((List.filter_sublist).map _) h

end Scope

/-! ### Symbol tables -/

namespace SymbolTable

variable {V : Type}

theorem value_nil (m : Str) : value ([] : SymbolTable V) m = none := rfl

theorem value_cons (s : Scope V) (t : SymbolTable V) (m : Str) :
    value (s :: t) m = (s.value m).or (value t m) := by
  rw [value]
  by_cases h : s.hasValue m = true
  · rw [if_pos h]
    rw [Scope.hasValue_iff] at h
    cases hv : s.value m with
    | none => exact absurd hv h
    | some v => rfl
  · rw [if_neg h]
    rw [Scope.hasValue_iff, not_not] at h
    rw [h]
    rfl

theorem hasValue_iff (t : SymbolTable V) (m : Str) : t.hasValue m = true ↔ t.value m ≠ none := by
  induction t with
  | nil => simp [hasValue, value_nil]
  | cons s t ih =>
    rw [value_cons, hasValue, List.any_cons, Bool.or_eq_true, ← hasValue, ih, Scope.hasValue_iff]
    cases s.value m <;> simp

theorem visible_eq (name : Str) (ops : List (TableOp V)) (t : SymbolTable V)
    (h : runTable [] ops = some t) (k : ℕ) (g : Bool) :
    Spec.visible name ops.reverse k g = value (t.drop (if g then k + 1 else k)) name := by
  induction ops using List.reverseRecOn generalizing t k g with
  | nil =>
    cases h
    rw [List.drop_nil]
    rfl
  | append_singleton ops op ih =>
    rw [runTable, foldlM_snoc] at h
    obtain ⟨t', ht', hop⟩ := Option.bind_eq_some_iff.1 h
    have ih := ih t' ht'
    rw [List.reverse_append, List.reverse_singleton, List.singleton_append]
    cases op with
    | push =>
      cases hop
      cases k with
      | zero =>
        rw [Spec.visible, ih]
        cases g with
        | true => rfl
        | false => change _ = value ([] :: t') name; rw [value_cons]; rfl
      | succ k =>
        rw [Spec.visible, ih]
        cases g <;> rfl
    | pop =>
      cases t' with
      | nil => simp [TableOp.run, popScope] at hop
      | cons s t' =>
        cases hop
        rw [Spec.visible, ih]
        cases g <;> rfl
    | clear =>
      cases t' with
      | nil => simp [TableOp.run, clearScope] at hop
      | cons s t' =>
        cases hop
        cases k with
        | zero =>
          rw [Spec.visible, ih]
          cases g with
          | true => rfl
          | false => change _ = value ([] :: t') name; rw [value_cons]; rfl
        | succ k =>
          rw [Spec.visible, ih]
          cases g <;> rfl
    | add n v =>
      cases t' with
      | nil => simp [TableOp.run, addValue] at hop
      | cons s t' =>
        cases hop
        cases k with
        | zero =>
          cases g with
          | true => rw [Spec.visible, ih]; rfl
          | false =>
            rw [Spec.visible, ih]
            change _ = value (s.assign n v :: t') name
            rw [value_cons, Scope.value_assign]
            change (if n = name then some v else value (s :: t') name) = _
            rw [value_cons]
            by_cases hn : n = name <;> simp [hn]
        | succ k =>
          rw [Spec.visible, ih]
          cases g <;> rfl
    | erase n =>
      cases t' with
      | nil => simp [TableOp.run, eraseValue] at hop
      | cons s t' =>
        simp only [TableOp.run, eraseValue, Scope.eraseValue] at hop
        split at hop
        · cases hop
          cases k with
          | zero =>
            rw [Spec.visible, ih]
            cases g with
            | true => rfl
            | false =>
              change _ = value (s.filter (fun e => !(e.1 == n)) :: t') name
              rw [value_cons, Scope.value_filter, Bool.false_or]
              by_cases hn : n = name
              · simp [hn]
              · simp [hn, value_cons]
          | succ k =>
            rw [Spec.visible, ih]
            cases g <;> rfl
        · simp at hop

theorem inside_run (ops : List (TableOp V)) (hi : Spec.Inside ops) (s : Scope V)
    (t u : SymbolTable V) (h : runTable (s :: t) ops = some u) : ∃ s', u = s' :: t := by
  induction hi generalizing s t u with
  | nil => cases h; exact ⟨s, rfl⟩
  | clear ops _ ih => exact ih _ _ _ h
  | add n v ops _ ih => exact ih _ _ _ h
  | erase n ops _ ih =>
    rw [runTable, List.foldlM_cons] at h
    obtain ⟨w, hw, h⟩ := Option.bind_eq_some_iff.1 h
    simp only [TableOp.run, eraseValue, Option.map_eq_some_iff] at hw
    obtain ⟨s', -, rfl⟩ := hw
    exact ih _ _ _ h
  | nested h₁ h₂ _ _ ih₁ ih₂ =>
    rw [runTable, List.cons_append, List.foldlM_cons] at h
    change ((h₁ ++ TableOp.pop :: h₂).foldlM TableOp.run ([] :: s :: t)) = some u at h
    rw [List.foldlM_append] at h
    obtain ⟨w, hw, h⟩ := Option.bind_eq_some_iff.1 h
    obtain ⟨s', rfl⟩ := ih₁ _ _ _ hw
    exact ih₂ _ _ _ h

end SymbolTable

/-! ### Stacks -/

theorem lastPushed_eq {τ : Type} {val : τ → Type} (ops : List (StackOp τ val)) (s : AnyStack τ val)
    (h : runStack [] ops = some s) (k : ℕ) : Spec.lastPushed ops.reverse k = s[k]? := by
  induction ops using List.reverseRecOn generalizing s k with
  | nil => cases h; rfl
  | append_singleton ops op ih =>
    rw [runStack, foldlM_snoc] at h
    obtain ⟨s', hs', hop⟩ := Option.bind_eq_some_iff.1 h
    have ih := ih s' hs'
    rw [List.reverse_append, List.reverse_singleton, List.singleton_append]
    cases op with
    | push t v =>
      cases hop
      cases k with
      | zero => rfl
      | succ k => rw [Spec.lastPushed, ih]; rfl
    | pop =>
      cases s' with
      | nil => simp [StackOp.run, AnyStack.pop] at hop
      | cons x s' =>
        cases hop
        rw [Spec.lastPushed, ih]
        rfl

/-! ### Guards -/

/-- What the state tells about the history of one guard: it has not been made yet, it exists, or it
has been destroyed. -/
inductive GuardView : (used : Bool) → (live : Option Guard) → (destroyed rel : Bool) →
    (act : Option ℕ) → (count : ℕ → ℕ) → Prop
  | unused (act : Option ℕ) (count : ℕ → ℕ) (h : ∀ a, count a = 0) :
      GuardView false none false false act count
  | live (g : Guard) (rel : Bool) (count : ℕ → ℕ) (hg : g.execute = !rel) (h : ∀ a, count a = 0) :
      GuardView true (some g) false rel (some g.action) count
  | dead (rel : Bool) (a : ℕ) (count : ℕ → ℕ)
      (h : ∀ b, count b = if rel = false ∧ b = a then 1 else 0) :
      GuardView true none true rel (some a) count

/-- The view of a guard after a history. -/
def guardView (ops : List GuardOp) (s : GuardState) (id : ℕ) : Prop :=
  GuardView (decide (id ∈ s.used)) (s.live id) (decide (GuardOp.destroy id ∈ ops))
    (Spec.released id ops.reverse) (Spec.actionOf id ops.reverse) (fun a => s.calls.count (id, a))

theorem guard_invariant (ops : List GuardOp) (s : GuardState) (h : runGuards ops = some s)
    (id : ℕ) : guardView ops s id := by
  induction ops using List.reverseRecOn generalizing s id with
  | nil =>
    cases h
    exact .unused _ _ (fun a => rfl)
  | append_singleton ops op ih =>
    rw [runGuards, foldlM_snoc] at h
    obtain ⟨s', hs', hop⟩ := Option.bind_eq_some_iff.1 h
    have ih := ih s' hs'
    have hr : (ops ++ [op]).reverse = op :: ops.reverse := by simp
    cases op with
    | create i action =>
      simp only [GuardOp.run] at hop
      split at hop
      · simp at hop
      rename_i hu
      cases hop
      have hi := ih id
      rw [guardView, hr]
      rw [guardView] at hi
      by_cases hj : id = i
      · subst hj
        simp only [hu, decide_false] at hi
        simp only [List.mem_cons, true_or, decide_true, Function.update_self, List.mem_append,
          reduceCtorEq, List.not_mem_nil, or_false, Spec.released, Spec.actionOf, if_true]
        generalize Spec.released id ops.reverse = r at *
        generalize decide (GuardOp.destroy id ∈ ops) = d at *
        generalize s'.live id = l at *
        cases hi with
        | unused _ _ h => exact .live ⟨action, true⟩ false _ rfl h
      · have hj' : ¬ i = id := fun e => hj e.symm
        simpa only [List.mem_cons, hj, false_or, Function.update_of_ne hj, List.mem_append,
          reduceCtorEq, List.not_mem_nil, or_false, Spec.released, Spec.actionOf, hj', if_false,
          ne_eq, not_false_eq_true, Function.update_of_ne] using hi
    | release i =>
      simp only [GuardOp.run] at hop
      split at hop
      · simp at hop
      rename_i g hg
      cases hop
      have hi := ih id
      rw [guardView, hr]
      rw [guardView] at hi
      by_cases hj : id = i
      · subst hj
        rw [hg] at hi
        simp only [Function.update_self, List.mem_append, List.mem_cons,
          reduceCtorEq, List.not_mem_nil, or_false, Spec.released, Spec.actionOf, BEq.rfl,
          Bool.true_or]
        generalize Spec.released id ops.reverse = r at *
        generalize Spec.actionOf id ops.reverse = ac at *
        generalize decide (GuardOp.destroy id ∈ ops) = d at *
        generalize decide (id ∈ s'.used) = u at *
        cases hi with
        | live _ _ _ _ h => exact .live ⟨g.action, false⟩ true _ rfl h
      · have hj' : ¬ i = id := fun e => hj e.symm
        have hb : (i == id) = false := by rwa [beq_eq_false_iff_ne]
        simpa only [Function.update_of_ne hj, List.mem_append, List.mem_cons, hb, Bool.false_or,
          reduceCtorEq, List.not_mem_nil, or_false, Spec.released, Spec.actionOf,
          ne_eq, not_false_eq_true, Function.update_of_ne, hj] using hi
    | move source i =>
      simp only [GuardOp.run] at hop
      split at hop
      · simp at hop
      rename_i g hg
      split at hop
      · simp at hop
      rename_i hu
      cases hop
      have hi := ih id
      rw [guardView, hr]
      rw [guardView] at hi
      by_cases hj : id = i
      · subst hj
        have hs := ih source
        rw [guardView, hg] at hs
        simp only [hu, decide_false] at hi
        simp only [List.mem_cons, true_or, decide_true, Function.update_self, List.mem_append,
          reduceCtorEq, List.not_mem_nil, or_false, Spec.released, Spec.actionOf, if_true]
        generalize Spec.released id ops.reverse = r at *
        generalize decide (GuardOp.destroy id ∈ ops) = d at *
        generalize s'.live id = l at *
        generalize Spec.released source ops.reverse = r' at *
        generalize Spec.actionOf source ops.reverse = ac' at *
        generalize decide (GuardOp.destroy source ∈ ops) = d' at *
        generalize decide (source ∈ s'.used) = u' at *
        cases hi with
        | unused _ _ h =>
          cases hs with
          | live _ _ _ hg _ => exact .live g r' _ hg h
      · have hj' : ¬ i = id := fun e => hj e.symm
        simpa only [List.mem_cons, hj, false_or, Function.update_of_ne hj, List.mem_append,
          reduceCtorEq, List.not_mem_nil, or_false, Spec.released, Spec.actionOf, hj', if_false,
          ne_eq, not_false_eq_true, Function.update_of_ne] using hi
    | destroy i =>
      simp only [GuardOp.run] at hop
      split at hop
      · simp at hop
      rename_i g hg
      cases hop
      have hi := ih id
      rw [guardView, hr]
      rw [guardView] at hi
      by_cases hj : id = i
      · subst hj
        rw [hg] at hi
        simp only [Function.update_self, List.mem_append, List.mem_cons, true_or, or_true,
          decide_true, Spec.released, Spec.actionOf]
        generalize Spec.released id ops.reverse = r at *
        generalize Spec.actionOf id ops.reverse = ac at *
        generalize decide (GuardOp.destroy id ∈ ops) = d at *
        generalize decide (id ∈ s'.used) = u at *
        cases hi with
        | live _ _ _ hg' h =>
          refine .dead r g.action _ fun b => ?_
          have h := h b
          cases r with
          | true =>
            simp only [hg', Bool.not_true, Bool.false_eq_true, if_false, h]
            simp
          | false =>
            simp only [hg', Bool.not_false, if_true, List.count_cons, h, Nat.zero_add, true_and]
            by_cases hb : b = g.action
            · simp [hb]
            · have : ¬ g.action = b := fun e => hb e.symm
              simp [hb, this]
      · have hj' : ¬ i = id := fun e => hj e.symm
        have hc : ∀ a, (if g.execute = true then (i, g.action) :: s'.calls else s'.calls).count
            (id, a) = s'.calls.count (id, a) := by
          intro a
          split
          · rw [List.count_cons_of_ne (by simp [hj'])]
          · rfl
        simp only [hc]
        simpa only [Function.update_of_ne hj, List.mem_append, List.mem_cons, GuardOp.destroy.injEq,
          hj, List.not_mem_nil, or_false, Spec.released, Spec.actionOf,
          ne_eq, not_false_eq_true, Function.update_of_ne] using hi

end Fern
