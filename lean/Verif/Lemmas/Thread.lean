import Verif.Model.Thread
import Verif.Spec.Thread
import Verif.Lemmas.Scope
import Mathlib.Tactic.Tauto

/-!
# Lemmas about threading: what a visit leaves as it is
-/

namespace Fern

/-- The entries and exits of the functions that can be called. -/
def InTable (t : SymbolTable Threaded) (x : Vid) : Prop :=
  ∃ n f, SymbolTable.value t n = some f ∧ (x = f.entry ∨ x = f.exit)

/-- What a visit that passes the vertices in `A` does at most. -/
structure Chunk (A : Vid → Prop) (s s' : ThreadState) : Prop where
  functions : s'.functions = s.functions
  table : s'.table = s.table
  frame : ∀ x, s.last ≠ some x → ¬ A x → ¬ InTable s.table x → s'.succ x = s.succ x
  keep : ∀ x, ¬ A x → s.succ x ≠ [] → s'.succ x = s.succ x
  news : ∀ x, ¬ A x → ∀ y ∈ s'.succ x, y ∈ s.succ x ∨ A y ∨ InTable s.table y
  newsAll : ∀ x, ∀ y ∈ s'.succ x, y ∈ s.succ x ∨ A y ∨ InTable s.table y ∨
    s.functions.head? = some y
  last : s'.last = s.last ∨ s'.last = none ∨ ∃ w, s'.last = some w ∧ (A w ∨ InTable s.table w)

/-- What a visit of function definitions that passes the vertices in `A` does at most. -/
structure DefChunk (A : Vid → Prop) (s s' : ThreadState) : Prop where
  functions : s'.functions = s.functions
  last : s'.last = s.last
  table : s'.table.tail = s.table.tail ∧ (s.table ≠ [] → s'.table ≠ [])
  inTable : ∀ x, InTable s'.table x → InTable s.table x ∨ A x
  frame : ∀ x, ¬ A x → ¬ InTable s.table x → s'.succ x = s.succ x
  keep : ∀ x, ¬ A x → s.succ x ≠ [] → s'.succ x = s.succ x
  news : ∀ x, ∀ y ∈ s'.succ x, y ∈ s.succ x ∨ A y ∨ InTable s.table y

namespace Chunk

variable {A B : Vid → Prop} {s s1 s2 : ThreadState}

theorem refl (s : ThreadState) : Chunk A s s :=
  ⟨rfl, rfl, fun _ _ _ _ => rfl, fun _ _ _ => rfl, fun _ _ _ h => .inl h,
    fun _ _ h => .inl h, .inl rfl⟩

theorem mono (h : Chunk A s s1) (hab : ∀ x, A x → B x) : Chunk B s s1 where
  functions := h.functions
  table := h.table
  frame x h1 h2 h3 := h.frame x h1 (fun h' => h2 (hab x h')) h3
  keep x h1 h2 := h.keep x (fun h' => h1 (hab x h')) h2
  news x h1 y hy := by
    rcases h.news x (fun h' => h1 (hab x h')) y hy with h | h | h
    · exact .inl h
    · exact .inr (.inl (hab y h))
    · exact .inr (.inr h)
  newsAll x y hy := by
    have := hab y
    have := h.newsAll x y hy
    tauto
  last := by
    rcases h.last with h | h | ⟨w, h, hw⟩
    · exact .inl h
    · exact .inr (.inl h)
    · exact .inr (.inr ⟨w, h, hw.imp_left (hab w)⟩)

theorem trans (h : Chunk A s s1) (h' : Chunk A s1 s2) : Chunk A s s2 where
  functions := h'.functions.trans h.functions
  table := h'.table.trans h.table
  frame x h1 h2 h3 := by
    rw [h'.frame x ?_ h2 (by rwa [h.table]), h.frame x h1 h2 h3]
    rcases h.last with hl | hl | ⟨w, hl, hw⟩
    · rwa [hl]
    · rw [hl]; simp
    · rw [hl]
      rintro ⟨⟩
      exact hw.elim h2 h3
  keep x h1 h2 := by
    have := h.keep x h1 h2
    rw [h'.keep x h1 (by rwa [this]), this]
  news x h1 y hy := by
    rcases h'.news x h1 y hy with hy | hy | hy
    · exact h.news x h1 y hy
    · exact .inr (.inl hy)
    · exact .inr (.inr (by rwa [← h.table]))
  newsAll x y hy := by
    have h1 := h'.newsAll x y hy
    have h2 := h.newsAll x y
    rw [h.table, h.functions] at h1
    tauto
  last := by
    rcases h'.last with hl | hl | ⟨w, hl, hw⟩
    · rw [hl]; exact h.last
    · exact .inr (.inl hl)
    · exact .inr (.inr ⟨w, hl, hw.imp_right (fun h' => by rwa [← h.table])⟩)

end Chunk

namespace DefChunk

variable {A B : Vid → Prop} {s s1 s2 : ThreadState}

theorem refl (s : ThreadState) : DefChunk A s s :=
  ⟨rfl, rfl, ⟨rfl, id⟩, fun _ h => .inl h, fun _ _ _ => rfl, fun _ _ _ => rfl, fun _ _ h => .inl h⟩

theorem mono (h : DefChunk A s s1) (hab : ∀ x, A x → B x) : DefChunk B s s1 where
  functions := h.functions
  last := h.last
  table := h.table
  inTable x hx := (h.inTable x hx).imp_right (hab x)
  frame x h2 h3 := h.frame x (fun h' => h2 (hab x h')) h3
  keep x h1 h2 := h.keep x (fun h' => h1 (hab x h')) h2
  news x y hy := by
    rcases h.news x y hy with h | h | h
    · exact .inl h
    · exact .inr (.inl (hab y h))
    · exact .inr (.inr h)

theorem trans (h : DefChunk A s s1) (h' : DefChunk A s1 s2) : DefChunk A s s2 where
  functions := h'.functions.trans h.functions
  last := h'.last.trans h.last
  table := ⟨h'.table.1.trans h.table.1, fun hn => h'.table.2 (h.table.2 hn)⟩
  inTable x hx := by
    rcases h'.inTable x hx with hx | hx
    · exact h.inTable x hx
    · exact .inr hx
  frame x h2 h3 := by
    rw [h'.frame x h2 (fun hx => (h.inTable x hx).elim h3 h2), h.frame x h2 h3]
  keep x h1 h2 := by
    have := h.keep x h1 h2
    rw [h'.keep x h1 (by rwa [this]), this]
  news x y hy := by
    rcases h'.news x y hy with hy | hy | hy
    · exact h.news x y hy
    · exact .inr (.inl hy)
    · rcases h.inTable y hy with hy | hy
      · exact .inr (.inr hy)
      · exact .inr (.inl hy)

end DefChunk

/-! ### Single steps -/

theorem setSuccessor_eq {s s' : ThreadState} {u v : Vid} (h : s.setSuccessor u v = some s') :
    s.succ u = [] ∧ s' = { s with succ := fun x => if x = u then [v] else s.succ x } := by
  rw [ThreadState.setSuccessor] at h
  split at h
  · rename_i hu
    refine ⟨hu, ?_⟩
    rw [Option.some.injEq] at h
    rw [← h, ThreadState.addSuccessor, hu, List.nil_append]
  · cases h

/-- A visit that only sets the successor of `u`. -/
theorem Chunk.ofSet {A : Vid → Prop} {s : ThreadState} {u v : Vid} (l : Option Vid)
    (hu : s.succ u = []) (hA : A v ∨ InTable s.table v) (hl : s.last = some u ∨ A u)
    (hw : ∀ w, l = some w → A w ∨ InTable s.table w) :
    Chunk A s { s with succ := fun x => if x = u then [v] else s.succ x, last := l } where
  functions := rfl
  table := rfl
  frame x h1 h2 h3 := by
    have : x ≠ u := by
      rintro rfl
      exact hl.elim h1 h2
    exact if_neg this
  keep x h1 h2 := by
    have : x ≠ u := by
      rintro rfl
      exact h2 hu
    exact if_neg this
  news x h1 y hy := by
    change y ∈ (if x = u then [v] else s.succ x) at hy
    split at hy
    · rw [List.mem_singleton] at hy
      subst hy
      exact .inr hA
    · exact .inl hy
  newsAll x y hy := by
    change y ∈ (if x = u then [v] else s.succ x) at hy
    split at hy
    · rw [List.mem_singleton] at hy
      subst hy
      tauto
    · exact .inl hy
  last := by
    cases l with
    | none => exact .inr (.inl rfl)
    | some w => exact .inr (.inr ⟨w, rfl, hw w rfl⟩)

theorem threadTo_eq {s s' : ThreadState} {v : Vid} (h : s.threadTo v = some s') :
    (s.last = none ∧ s' = { s with last := some v }) ∨
    ∃ u, s.last = some u ∧ s.succ u = [] ∧
      s' = { s with succ := fun x => if x = u then [v] else s.succ x, last := some v } := by
  rw [ThreadState.threadTo] at h
  split at h
  · rename_i hl
    rw [Option.some.injEq] at h
    exact .inl ⟨hl, h.symm⟩
  · rename_i u hl
    rw [Option.map_eq_some_iff] at h
    obtain ⟨s1, h1, h2⟩ := h
    obtain ⟨h3, h4⟩ := setSuccessor_eq h1
    subst h4
    exact .inr ⟨u, hl, h3, h2.symm⟩

theorem Chunk.startAt {A : Vid → Prop} (s : ThreadState) {v : Vid} (h : A v ∨ InTable s.table v) :
    Chunk A s { s with last := some v } :=
  ⟨rfl, rfl, fun _ _ _ _ => rfl, fun _ _ _ => rfl, fun _ _ _ h => .inl h,
    fun _ _ h => .inl h, .inr (.inr ⟨v, rfl, h⟩)⟩

theorem threadTo_chunk {A : Vid → Prop} {s s' : ThreadState} {v : Vid} (h : s.threadTo v = some s')
    (hA : A v ∨ InTable s.table v) : Chunk A s s' := by
  rcases threadTo_eq h with ⟨_, rfl⟩ | ⟨u, hl, hu, rfl⟩
  · exact Chunk.startAt s hA
  · exact Chunk.ofSet _ hu hA (.inl hl) (by rintro w ⟨⟩; exact hA)

theorem threadTo_last {s s' : ThreadState} {v : Vid} (h : s.threadTo v = some s') :
    s'.last = some v := by
  rcases threadTo_eq h with ⟨_, rfl⟩ | ⟨u, hl, hu, rfl⟩ <;> rfl

theorem linkTo_threadTo {s s' : ThreadState} {v : Vid} (h : s.linkTo v = some s') :
    s.threadTo v = some s' ∧ s.last ≠ none := by
  rw [ThreadState.linkTo] at h
  rw [ThreadState.threadTo]
  split at h
  · cases h
  · rename_i u hl
    exact ⟨h, by rw [hl]; simp⟩

theorem finishCall_chunk {A : Vid → Prop} {s s' : ThreadState} {v : Vid} {n : Str}
    (h : s.finishCall v n = some s') (hA : A v) :
    Chunk A s s' ∧ ∃ w, s'.last = some w ∧ (A w ∨ InTable s.table w) := by
  rw [ThreadState.finishCall, Option.bind_eq_some_iff] at h
  obtain ⟨s1, h1, h⟩ := h
  have c1 := threadTo_chunk (A := A) h1 (.inl hA)
  split at h
  · rw [Option.some.injEq] at h
    subst h
    exact ⟨c1, v, threadTo_last h1, .inl hA⟩
  · rename_i f hf
    rw [Option.map_eq_some_iff] at h
    obtain ⟨s2, h2, rfl⟩ := h
    have c2 := threadTo_chunk (A := A) h2 (.inr ⟨n, f, hf, .inl rfl⟩)
    have hx : InTable s2.table f.exit := ⟨n, f, by rw [c2.table, hf], .inr rfl⟩
    refine ⟨(c1.trans c2).trans (Chunk.startAt s2 (.inr hx)), f.exit, rfl, .inr ?_⟩
    rwa [c2.table, c1.table] at hx

mutual

theorem threadExpr_chunk {s s' : ThreadState} (e : Expr) (h : threadExpr s e = some s') :
    Chunk (· ∈ e.vids) s s' ∧ ∃ w, s'.last = some w ∧ (w ∈ e.vids ∨ InTable s.table w) :=
  match e with
  | .name v _ | .number v _ | .string v _ => by
    rw [threadExpr] at h
    exact ⟨threadTo_chunk h (.inl (by simp [Expr.vids])), v, threadTo_last h, .inl (by simp [Expr.vids])⟩
  | .call v n args => by
    rw [threadExpr, Option.bind_eq_some_iff] at h
    obtain ⟨s1, h1, h⟩ := h
    have c1 := (threadExprs_chunk args h1).mono (B := (· ∈ (Expr.call v n args).vids))
      (fun x hx => by simp [Expr.vids, hx])
    obtain ⟨c2, w, hw, hw'⟩ := finishCall_chunk (A := (· ∈ (Expr.call v n args).vids)) h
      (by simp [Expr.vids])
    refine ⟨c1.trans c2, w, hw, ?_⟩
    rwa [c1.table] at hw'
  | .operator v n args => by
    rw [threadExpr, Option.bind_eq_some_iff] at h
    obtain ⟨s1, h1, h⟩ := h
    have c1 := (threadExprs_chunk args h1).mono (B := (· ∈ (Expr.operator v n args).vids))
      (fun x hx => by simp [Expr.vids, hx])
    exact ⟨c1.trans (threadTo_chunk h (.inl (by simp [Expr.vids]))), v, threadTo_last h,
      .inl (by simp [Expr.vids])⟩
  | .subscript v e i => by
    rw [threadExpr, Option.bind_eq_some_iff] at h
    obtain ⟨s1, h1, h⟩ := h
    rw [Option.bind_eq_some_iff] at h
    obtain ⟨s2, h2, h⟩ := h
    have c1 := (threadExpr_chunk e h1).1.mono (B := (· ∈ (Expr.subscript v e i).vids))
      (fun x hx => by simp [Expr.vids, hx])
    have c2 := (threadExpr_chunk i h2).1.mono (B := (· ∈ (Expr.subscript v e i).vids))
      (fun x hx => by simp [Expr.vids, hx])
    exact ⟨(c1.trans c2).trans (threadTo_chunk h (.inl (by simp [Expr.vids]))), v, threadTo_last h,
      .inl (by simp [Expr.vids])⟩
  | .attribute v e m => by
    rw [threadExpr, Option.bind_eq_some_iff] at h
    obtain ⟨s1, h1, h⟩ := h
    have c1 := (threadExpr_chunk e h1).1.mono (B := (· ∈ (Expr.attribute v e m).vids))
      (fun x hx => by simp [Expr.vids, hx])
    exact ⟨c1.trans (threadTo_chunk h (.inl (by simp [Expr.vids]))), v, threadTo_last h,
      .inl (by simp [Expr.vids])⟩

theorem threadExprs_chunk {s s' : ThreadState} (es : List Expr) (h : threadExprs s es = some s') :
    Chunk (· ∈ Expr.listVids es) s s' :=
  match es with
  | [] => by
    rw [threadExprs, Option.some.injEq] at h
    subst h
    exact Chunk.refl s
  | e :: es => by
    rw [threadExprs, Option.bind_eq_some_iff] at h
    obtain ⟨s1, h1, h⟩ := h
    have c1 := (threadExpr_chunk e h1).1.mono (B := (· ∈ Expr.listVids (e :: es)))
      (fun x hx => by simp [Expr.listVids, hx])
    have c2 := (threadExprs_chunk es h).mono (B := (· ∈ Expr.listVids (e :: es)))
      (fun x hx => by simp [Expr.listVids, hx])
    exact c1.trans c2

end

/-! ### Scopes -/

theorem inTable_cons_nil {t : SymbolTable Threaded} {x : Vid} :
    InTable (SymbolTable.pushScope t) x ↔ InTable t x := by
  unfold InTable SymbolTable.pushScope
  simp only [SymbolTable.value_cons, Scope.value_nil, Option.none_or]

theorem addSuccessor_chunk {A : Vid → Prop} {s : ThreadState} {u v : Vid} (hu : A u) (hv : A v) :
    Chunk A s (s.addSuccessor u v) where
  functions := rfl
  table := rfl
  frame x h1 h2 h3 := if_neg (by rintro rfl; exact h2 hu)
  keep x h1 h2 := if_neg (by rintro rfl; exact h1 hu)
  news x h1 y hy := by
    rw [ThreadState.addSuccessor] at hy
    dsimp only at hy
    rw [if_neg (by rintro rfl; exact h1 hu)] at hy
    exact .inl hy
  newsAll x y hy := by
    rw [ThreadState.addSuccessor] at hy
    dsimp only at hy
    split at hy
    · rename_i hx
      subst hx
      rw [List.mem_append, List.mem_singleton] at hy
      rcases hy with hy | rfl
      · exact .inl hy
      · exact .inr (.inl hv)
    · exact .inl hy
  last := .inl rfl

theorem endScope_eq {s s' : ThreadState} {sentinel : Vid} {back : Option Vid}
    (h : s.endScope sentinel back = some s') :
    (s.last = none ∧ s' = { s with last := some sentinel }) ∨
    ∃ u, s.last = some u ∧ s.succ u = [] ∧
      s' = { s with succ := fun x => if x = u then [sentinel] else s.succ x, last := some sentinel } := by
  unfold ThreadState.endScope at h
  split at h
  · rename_i hl
    split at h
    · cases h
    · split at h
      · rw [Option.some.injEq] at h
        exact .inl ⟨hl, h.symm⟩
      · cases h
  · have h' := threadTo_eq (linkTo_threadTo h).1
    exact h'

/-- The steps of a visit of a scope. -/
theorem scope_steps {s s' : ThreadState} {v sentinel : Vid} {back : Option Vid}
    {definitions body : ThreadState → Option ThreadState}
    (h : s.scope v sentinel back definitions body = some s') :
    ∃ u s1 s2 s3, s.last = some u ∧
      definitions { s with table := s.table.pushScope, last := some v } = some s1 ∧
      body { s1.addSuccessor u v with last := some v } = some s2 ∧
      s2.endScope sentinel back = some s3 ∧ s3.table ≠ [] ∧ s' = { s3 with table := s3.table.tail } := by
  rw [ThreadState.scope] at h
  split at h
  · cases h
  · rename_i u hl
    rw [Option.bind_eq_some_iff] at h
    obtain ⟨s1, h1, h⟩ := h
    rw [Option.bind_eq_some_iff] at h
    obtain ⟨s2, h2, h⟩ := h
    rw [Option.bind_eq_some_iff] at h
    obtain ⟨s3, h3, h⟩ := h
    rw [Option.map_eq_some_iff] at h
    obtain ⟨t, ht, rfl⟩ := h
    refine ⟨u, s1, s2, s3, hl, h1, h2, h3, ?_⟩
    cases hs : s3.table with
    | nil => rw [hs] at ht; cases ht
    | cons a b =>
      rw [hs, SymbolTable.popScope, Option.some.injEq] at ht
      exact ⟨by simp, by rw [← ht]; rfl⟩

theorem scope_chunk {A1 A2 : Vid → Prop} {s s' : ThreadState} {v sentinel u : Vid} {back : Option Vid}
    {definitions body : ThreadState → Option ThreadState} (hu : s.last = some u)
    (hd : ∀ s1, definitions { s with table := s.table.pushScope, last := some v } = some s1 →
      DefChunk A1 { s with table := s.table.pushScope, last := some v } s1)
    (hb : ∀ s1 s2, body s1 = some s2 → Chunk A2 s1 s2)
    (h : s.scope v sentinel back definitions body = some s') :
    Chunk (fun x => x = u ∨ x = v ∨ x = sentinel ∨ A1 x ∨ A2 x) s s' ∧ s'.last = some sentinel := by
  obtain ⟨u', s1, s2, s3, hl, h1, h2, h3, h4, rfl⟩ := scope_steps h
  rw [hu, Option.some.injEq] at hl
  subst hl
  have d := hd s1 h1
  have b := hb _ s2 h2
  have htab : s1.table.tail = s.table := d.table.1
  have hin : ∀ x, InTable s1.table x → InTable s.table x ∨ A1 x := fun x hx => by
    rcases d.inTable x hx with h | h
    · exact .inl (inTable_cons_nil.1 h)
    · exact .inr h
  have e : Chunk (fun x => x = v ∨ x = sentinel ∨ A2 x) s2 s3 ∧ s3.last = some sentinel := by
    rcases endScope_eq h3 with ⟨_, rfl⟩ | ⟨w, hw, hw', rfl⟩
    · exact ⟨Chunk.startAt _ (.inl (.inr (.inl rfl))), rfl⟩
    · refine ⟨Chunk.ofSet _ hw' (.inl (.inr (.inl rfl))) (.inl hw) ?_, rfl⟩
      rintro w ⟨⟩
      exact .inl (.inr (.inl rfl))
  have c : Chunk (fun x => x = u ∨ x = v ∨ x = sentinel ∨ A2 x) s1 s3 := by
    have c1 : Chunk (fun x => x = u ∨ x = v ∨ x = sentinel ∨ A2 x) s1 (s1.addSuccessor u v) :=
      addSuccessor_chunk (.inl rfl) (.inr (.inl rfl))
    have c2 := Chunk.startAt (A := fun x => x = u ∨ x = v ∨ x = sentinel ∨ A2 x)
      (s1.addSuccessor u v) (v := v) (.inl (.inr (.inl rfl)))
    have c3 := b.mono (B := fun x => x = u ∨ x = v ∨ x = sentinel ∨ A2 x)
      (fun x hx => .inr (.inr (.inr hx)))
    have c4 := e.1.mono (B := fun x => x = u ∨ x = v ∨ x = sentinel ∨ A2 x)
      (fun x hx => .inr hx)
    exact ((c1.trans c2).trans c3).trans c4
  refine ⟨⟨c.functions.trans d.functions, ?_, ?_, ?_, ?_, ?_, ?_⟩, e.2⟩
  · change s3.table.tail = s.table
    rw [c.table, htab]
  · intro x hx1 hx2 hx3
    change s3.succ x = s.succ x
    rw [c.frame x ?_ (by tauto) (fun hx => by have := hin x hx; tauto),
      d.frame x (by tauto) (fun hx => hx3 (inTable_cons_nil.1 hx))]
    rw [d.last]
    simp only [ne_eq, Option.some.injEq]
    rintro rfl
    exact hx2 (.inr (.inl rfl))
  · intro x hx1 hx2
    change s3.succ x = s.succ x
    have := d.keep x (by tauto) hx2
    rw [c.keep x (by tauto) (by rwa [this]), this]
  · intro x hx1 y hy
    change y ∈ s3.succ x at hy
    rcases c.news x (by tauto) y hy with hy | hy | hy
    · rcases d.news x y hy with hy | hy | hy
      · exact .inl hy
      · exact .inr (.inl (by tauto))
      · exact .inr (.inr (inTable_cons_nil.1 hy))
    · exact .inr (.inl (by tauto))
    · have := hin y hy
      tauto
  · intro x y hy
    change y ∈ s3.succ x at hy
    rcases c.newsAll x y hy with hy | hy | hy | hy
    · rcases d.news x y hy with hy | hy | hy
      · exact .inl hy
      · exact .inr (.inl (by tauto))
      · exact .inr (.inr (.inl (inTable_cons_nil.1 hy)))
    · exact .inr (.inl (by tauto))
    · have := hin y hy
      tauto
    · rw [d.functions] at hy
      exact .inr (.inr (.inr hy))
  · exact .inr (.inr ⟨sentinel, e.2, .inl (by simp)⟩)

/-! ### Statements -/

/-- The vertices of a statement that are passed in the second pass over the statements. -/
def Stmt.ownVids : Stmt → List Vid
  | .function _ _ _ _ _ _ => []
  | t => t.vids

/-- The vertices that are passed in the second pass over the statements. -/
def Stmt.bodyVids : List Stmt → List Vid
  | [] => []
  | t :: ts => t.ownVids ++ Stmt.bodyVids ts

/-- The vertices of a statement that are passed in the first pass over the statements. -/
def Stmt.definitionVids1 : Stmt → List Vid
  | .function v n args bv bs body => Stmt.vids (.function v n args bv bs body)
  | _ => []

/-- The vertices that are passed in the first pass over the statements. -/
def Stmt.definitionVids : List Stmt → List Vid
  | [] => []
  | t :: ts => t.definitionVids1 ++ Stmt.definitionVids ts

theorem Stmt.vids_perm (t : Stmt) : t.vids.Perm (t.definitionVids1 ++ t.ownVids) := by
  cases t <;> simp [Stmt.definitionVids1, Stmt.ownVids]

theorem Stmt.listVids_perm (ts : List Stmt) :
    (Stmt.listVids ts).Perm (Stmt.definitionVids ts ++ Stmt.bodyVids ts) := by
  induction ts with
  | nil => simp [Stmt.listVids, Stmt.definitionVids, Stmt.bodyVids]
  | cons t ts ih =>
    simp only [Stmt.listVids, Stmt.definitionVids, Stmt.bodyVids]
    refine (t.vids_perm.append ih).trans ?_
    simp only [List.append_assoc]
    refine List.Perm.append_left _ ?_
    rw [← List.append_assoc, ← List.append_assoc]
    exact List.Perm.append_right _ List.perm_append_comm

theorem Stmt.mem_listVids {ts : List Stmt} {x : Vid} :
    x ∈ Stmt.listVids ts ↔ x ∈ Stmt.definitionVids ts ∨ x ∈ Stmt.bodyVids ts := by
  rw [(Stmt.listVids_perm ts).mem_iff, List.mem_append]

theorem afterStatement_eq {s s' : ThreadState} {sentinel : Vid}
    (h : s.afterStatement sentinel = some s') :
    ∃ u, s.last = some u ∧ ((s.succ u = [] ∧ s' = s) ∨
      (sentinel ∈ s.succ u ∧ s' = { s with last := none })) := by
  unfold ThreadState.afterStatement at h
  split at h
  · cases h
  · rename_i u hl
    refine ⟨u, hl, ?_⟩
    split at h
    · rename_i hu
      rw [Option.some.injEq] at h
      exact .inl ⟨hu, h.symm⟩
    · rename_i w l hu
      split at h
      · rename_i hw
        rw [Option.some.injEq] at h
        subst hw
        exact .inr ⟨by rw [hu]; simp, h.symm⟩
      · cases h

theorem afterStatement_chunk {A : Vid → Prop} {s s' : ThreadState} {sentinel : Vid}
    (h : s.afterStatement sentinel = some s') : Chunk A s s' := by
  obtain ⟨u, hl, ⟨_, rfl⟩ | ⟨_, rfl⟩⟩ := afterStatement_eq h
  · exact Chunk.refl _
  · exact ⟨rfl, rfl, fun _ _ _ _ => rfl, fun _ _ _ => rfl, fun _ _ _ h => .inl h,
      fun _ _ h => .inl h, .inr (.inl rfl)⟩

theorem setSuccessor_chunk {A : Vid → Prop} {s s' : ThreadState} {u v : Vid}
    (h : s.setSuccessor u v = some s') (hu : A u) (hv : A v ∨ s.functions.head? = some v) :
    Chunk A s s' := by
  obtain ⟨h1, rfl⟩ := setSuccessor_eq h
  exact ⟨rfl, rfl, fun x _ h2 _ => if_neg (by rintro rfl; exact h2 hu),
    fun x h2 _ => if_neg (by rintro rfl; exact h2 hu),
    fun x h2 y hy => by
      dsimp only at hy
      rw [if_neg (by rintro rfl; exact h2 hu)] at hy
      exact .inl hy,
    fun x y hy => by
      dsimp only at hy
      split at hy
      · rw [List.mem_singleton] at hy
        subst hy
        tauto
      · exact .inl hy, .inl rfl⟩

theorem inTable_addValue {t t' : SymbolTable Threaded} {n : Str} {f : Threaded} {x : Vid}
    (h : t.addValue n f = some t') (hx : InTable t' x) :
    InTable t x ∨ x = f.entry ∨ x = f.exit := by
  cases t with
  | nil => cases h
  | cons sc t =>
    rw [SymbolTable.addValue, Option.some.injEq] at h
    subst h
    obtain ⟨n', f', h1, h2⟩ := hx
    rw [SymbolTable.value_cons, Scope.setValue, Scope.value_assign] at h1
    split at h1
    · rw [Option.some_or, Option.some.injEq] at h1
      subst h1
      exact .inr h2
    · exact .inl ⟨n', f', by rw [SymbolTable.value_cons]; exact h1, h2⟩

theorem addValue_tail {t t' : SymbolTable Threaded} {n : Str} {f : Threaded}
    (h : t.addValue n f = some t') : t'.tail = t.tail ∧ t' ≠ [] := by
  cases t with
  | nil => cases h
  | cons sc t =>
    rw [SymbolTable.addValue, Option.some.injEq] at h
    subst h
    exact ⟨rfl, by simp⟩

/-- The steps of a visit of a return statement. -/
theorem ret_steps {s s' : ThreadState} {v : Vid} {e : Option Expr}
    (h : threadStmt s (.ret v e) = some s') :
    ∃ s1 s2 sentinel, (match e with
      | none => some s
      | some e => threadExpr s e) = some s1 ∧ s1.threadTo v = some s2 ∧
      s2.functions.head? = some sentinel ∧ s2.setSuccessor v sentinel = some s' := by
  unfold threadStmt at h
  rw [Option.bind_eq_some_iff] at h
  obtain ⟨s1, h1, h⟩ := h
  rw [Option.bind_eq_some_iff] at h
  obtain ⟨s2, h2, h⟩ := h
  split at h
  · cases h
  · rename_i b l hb
    exact ⟨s1, s2, b, h1, h2, by rw [hb]; rfl, h⟩

/-- Names are passed one after the other. -/
theorem threadNames_last {s s' : ThreadState} (args : List Expr) (u : Vid) (hu : s.last = some u)
    (ha : ∀ a ∈ args, ∃ v n, a = .name v n) (h : threadExprs s args = some s') :
    (∃ w, s'.last = some w ∧ (w = u ∨ w ∈ Expr.listVids args)) ∧
      ∀ x, ∀ y ∈ s'.succ x, y ∈ s.succ x ∨ y ∈ Expr.listVids args := by
  induction args generalizing s u with
  | nil =>
    rw [threadExprs, Option.some.injEq] at h
    subst h
    exact ⟨⟨u, hu, .inl rfl⟩, fun x y hy => .inl hy⟩
  | cons a args ih =>
    obtain ⟨v, n, rfl⟩ := ha a (by simp)
    rw [threadExprs, Option.bind_eq_some_iff] at h
    obtain ⟨s1, h1, h⟩ := h
    rw [threadExpr] at h1
    obtain ⟨⟨w, h2, h3⟩, h4⟩ := ih v (threadTo_last h1) (fun a h => ha a (by simp [h])) h
    simp only [Expr.listVids, Expr.vids, List.mem_append, List.mem_singleton]
    refine ⟨⟨w, h2, .inr h3⟩, fun x y hy => ?_⟩
    rcases h4 x y hy with hy | hy
    · rcases threadTo_eq h1 with ⟨_, rfl⟩ | ⟨u', _, _, rfl⟩
      · exact .inl hy
      · dsimp only at hy
        split at hy
        · exact .inr (.inl (List.mem_singleton.1 hy))
        · exact .inl hy
    · exact .inr (.inr hy)

mutual

theorem threadStmt_chunk {s s' : ThreadState} (t : Stmt) (hn : t.namedParameters) (h : threadStmt s t = some s') :
    Chunk (· ∈ t.ownVids) s s' :=
  match t with
  | .expr e => by
    rw [threadStmt] at h
    exact (threadExpr_chunk e h).1
  | .assign v target n e => by
    rw [threadStmt, Option.bind_eq_some_iff] at h
    obtain ⟨s1, h1, h⟩ := h
    rw [Option.bind_eq_some_iff] at h
    obtain ⟨s2, h2, h⟩ := h
    have c1 := (threadExpr_chunk e h1).1.mono (B := (· ∈ (Stmt.assign v target n e).ownVids))
      (fun x hx => by simp [Stmt.ownVids, Stmt.vids, hx])
    exact (c1.trans (threadTo_chunk h2 (.inl (by simp [Stmt.ownVids, Stmt.vids])))).trans
      (threadTo_chunk h (.inl (by simp [Stmt.ownVids, Stmt.vids])))
  | .ifElse v sentinel c tv ts t fv fs f => by
    rw [threadStmt, Option.bind_eq_some_iff] at h
    obtain ⟨s1, h1, h⟩ := h
    rw [Option.bind_eq_some_iff] at h
    obtain ⟨s2, h2, h⟩ := h
    rw [Option.bind_eq_some_iff] at h
    obtain ⟨s3, h3, h⟩ := h
    rw [Option.bind_eq_some_iff] at h
    obtain ⟨s4, h4, h⟩ := h
    have c1 := (threadExpr_chunk c h1).1.mono
      (B := (· ∈ (Stmt.ifElse v sentinel c tv ts t fv fs f).ownVids))
      (fun x hx => by simp [Stmt.ownVids, Stmt.vids, hx])
    have c2 : Chunk (· ∈ (Stmt.ifElse v sentinel c tv ts t fv fs f).ownVids) s1 s2 :=
      threadTo_chunk (linkTo_threadTo h2).1 (.inl (by simp [Stmt.ownVids, Stmt.vids]))
    have c3 := (scope_chunk (threadTo_last (linkTo_threadTo h2).1)
      (fun s1 h1 => threadDefinitions_chunk t hn.1 h1)
      (fun s1 s2 h2 => threadBody_chunk t hn.1 h2) h3).1.mono
      (B := (· ∈ (Stmt.ifElse v sentinel c tv ts t fv fs f).ownVids))
      (fun x hx => by
        have := Stmt.mem_listVids (ts := t) (x := x)
        simp only [Stmt.ownVids, Stmt.vids, List.mem_cons, List.mem_append]
        tauto)
    have c4 : Chunk (· ∈ (Stmt.ifElse v sentinel c tv ts t fv fs f).ownVids) s3 s4 :=
      setSuccessor_chunk h4 (by simp [Stmt.ownVids, Stmt.vids])
        (.inl (by simp [Stmt.ownVids, Stmt.vids]))
    have c14 := ((c1.trans c2).trans c3).trans c4
    split at h
    · rw [Option.some.injEq] at h
      subst h
      exact c14.trans (Chunk.startAt _ (.inl (by simp [Stmt.ownVids, Stmt.vids])))
    · rw [Option.bind_eq_some_iff] at h
      obtain ⟨s5, h5, h⟩ := h
      rw [Option.map_eq_some_iff] at h
      obtain ⟨s6, h6, rfl⟩ := h
      have c5 : Chunk (· ∈ (Stmt.ifElse v sentinel c tv ts t fv fs f).ownVids) s4 (s4.startAt v) :=
        Chunk.startAt _ (.inl (by simp [Stmt.ownVids, Stmt.vids]))
      have c6 := (scope_chunk (s := s4.startAt v) rfl
        (fun s1 h1 => threadDefinitions_chunk f hn.2 h1)
        (fun s1 s2 h2 => threadBody_chunk f hn.2 h2) h5).1.mono
        (B := (· ∈ (Stmt.ifElse v sentinel c tv ts t fv fs f).ownVids))
        (fun x hx => by
          have := Stmt.mem_listVids (ts := f) (x := x)
          simp only [Stmt.ownVids, Stmt.vids, List.mem_cons, List.mem_append]
          tauto)
      have c7 : Chunk (· ∈ (Stmt.ifElse v sentinel c tv ts t fv fs f).ownVids) s5 s6 :=
        setSuccessor_chunk h6 (by simp [Stmt.ownVids, Stmt.vids])
          (.inl (by simp [Stmt.ownVids, Stmt.vids]))
      exact (((c14.trans c5).trans c6).trans c7).trans
        (Chunk.startAt _ (.inl (by simp [Stmt.ownVids, Stmt.vids])))
  | .while _ _ _ _ _ _ _ _ _ => by
    rw [threadStmt] at h
    cases h
  | .function _ _ _ _ _ _ => by
    rw [threadStmt, Option.some.injEq] at h
    subst h
    exact Chunk.refl s
  | .ret v none => by
    obtain ⟨s1, s2, b, h1, h2, h3, h4⟩ := ret_steps h
    rw [Option.some.injEq] at h1
    subst h1
    have c2 : Chunk (· ∈ (Stmt.ret v none).ownVids) s s2 :=
      threadTo_chunk h2 (.inl (by simp [Stmt.ownVids, Stmt.vids]))
    exact c2.trans (setSuccessor_chunk h4 (by simp [Stmt.ownVids, Stmt.vids])
      (.inr h3))
  | .ret v (some e) => by
    obtain ⟨s1, s2, b, h1, h2, h3, h4⟩ := ret_steps h
    have c1 := (threadExpr_chunk e h1).1.mono (B := (· ∈ (Stmt.ret v (some e)).ownVids))
      (fun x hx => by simp [Stmt.ownVids, Stmt.vids, hx])
    have c2 : Chunk (· ∈ (Stmt.ret v (some e)).ownVids) s1 s2 :=
      threadTo_chunk h2 (.inl (by simp [Stmt.ownVids, Stmt.vids]))
    exact (c1.trans c2).trans (setSuccessor_chunk h4 (by simp [Stmt.ownVids, Stmt.vids])
      (.inr h3))

theorem threadBody_chunk {s s' : ThreadState} {sentinel : Vid} (ts : List Stmt)
    (hn : Stmt.listNamedParameters ts)
    (h : threadBody sentinel s ts = some s') : Chunk (· ∈ Stmt.bodyVids ts) s s' :=
  match ts with
  | [] => by
    rw [threadBody, Option.some.injEq] at h
    subst h
    exact Chunk.refl s
  | t :: ts => by
    rw [threadBody, Option.bind_eq_some_iff] at h
    obtain ⟨s1, h1, h⟩ := h
    rw [Option.bind_eq_some_iff] at h
    obtain ⟨s2, h2, h⟩ := h
    have c1 := (threadStmt_chunk t hn.1 h1).mono (B := (· ∈ Stmt.bodyVids (t :: ts)))
      (fun x hx => by simp [Stmt.bodyVids, hx])
    have c3 := (threadBody_chunk ts hn.2 h).mono (B := (· ∈ Stmt.bodyVids (t :: ts)))
      (fun x hx => by simp [Stmt.bodyVids, hx])
    exact (c1.trans (afterStatement_chunk h2)).trans c3

theorem threadDefinitions_chunk {s s' : ThreadState} (ts : List Stmt)
    (hn : Stmt.listNamedParameters ts)
    (h : threadDefinitions s ts = some s') : DefChunk (· ∈ Stmt.definitionVids ts) s s' :=
  match ts with
  | [] => by
    rw [threadDefinitions, Option.some.injEq] at h
    subst h
    exact DefChunk.refl s
  | .function v n args bv bs body :: ts => by
    rw [threadDefinitions, Option.bind_eq_some_iff] at h
    obtain ⟨s1, h1, h⟩ := h
    rw [Option.bind_eq_some_iff] at h
    obtain ⟨s2, h2, h⟩ := h
    rw [Option.bind_eq_some_iff] at h
    obtain ⟨t, h3, h⟩ := h
    split at h
    · have c1 := (threadExprs_chunk args h1).mono
        (B := (· ∈ Stmt.definitionVids (.function v n args bv bs body :: ts)))
        (fun x hx => by simp [Stmt.definitionVids, Stmt.definitionVids1, Stmt.vids, hx])
      obtain ⟨⟨u, hu, hu'⟩, _⟩ := threadNames_last args v rfl hn.1.1 h1
      have c2 := (scope_chunk hu (fun s1 h1 => threadDefinitions_chunk body hn.1.2 h1)
        (fun s1 s2 h2 => threadBody_chunk body hn.1.2 h2) h2).1.mono
        (B := (· ∈ Stmt.definitionVids (.function v n args bv bs body :: ts)))
        (fun x hx => by
          have := Stmt.mem_listVids (ts := body) (x := x)
          simp only [Stmt.definitionVids, Stmt.definitionVids1, Stmt.vids, List.mem_cons,
            List.mem_append]
          rcases hx with rfl | hx
          · tauto
          · tauto)
      have c := c1.trans c2
      have d3 := (threadDefinitions_chunk ts hn.2 h).mono
        (B := (· ∈ Stmt.definitionVids (.function v n args bv bs body :: ts)))
        (fun x hx => by simp [Stmt.definitionVids, hx])
      have hv : v ∈ Stmt.definitionVids (.function v n args bv bs body :: ts) := by
        simp [Stmt.definitionVids, Stmt.definitionVids1, Stmt.vids]
      have hb : bs ∈ Stmt.definitionVids (.function v n args bv bs body :: ts) := by
        simp [Stmt.definitionVids, Stmt.definitionVids1, Stmt.vids]
      have ct : s2.table = s.table := c.table
      have d2 : DefChunk (· ∈ Stmt.definitionVids (.function v n args bv bs body :: ts)) s
          { s2 with table := t, last := s.last, functions := s.functions } := by
        refine ⟨rfl, rfl, ⟨?_, fun _ => (addValue_tail h3).2⟩, ?_, ?_, c.keep, ?_⟩
        · rw [← ct]
          exact (addValue_tail h3).1
        · intro x hx
          rcases inTable_addValue h3 hx with hx | rfl | rfl
          · rw [ct] at hx
            exact .inl hx
          · exact .inr hv
          · exact .inr hb
        · intro x hx1 hx2
          refine c.frame x ?_ hx1 hx2
          simp only [ne_eq, Option.some.injEq]
          rintro rfl
          exact hx1 hv
        · intro x y hy
          rcases c.newsAll x y hy with hy | hy | hy | hy
          · exact .inl hy
          · exact .inr (.inl hy)
          · exact .inr (.inr hy)
          · dsimp only at hy
            rw [List.head?_cons, Option.some.injEq] at hy
            subst hy
            exact .inr (.inl hb)
      exact d2.trans d3
    · cases h
  | .while _ _ _ _ _ _ _ _ _ :: _ => by
    rw [threadDefinitions] at h
    cases h
  | .expr _ :: ts => by
    rw [threadDefinitions] at h
    exact threadDefinitions_chunk ts hn.2 h
  | .assign _ _ _ _ :: ts => by
    rw [threadDefinitions] at h
    exact threadDefinitions_chunk ts hn.2 h
  | .ifElse _ _ _ _ _ _ _ _ _ :: ts => by
    rw [threadDefinitions] at h
    exact threadDefinitions_chunk ts hn.2 h
  | .ret _ _ :: ts => by
    rw [threadDefinitions] at h
    exact threadDefinitions_chunk ts hn.2 h

end

end Fern
