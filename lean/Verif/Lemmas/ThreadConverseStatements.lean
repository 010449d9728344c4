import Verif.Lemmas.ThreadConverse

/-!
# Lemmas about threading: modules that can be threaded
-/

namespace Fern

variable {g : Callable} {s s1 s2 s' : ThreadState}

/-- The part of `Stmt.fits` that concerns the second pass over the statements. -/
def Stmt.ownFits (direct : Bool) : Stmt → Bool
  | .function _ _ _ _ _ _ => true
  | t => t.fits direct

/-- The part of `Stmt.listFits` that concerns the second pass over the statements. -/
def Stmt.bodyFits (direct : Bool) : List Stmt → Bool
  | [] => true
  | t :: ts => t.ownFits direct && !t.retThenFunction ts && Stmt.bodyFits direct ts

/-- The part of `Stmt.listFits` that concerns the first pass over the statements. -/
def Stmt.definitionFits : List Stmt → Bool
  | [] => true
  | .function _ _ _ _ _ body :: ts => Stmt.listFits true body && Stmt.definitionFits ts
  | _ :: ts => Stmt.definitionFits ts

theorem Stmt.listFits_of {direct : Bool} (ts : List Stmt) (h1 : Stmt.bodyFits direct ts = true)
    (h2 : Stmt.definitionFits ts = true) : Stmt.listFits direct ts = true := by
  induction ts with
  | nil => rw [Stmt.listFits]
  | cons t ts ih =>
    rw [Stmt.bodyFits, Bool.and_eq_true, Bool.and_eq_true] at h1
    rw [Stmt.listFits, Bool.and_eq_true, Bool.and_eq_true]
    cases t with
    | function v n args bv bs body =>
      rw [Stmt.definitionFits, Bool.and_eq_true] at h2
      exact ⟨⟨by rw [Stmt.fits]; exact h2.1, h1.1.2⟩, ih h1.2 h2.2⟩
    | _ => exact ⟨h1.1, ih h1.2 h2⟩

theorem isExit_inTable {t : SymbolTable Threaded} {x : Vid} (h : TableExits t g) (hx : IsExit g x) :
    InTable t x := by
  obtain ⟨n, hn⟩ := hx
  rw [← h n, Option.map_eq_some_iff] at hn
  obtain ⟨f, hf, rfl⟩ := hn
  exact ⟨n, f, hf, .inr rfl⟩

theorem afterStatement_used {sentinel : Vid} (h : s.afterStatement sentinel = some s') :
    (∀ x, Used s x → Used s' x) ∧ s.last ≠ none ∧
      ((IsOpen s ∧ s' = s) ∨
        ∃ u, s.last = some u ∧ sentinel ∈ s.succ u ∧ s' = { s with last := none }) := by
  obtain ⟨u, hl, ⟨hu, rfl⟩ | ⟨hu, rfl⟩⟩ := afterStatement_eq h
  · refine ⟨fun _ h => h, by rw [hl]; simp, .inl ⟨?_, rfl⟩⟩
    intro w hw
    rw [hl, Option.some.injEq] at hw
    rwa [← hw]
  · refine ⟨?_, by rw [hl]; simp, .inr ⟨u, hl, hu, rfl⟩⟩
    rintro x (hx | hx)
    · exact .inl hx
    · rw [hl, Option.some.injEq] at hx
      subst hx
      exact .inl (fun h => by rw [h] at hu; simp at hu)

/-- What success of a visit of a statement tells. -/
def StmtConverse (t : Stmt) : Prop :=
  ∀ (X : Vid → Prop) (g : Callable) (s s1 s2 : ThreadState) (sentinel : Vid),
    TableExits s.table g → Unthreaded X s t.ownVids → t.ownVids.Nodup → t.namedParameters →
    sentinel ∉ t.ownVids → ¬ InTable s.table sentinel →
    (∀ x, sentinel ∈ s.succ x → x ∉ t.ownVids ∧ ¬ InTable s.table x) →
    threadStmt s t = some s1 → s1.afterStatement sentinel = some s2 →
    CallStep s s2 (stmtCalls g t) ∧ (∀ v e, t = .ret v e → s2.last = none) ∧
      ∀ direct : Bool, (s.functions.head? = some sentinel → direct = true) → t.ownFits direct = true

/-- What success of a visit of the statements of a scope tells. -/
def BodyConverse (ts : List Stmt) : Prop :=
  ∀ (X : Vid → Prop) (g : Callable) (s s' : ThreadState) (sentinel : Vid),
    TableExits s.table g → Unthreaded X s (Stmt.bodyVids ts) → (Stmt.bodyVids ts).Nodup →
    Stmt.listNamedParameters ts → sentinel ∉ Stmt.bodyVids ts → ¬ InTable s.table sentinel →
    (∀ x, sentinel ∈ s.succ x → x ∉ Stmt.bodyVids ts ∧ ¬ InTable s.table x) →
    threadBody sentinel s ts = some s' →
    CallStep s s' (bodyCalls g ts) ∧ (s.last = none → Stmt.startsWithFunction ts = false) ∧
      ∀ direct : Bool, (s.functions.head? = some sentinel → direct = true) →
        Stmt.bodyFits direct ts = true

/-- What success of a visit of the functions of a scope tells. -/
def DefinitionConverse (ts : List Stmt) : Prop :=
  ∀ (X : Vid → Prop) (g : Callable) (s s' : ThreadState), TableExits s.table g →
    Unthreaded X s (Stmt.definitionVids ts) → (Stmt.definitionVids ts).Nodup →
    Stmt.listNamedParameters ts → (∀ w, s.last = some w → ¬ InTable s.table w) →
    threadDefinitions s ts = some s' →
    CallStep s s' (definitionCalls g ts) ∧ TableExits s'.table (callables g ts) ∧
      Stmt.definitionFits ts = true

theorem scope_converse {X : Vid → Prop} {u v sentinel : Vid} {back : Option Vid} {t : List Stmt}
    (hd : DefinitionConverse t) (hb : BodyConverse t) (ht : TableExits s.table g)
    (hf : Unthreaded X s (v :: Stmt.listVids t)) (hn : (v :: sentinel :: Stmt.listVids t).Nodup)
    (hnp : Stmt.listNamedParameters t) (hu : s.last = some u) (hut : ¬ InTable s.table u)
    (hst : ¬ InTable s.table sentinel) (hsent : ∀ x, sentinel ∉ s.succ x)
    (h : s.scope v sentinel back (fun s => threadDefinitions s t) (fun s => threadBody sentinel s t) =
      some s') :
    CallStep s s' (definitionCalls g t ++ bodyCalls (callables g t) t) ∧
      ∀ direct : Bool, (s.functions.head? = some sentinel → direct = true) →
        Stmt.listFits direct t = true := by
  obtain ⟨u', s1, s2, s3, hl, h1, h2, h3, h4, rfl⟩ := scope_steps h
  rw [hu, Option.some.injEq] at hl
  subst hl
  have huv : u ∉ v :: Stmt.listVids t := fun h => hf.last u h hu
  have hf := hf.avoid huv
  rw [List.nodup_cons, List.nodup_cons] at hn
  obtain ⟨hv, hs, hnt⟩ := hn
  rw [List.mem_cons, not_or] at hv
  obtain ⟨hnd, hnb, hdis⟩ := List.nodup_append'.1 ((Stmt.listVids_perm t).nodup_iff.1 hnt)
  have hmem : ∀ {x}, x ∈ Stmt.listVids t ↔ _ := fun {x} => Stmt.mem_listVids (ts := t) (x := x)
  have d := threadDefinitions_chunk t hnp h1
  have b := threadBody_chunk t hnp h2
  have hft := hf.sub (l' := Stmt.listVids t) (by simp +contextual)
  have hf0 := hft.push.setLast hv.2
  have hf1 := (hf0.sub (l' := Stmt.bodyVids t) (fun x hx => hmem.2 (.inr hx))).defChunk d
    (fun x hx hx' => hdis hx' hx)
  obtain ⟨cd, te, fd⟩ := hd _ g { s with table := s.table.pushScope, last := some v } s1
    (tableExits_push ht)
    (hf0.sub (fun x hx => hmem.2 (.inl hx))) hnd hnp (by
      rintro w ⟨⟩ hw
      exact hf.table v (by simp) (inTable_push.1 hw)) h1
  have hs1 : ∀ x, sentinel ∉ s1.succ x := by
    intro x hx
    rcases d.news x sentinel hx with h | h | h
    · exact hsent x h
    · exact hs (hmem.2 (.inl h))
    · exact hst (inTable_push.1 h)
  have hst1 : ¬ InTable s1.table sentinel := by
    intro h
    rcases d.inTable sentinel h with h | h
    · exact hst (inTable_push.1 h)
    · exact hs (hmem.2 (.inl h))
  have hs2 : ∀ x, sentinel ∉ (s1.addSuccessor u v).succ x := by
    intro x hx
    change sentinel ∈ (if x = u then s1.succ u ++ [v] else s1.succ x) at hx
    split at hx
    · rw [List.mem_append, List.mem_singleton] at hx
      rcases hx with hx | hx
      · exact hs1 _ hx
      · exact hv.1 hx.symm
    · exact hs1 _ hx
  have hf2 := (hf1.addSuccessor (.inr rfl) (fun h => hv.2 (hmem.2 (.inr h)))).setLast
    (fun h => hv.2 (hmem.2 (.inr h)))
  obtain ⟨cb, -, fb⟩ := hb _ (callables g t)
    { s1.addSuccessor u v with last := some v } s2 sentinel te hf2 hnb hnp
    (fun h => hs (hmem.2 (.inr h))) hst1 (fun x hx => absurd hx (hs2 x)) h2
  have hadd : ∀ x, Used s1 x → Used { s1.addSuccessor u v with last := some v } x := by
    rintro x (hx | hx)
    · refine .inl ?_
      change (if x = u then s1.succ u ++ [v] else s1.succ x) ≠ []
      split
      · simp
      · exact hx
    · refine .inr ?_
      rw [d.last] at hx
      exact hx
  have hu2 : Used { s1.addSuccessor u v with last := some v } u := by
    refine .inl ?_
    change (if u = u then s1.succ u ++ [v] else s1.succ u) ≠ []
    rw [if_pos rfl]
    simp
  have hend : ∀ x, Used s2 x → Used { s3 with table := s3.table.tail } x := by
    rcases endScope_eq h3 with ⟨hn, rfl⟩ | ⟨w, hw, hw', rfl⟩
    · rintro x (hx | hx)
      · exact .inl hx
      · rw [hn] at hx
        cases hx
    · rintro x (hx | hx)
      · refine .inl ?_
        dsimp only
        split
        · simp
        · exact hx
      · rw [hw, Option.some.injEq] at hx
        refine .inl ?_
        dsimp only
        rw [if_pos hx.symm]
        simp
  have c := (cd.after hadd).trans (cb.after hend)
  refine ⟨⟨c.nodup, ?_, c.used, ?_⟩, fun direct hdir => ?_⟩
  · rintro x hx (hu' | hu')
    · exact c.fresh x hx (.inl hu')
    · rw [hu, Option.some.injEq] at hu'
      subst hu'
      rcases scopeCalls_exit g t u hx with h | h
      · exact hut (isExit_inTable ht h)
      · exact huv (by simp [h])
  · rintro x (hu' | hu')
    · exact c.mono x (.inl hu')
    · rw [hu, Option.some.injEq] at hu'
      subst hu'
      exact hend u (cb.mono u hu2)
  · refine Stmt.listFits_of t (fb direct ?_) fd
    intro h
    refine hdir ?_
    rw [← h]
    change _ = s1.functions.head?
    rw [d.functions]

theorem expr_converse (e : Expr) : StmtConverse (.expr e) := by
  intro X g s s1 s2 S ht hf hn hnp hS hSt hK h1 h2
  rw [threadStmt] at h1
  refine ⟨?_, by rintro v e' ⟨⟩, fun _ _ => rfl⟩
  rw [stmtCalls]
  have ho : IsOpen s1 ∧ s2 = s1 := by
    rcases (afterStatement_used h2).2.2 with h | ⟨u, hl, hu, rfl⟩
    · exact h
    · exfalso
      have hw : u ∈ e.vids ∨ InTable s.table u := by
        obtain ⟨w, hw, hw'⟩ := (threadExpr_chunk e h1).2
        rw [hl, Option.some.injEq] at hw
        rwa [hw]
      rcases threadExpr_news e h1 u S hu with h | h | h
      · rcases hw with hw | hw
        · exact (hK u h).1 hw
        · exact (hK u h).2 hw
      · exact hS h
      · exact hSt h
  rw [ho.2]
  exact (threadExpr_step e ht h1 ho.1).2

theorem assign_converse (v target : Vid) (n : Str) (e : Expr) :
    StmtConverse (.assign v target n e) := by
  intro X g s s1 s2 S ht hf hn hnp hS hSt hK h1 h2
  refine ⟨?_, by rintro v e' ⟨⟩, fun _ _ => rfl⟩
  rw [threadStmt, Option.bind_eq_some_iff] at h1
  obtain ⟨s3, h3, h1⟩ := h1
  rw [Option.bind_eq_some_iff] at h1
  obtain ⟨s4, h4, h5⟩ := h1
  rw [stmtCalls]
  have t4 := threadTo_step h4
  have i := (threadExpr_step e ht h3 t4.1).2
  exact ((i.after t4.2.mono).after (threadTo_step h5).2.mono).after (afterStatement_used h2).1

theorem function_converse (v : Vid) (n : Str) (args : List Expr) (bv bs : Vid) (body : List Stmt) :
    StmtConverse (.function v n args bv bs body) := by
  intro X g s s1 s2 S ht hf hn hnp hS hSt hK h1 h2
  refine ⟨?_, by rintro v e' ⟨⟩, fun _ _ => rfl⟩
  rw [threadStmt, Option.some.injEq] at h1
  subst h1
  rw [stmtCalls]
  exact CallStep.ofMono (afterStatement_used h2).1

theorem while_converse (v sentinel : Vid) (c : Expr) (tv ts : Vid) (t : List Stmt) (fv fs : Vid)
    (f : List Stmt) : StmtConverse (.while v sentinel c tv ts t fv fs f) := by
  intro X g s s1 s2 S ht hf hn hnp hS hSt hK h1 h2
  rw [threadStmt] at h1
  cases h1

theorem ret_converse (v : Vid) (e : Option Expr) : StmtConverse (.ret v e) := by
  intro X g s s1 s2 S ht hf hn hnp hS hSt hK h1 h2
  obtain ⟨s3, s4, b, h3, h4, h5, h6⟩ := ret_steps h1
  have t4 := threadTo_step h4
  have i : CallStep s s3 (stmtCalls g (.ret v e)) := by
    cases e with
    | none =>
      rw [Option.some.injEq] at h3
      subst h3
      rw [stmtCalls]
      exact CallStep.ofMono fun _ h => h
    | some e =>
      rw [stmtCalls]
      exact (threadExpr_step e ht h3 t4.1).2
  have hfun : s4.functions = s.functions := by
    rw [(threadTo_chunk (A := (· = v)) h4 (.inl rfl)).functions]
    cases e with
    | none =>
      rw [Option.some.injEq] at h3
      subst h3
      rfl
    | some e => exact (threadExpr_chunk e h3).1.functions
  have u6 := setSuccessor_used h6
  have hl : s1.last = some v := u6.2.2.trans (threadTo_last h4)
  have hsv : s1.succ v = [b] := by
    obtain ⟨_, rfl⟩ := setSuccessor_eq h6
    simp
  rcases (afterStatement_used h2).2.2 with h | ⟨u, hl', hu, rfl⟩
  · have := h.1 v hl
    rw [hsv] at this
    cases this
  · rw [hl, Option.some.injEq] at hl'
    subst hl'
    rw [hsv, List.mem_singleton] at hu
    refine ⟨((i.after t4.2.mono).after u6.1).after (afterStatement_used h2).1, fun _ _ _ => rfl, ?_⟩
    intro direct hd
    rw [Stmt.ownFits, Stmt.fits]
    · refine hd ?_
      rw [← hfun, h5, hu]
    · simp

set_option maxHeartbeats 1000000 in
theorem if_converse (v sentinel : Vid) (c : Expr) (tv ts : Vid) (t : List Stmt) (fv fs : Vid)
    (f : List Stmt) (hdt : DefinitionConverse t) (hbt : BodyConverse t)
    (hdf : DefinitionConverse f) (hbf : BodyConverse f) :
    StmtConverse (.ifElse v sentinel c tv ts t fv fs f) := by
  intro X g s s' s'' S ht hf hn hnp hS hSt hK h h''
  rw [threadStmt, Option.bind_eq_some_iff] at h
  obtain ⟨s1, h1, h⟩ := h
  rw [Option.bind_eq_some_iff] at h
  obtain ⟨s2, h2, h⟩ := h
  rw [Option.bind_eq_some_iff] at h
  obtain ⟨s3, h3, h⟩ := h
  rw [Option.bind_eq_some_iff] at h
  obtain ⟨s4, h4, h⟩ := h
  have h2' := (linkTo_threadTo h2).1
  simp only [Stmt.ownVids, Stmt.vids] at hf hn
  simp only [List.nodup_cons, List.nodup_append', List.mem_cons, List.mem_append, not_or,
    List.disjoint_cons_right, List.disjoint_append_right] at hn
  obtain ⟨⟨hv1, hv2, hv3, hv4, hv5, hv6, hv7, hv8⟩, ⟨hs2, hs3, hs4, hs5, hs6, hs7, hs8⟩, hnc,
    ⟨⟨ht1, ht2, ht3, ht4, ht5⟩, ⟨hts1, hts2, hts3, hts4⟩, hnt, ⟨⟨hfv1, hfv2⟩, hfs, hnf⟩, hdtf⟩,
    hct, hcs, hctt, hcfv, hcfs, hcf⟩ := hn
  have c1 := (threadExpr_chunk c h1).1
  have hfr1 : Unthreaded X s1 (v :: sentinel :: tv :: ts :: fv :: fs ::
      (Stmt.listVids t ++ Stmt.listVids f)) := by
    refine (hf.sub ?_).chunk c1 ?_
    · intro x hx
      simp only [List.mem_cons, List.mem_append] at hx ⊢
      tauto
    · intro x hx hx'
      simp only [List.mem_cons, List.mem_append] at hx
      rcases hx with rfl | rfl | rfl | rfl | rfl | rfl | hx | hx
      · exact hv2 hx'
      · exact hs2 hx'
      · exact hct hx'
      · exact hcs hx'
      · exact hcfv hx'
      · exact hcfs hx'
      · exact hctt hx' hx
      · exact hcf hx' hx
  have c2 := threadTo_chunk (A := (· = v)) h2' (.inl rfl)
  have hfr2 : Unthreaded X s2 (sentinel :: tv :: ts :: fv :: fs ::
      (Stmt.listVids t ++ Stmt.listVids f)) := by
    have hnv : ∀ x ∈ (sentinel :: tv :: ts :: fv :: fs :: (Stmt.listVids t ++ Stmt.listVids f)),
        ¬ x = v := by
      intro x hx
      simp only [List.mem_cons, List.mem_append] at hx
      rintro rfl
      tauto
    refine (hfr1.sub ?_).chunk c2 hnv
    intro x hx
    exact List.mem_cons_of_mem _ hx
  have hl2 : s2.last = some v := threadTo_last h2'
  have ht2' : s2.table = s.table := c2.table.trans c1.table
  have hvt : ¬ InTable s.table v := hf.table v (by simp)
  obtain ⟨c3, hl3⟩ := scope_chunk hl2 (fun s1 h1 => threadDefinitions_chunk t hnp.1 h1)
    (fun s1 s2 h2 => threadBody_chunk t hnp.1 h2) h3
  have hA3 : ∀ x, x ∈ sentinel :: fv :: fs :: Stmt.listVids f →
      ¬ (x = v ∨ x = tv ∨ x = ts ∨ x ∈ Stmt.definitionVids t ∨ x ∈ Stmt.bodyVids t) := by
    intro x hx
    rw [← Stmt.mem_listVids]
    simp only [List.mem_cons] at hx
    rcases hx with rfl | rfl | rfl | hx
    · tauto
    · tauto
    · tauto
    · rintro (rfl | rfl | rfl | h)
      · exact hv8 hx
      · exact ht5 hx
      · exact hts4 hx
      · exact hdtf.2.2 h hx
  have hfr3 : Unthreaded X s3 (sentinel :: fv :: fs :: Stmt.listVids f) := by
    refine (hfr2.sub ?_).chunk c3 hA3
    intro x hx
    simp only [List.mem_cons, List.mem_append] at hx ⊢
    tauto
  have c4 : Chunk (fun x => x = ts ∨ x = sentinel) s3 s4 :=
    setSuccessor_chunk h4 (.inl rfl) (.inl (.inr rfl))
  have hfr4 : Unthreaded X s4 (fv :: fs :: Stmt.listVids f) := by
    refine (hfr3.sub (fun x hx => List.mem_cons_of_mem _ hx)).chunk c4 ?_
    intro x hx
    simp only [List.mem_cons] at hx
    rcases hx with rfl | rfl | hx
    · tauto
    · tauto
    · rintro (rfl | rfl)
      · exact hts4 hx
      · exact hs8 hx
  have ht4' : s4.table = s.table := by rw [c4.table, c3.table, ht2']
  -- The condition and the first scope.
  have t2 := threadTo_step h2'
  have i1 := (threadExpr_step c ht h1 t2.1).2.after t2.2.mono
  have hf2fun : s2.functions.head? ≠ some ts := hfr2.head ts (by simp)
  obtain ⟨i3, f3⟩ := scope_converse (X := X) (g := g) hdt hbt (by rwa [ht2'])
    (hfr2.sub (fun x hx => by
      simp only [List.mem_cons, List.mem_append] at hx ⊢
      tauto))
    (by
      simp only [List.nodup_cons, List.mem_cons, not_or]
      exact ⟨⟨ht1, ht2⟩, hts1, hnt⟩) hnp.1 hl2 (by rwa [ht2']) (hfr2.table ts (by simp))
    (hfr2.pred ts (by simp)) h3
  have u4 := setSuccessor_used h4
  have hl4 : s4.last = some ts := u4.2.2.trans hl3
  have m4 : ∀ w x, Used s4 x → Used (s4.startAt w) x := by
    rintro w x (hx | hx)
    · exact .inl hx
    · rw [hl4, Option.some.injEq] at hx
      subst hx
      exact .inl u4.2.1
  have i4 := fun w => (i3.after u4.1).after (m4 w)
  have hft : Stmt.listFits false t = true := f3 false (fun h => absurd h hf2fun)
  rw [stmtCalls]
  refine ⟨?_, by rintro v e' ⟨⟩, fun direct _ => ?_⟩
  · refine CallStep.after (i1.trans ?_) (afterStatement_used h'').1
    split at h
    · rename_i hfe
      rw [Option.some.injEq] at h
      rw [← h]
      rw [List.isEmpty_iff] at hfe
      subst hfe
      have := i4 sentinel
      simpa [definitionCalls, bodyCalls] using this
    · rw [Option.bind_eq_some_iff] at h
      obtain ⟨s5, h5, h⟩ := h
      rw [Option.map_eq_some_iff] at h
      obtain ⟨s6, h6, rfl⟩ := h
      obtain ⟨i5, _⟩ := scope_converse (X := X) (g := g) (s := s4.startAt v) (u := v) hdf hbf
        (by change TableExits s4.table g; rwa [ht4'])
        ((hfr4.sub (fun x hx => by
          simp only [List.mem_cons] at hx ⊢
          tauto)).setLast (by simp only [List.mem_cons, not_or]; exact ⟨hv6, hv8⟩))
        (by
          simp only [List.nodup_cons, List.mem_cons, not_or]
          exact ⟨⟨hfv1, hfv2⟩, hfs, hnf⟩) hnp.2 rfl (by change ¬ InTable s4.table v; rwa [ht4'])
        (hfr4.table fs (by simp)) (hfr4.pred fs (by simp)) h5
      have hl5 := (scope_chunk (s := s4.startAt v) rfl
        (fun s1 h1 => threadDefinitions_chunk f hnp.2 h1)
        (fun s1 s2 h2 => threadBody_chunk f hnp.2 h2) h5).2
      have u6 := setSuccessor_used h6
      have hl6 : s6.last = some fs := u6.2.2.trans hl5
      refine (i4 v).trans ((i5.after u6.1).after ?_)
      rintro x (hx | hx)
      · exact .inl hx
      · rw [hl6, Option.some.injEq] at hx
        subst hx
        exact .inl u6.2.1
  · have hff : Stmt.listFits false f = true := by
      split at h
      · rename_i hfe
        rw [List.isEmpty_iff] at hfe
        subst hfe
        rw [Stmt.listFits]
      · rw [Option.bind_eq_some_iff] at h
        obtain ⟨s5, h5, h⟩ := h
        obtain ⟨_, f5⟩ := scope_converse (X := X) (g := g) (s := s4.startAt v) (u := v) hdf hbf
          (by change TableExits s4.table g; rwa [ht4'])
          ((hfr4.sub (fun x hx => by
            simp only [List.mem_cons] at hx ⊢
            tauto)).setLast (by simp only [List.mem_cons, not_or]; exact ⟨hv6, hv8⟩))
          (by
            simp only [List.nodup_cons, List.mem_cons, not_or]
            exact ⟨⟨hfv1, hfv2⟩, hfs, hnf⟩) hnp.2 rfl (by change ¬ InTable s4.table v; rwa [ht4'])
          (hfr4.table fs (by simp)) (hfr4.pred fs (by simp)) h5
        exact f5 false (fun h => absurd h (hfr4.head fs (by simp)))
    rw [Stmt.ownFits, Stmt.fits, hft, hff]
    · rfl
    · simp

theorem body_converse_cons (t : Stmt) (ts : List Stmt) (h1 : StmtConverse t)
    (h2 : BodyConverse ts) : BodyConverse (t :: ts) := by
  intro X g s s' S ht hf hn hnp hS hSt hK h
  rw [threadBody, Option.bind_eq_some_iff] at h
  obtain ⟨s1, e1, h⟩ := h
  rw [Option.bind_eq_some_iff] at h
  obtain ⟨s2, e2, h⟩ := h
  rw [Stmt.bodyVids] at hf hn hS hK
  obtain ⟨hn1, hn2, hdis⟩ := List.nodup_append'.1 hn
  rw [List.mem_append, not_or] at hS
  obtain ⟨i1, r1, f1⟩ := h1 X g s s1 s2 S ht (hf.sub (by simp +contextual)) hn1 hnp.1 hS.1 hSt
    (fun x hx => ⟨fun h => (hK x hx).1 (by simp [h]), (hK x hx).2⟩) e1 e2
  have c := (threadStmt_chunk t hnp.1 e1).trans (afterStatement_chunk e2)
  obtain ⟨i2, r2, f2⟩ := h2 X g s2 s' S (by rwa [c.table])
    ((hf.sub (l' := Stmt.bodyVids ts) (by simp +contextual)).chunk c (fun x hx hx' => hdis hx' hx)) hn2
    hnp.2 hS.2 (by rwa [c.table]) (by
      intro x hx
      rw [c.table]
      by_cases hx' : x ∈ t.ownVids
      · exact ⟨fun h => hdis hx' h, hf.table x (by simp [hx'])⟩
      · rcases c.news x hx' S hx with h | h | h
        · exact ⟨fun h' => (hK x h).1 (by simp [h']), (hK x h).2⟩
        · exact absurd h hS.1
        · exact absurd h hSt) h
  refine ⟨?_, ?_, ?_⟩
  · rw [bodyCalls]
    exact i1.trans i2
  · intro hl
    cases t with
    | function v n args bv bs body =>
      rw [threadStmt, Option.some.injEq] at e1
      subst e1
      exact absurd hl (afterStatement_used e2).2.1
    | _ => rfl
  · intro direct hd
    rw [Stmt.bodyFits, Bool.and_eq_true, Bool.and_eq_true]
    refine ⟨⟨f1 direct hd, ?_⟩, f2 direct (fun h => hd (by rwa [c.functions] at h))⟩
    cases t with
    | ret v e =>
      have := r2 (r1 v e rfl)
      rcases ts with _ | ⟨t, ts⟩
      · rfl
      · cases t with
        | function v n args bv bs body => rw [Stmt.startsWithFunction] at this; cases this
        | _ => rfl
    | _ => rfl

theorem body_converse_nil : BodyConverse [] := by
  intro X g s s' S ht hf hn hnp hS hSt hK h
  rw [threadBody, Option.some.injEq] at h
  subst h
  rw [bodyCalls]
  exact ⟨CallStep.ofMono fun _ h => h, fun _ => rfl, fun _ _ => rfl⟩

theorem threadNames_used {s s' : ThreadState} (args : List Expr)
    (ha : ∀ a ∈ args, ∃ v n, a = .name v n) (h : threadExprs s args = some s') :
    ∀ x, Used s x → Used s' x := by
  induction args generalizing s with
  | nil =>
    rw [threadExprs, Option.some.injEq] at h
    subst h
    exact fun _ h => h
  | cons a args ih =>
    obtain ⟨v, n, rfl⟩ := ha a (by simp)
    rw [threadExprs, Option.bind_eq_some_iff] at h
    obtain ⟨s1, h1, h⟩ := h
    rw [threadExpr] at h1
    exact fun x hx => ih (fun a h => ha a (by simp [h])) h x ((threadTo_step h1).2.mono x hx)

theorem definition_converse_function (v : Vid) (n : Str) (args : List Expr) (bv bs : Vid)
    (body ts : List Stmt) (hd : DefinitionConverse body) (hb : BodyConverse body)
    (hts : DefinitionConverse ts) : DefinitionConverse (.function v n args bv bs body :: ts) := by
  intro X g s s' ht hf hn hnp hlast h
  rw [threadDefinitions, Option.bind_eq_some_iff] at h
  obtain ⟨s1, h1, h⟩ := h
  rw [Option.bind_eq_some_iff] at h
  obtain ⟨s2, h2, h⟩ := h
  rw [Option.bind_eq_some_iff] at h
  obtain ⟨t, h3, h⟩ := h
  split at h
  case isFalse => cases h
  rename_i hcond
  have hone : threadDefinitions s [.function v n args bv bs body] =
      some { s2 with table := t, last := s.last, functions := s.functions } := by
    rw [threadDefinitions, h1, Option.bind_some, h2, Option.bind_some, h3, Option.bind_some,
      if_pos hcond, threadDefinitions]
  have d1 := threadDefinitions_chunk [.function v n args bv bs body] ⟨hnp.1, trivial⟩ hone
  simp only [Stmt.definitionVids, Stmt.definitionVids1, List.append_nil] at d1 hf hn
  obtain ⟨hn1, hn2, hdis⟩ := List.nodup_append'.1 hn
  have hfr : Unthreaded X { s2 with table := t, last := s.last, functions := s.functions }
      (Stmt.definitionVids ts) :=
    (hf.sub (fun x hx => by simp [hx])).defChunk d1 (fun x hx hx' => hdis hx' hx)
  have hsl : ∀ w, s.last = some w → w ∉ (Stmt.function v n args bv bs body).vids :=
    fun w hw h => hf.last w (by simp [h]) hw
  simp only [Stmt.vids, List.nodup_cons, List.nodup_append', List.mem_cons, List.mem_append, not_or,
    List.disjoint_cons_right] at hn1
  obtain ⟨⟨hv1, hv2, hv3, hv4⟩, hna, ⟨⟨hbv1, hbv2⟩, hbs, hnb⟩, hda1, hda2, hda3⟩ := hn1
  have hf0 : Unthreaded X { s with last := some v, functions := bs :: s.functions }
      (bv :: (Expr.listVids args ++ Stmt.listVids body)) := by
    have hf' : Unthreaded X s (bv :: (Expr.listVids args ++ Stmt.listVids body)) := by
      refine hf.sub (fun x hx => ?_)
      simp only [Stmt.vids, List.mem_cons, List.mem_append] at hx ⊢
      tauto
    refine ⟨hf'.succ, hf'.table, hf'.out, fun x hx => ?_, hf'.pred, fun x hx => ?_⟩
    · simp only [ne_eq, Option.some.injEq]
      rintro rfl
      simp only [List.mem_cons, List.mem_append] at hx
      tauto
    · rw [List.head?_cons]
      simp only [ne_eq, Option.some.injEq]
      rintro rfl
      simp only [List.mem_cons, List.mem_append] at hx
      rcases hx with hx | hx | hx
      · exact hbv1 hx.symm
      · exact hda2 hx
      · exact hbs hx
  have hfv : Unthreaded X s [v, bs] := by
    refine hf.sub (fun x hx => ?_)
    simp only [Stmt.vids, List.mem_cons, List.mem_append, List.not_mem_nil, or_false] at hx ⊢
    tauto
  have c1 := threadExprs_chunk args h1
  obtain ⟨⟨u, hu, hu'⟩, hnews⟩ := threadNames_last args v rfl hnp.1.1 h1
  have hut : ¬ InTable s.table u := by
    rcases hu' with rfl | h
    · exact hfv.table u (by simp)
    · exact hf0.table u (by simp [h])
  have ht1' : s1.table = s.table := c1.table
  have hf1 : Unthreaded X s1 (bv :: Stmt.listVids body) := by
    refine (hf0.sub ?_).chunk c1 ?_
    · intro x hx
      simp only [List.mem_cons, List.mem_append] at hx ⊢
      tauto
    · intro x hx hx'
      rcases List.mem_cons.1 hx with rfl | hx
      · exact hda1 hx'
      · exact hda3 hx' hx
  obtain ⟨i2, f2⟩ := scope_converse (X := X) (g := g) hd hb (by rwa [ht1']) hf1
    (by
      simp only [List.nodup_cons, List.mem_cons, not_or]
      exact ⟨⟨hbv1, hbv2⟩, hbs, hnb⟩) hnp.1.2 hu (by rwa [ht1'])
    (by rw [ht1']; exact hfv.table bs (by simp))
    (by
      intro x hx
      rcases hnews x bs hx with h | h
      · exact hfv.pred bs (by simp) x h
      · exact hda2 h) h2
  have m1 := threadNames_used args hnp.1.1 h1
  have i12 := CallStep.before m1 i2
  have ct2 : s2.table = s.table := by
    rw [(scope_chunk hu (fun s1 h1 => threadDefinitions_chunk body hnp.1.2 h1)
      (fun s1 s2 h2 => threadBody_chunk body hnp.1.2 h2) h2).1.table, ht1']
  have hne : s2.table ≠ [] := by
    intro h
    rw [h] at h3
    cases h3
  obtain ⟨t', h3', te⟩ := tableExits_addValue (g := g) n ⟨v, bs⟩ (by rwa [ct2]) hne
  rw [h3, Option.some.injEq] at h3'
  subst h3'
  -- The function.
  have hexit := scopeCalls_exit g body
  generalize hCb : definitionCalls g body ++ bodyCalls (callables g body) body = Cb at i12 hexit
  have i : CallStep s { s2 with table := t, last := s.last, functions := s.functions } Cb := by
    refine ⟨i12.nodup, ?_, ?_, ?_⟩
    · rintro x hx (hu | hu)
      · exact i12.fresh x hx (.inl hu)
      · rcases hexit x hx with h | h
        · exact hlast x hu (isExit_inTable ht h)
        · exact hsl x hu (by simp [Stmt.vids, h])
    · intro x hx
      rcases i12.used x hx with h | h
      · exact .inl h
      · rw [hcond.1, Option.some.injEq] at h
        subst h
        rcases hexit bs hx with h | h
        · exact absurd (isExit_inTable ht h) (hfv.table bs (by simp))
        · exact absurd h hbs
    · rintro x (hx | hx)
      · rcases i12.mono x (.inl hx) with h | h
        · exact .inl h
        · rw [hcond.1, Option.some.injEq] at h
          subst h
          exact absurd (hfv.succ bs (by simp)) hx
      · exact .inr hx
  obtain ⟨ir, tr, fr⟩ := hts X (g.define n bs) _ s' te hfr hn2 hnp.2 (by
    intro w hw hwt
    rcases d1.inTable w hwt with h | h
    · exact hlast w hw h
    · exact hsl w hw h) h
  refine ⟨?_, ?_, ?_⟩
  · rw [definitionCalls, exprsCalls_names args hnp.1.1, List.nil_append, hCb]
    exact i.trans ir
  · rw [callables]
    exact tr
  · rw [Stmt.definitionFits, f2 true (fun _ => rfl), fr]
    rfl

theorem definition_converse_skip (t : Stmt) (ts : List Stmt)
    (hs : ∀ s, threadDefinitions s (t :: ts) = threadDefinitions s ts)
    (hg : ∀ g, callables g (t :: ts) = callables g ts)
    (hc : ∀ g, definitionCalls g (t :: ts) = definitionCalls g ts)
    (hd : Stmt.definitionFits (t :: ts) = Stmt.definitionFits ts)
    (hv : t.definitionVids1 = []) (h : DefinitionConverse ts) : DefinitionConverse (t :: ts) := by
  intro X g s s' ht hf hn hnp hl h'
  rw [Stmt.definitionVids, hv, List.nil_append] at hf hn
  rw [hs] at h'
  rw [hc, hg, hd]
  exact h X g s s' ht hf hn hnp.2 hl h'

mutual

theorem threadStmt_converse (t : Stmt) : StmtConverse t :=
  match t with
  | .expr e => expr_converse e
  | .assign v target n e => assign_converse v target n e
  | .ifElse v sentinel c tv ts t fv fs f =>
    if_converse v sentinel c tv ts t fv fs f (threadDefinitions_converse t) (threadBody_converse t)
      (threadDefinitions_converse f) (threadBody_converse f)
  | .while v sentinel c tv ts t fv fs f => while_converse v sentinel c tv ts t fv fs f
  | .function v n args bv bs body => function_converse v n args bv bs body
  | .ret v e => ret_converse v e

theorem threadBody_converse (ts : List Stmt) : BodyConverse ts :=
  match ts with
  | [] => body_converse_nil
  | t :: ts => body_converse_cons t ts (threadStmt_converse t) (threadBody_converse ts)

theorem threadDefinitions_converse (ts : List Stmt) : DefinitionConverse ts :=
  match ts with
  | [] => by
    intro X g s s' ht hf hn hnp hl h
    rw [threadDefinitions, Option.some.injEq] at h
    subst h
    rw [definitionCalls, callables]
    exact ⟨CallStep.ofMono fun _ h => h, ht, rfl⟩
  | .function v n args bv bs body :: ts =>
    definition_converse_function v n args bv bs body ts (threadDefinitions_converse body)
      (threadBody_converse body) (threadDefinitions_converse ts)
  | .while v sentinel c tv bs t fv fs f :: ts => by
    intro X g s s' ht hf hn hnp hl h
    rw [threadDefinitions] at h
    cases h
  | .expr _ :: ts =>
    definition_converse_skip _ ts (fun _ => by rw [threadDefinitions]) (fun _ => rfl)
      (fun _ => by rw [definitionCalls]; simp) rfl rfl (threadDefinitions_converse ts)
  | .assign _ _ _ _ :: ts =>
    definition_converse_skip _ ts (fun _ => by rw [threadDefinitions]) (fun _ => rfl)
      (fun _ => by rw [definitionCalls]; simp) rfl rfl (threadDefinitions_converse ts)
  | .ifElse _ _ _ _ _ _ _ _ _ :: ts =>
    definition_converse_skip _ ts (fun _ => by rw [threadDefinitions]) (fun _ => rfl)
      (fun _ => by rw [definitionCalls]; simp) rfl rfl (threadDefinitions_converse ts)
  | .ret _ _ :: ts =>
    definition_converse_skip _ ts (fun _ => by rw [threadDefinitions]) (fun _ => rfl)
      (fun _ => by rw [definitionCalls]; simp) rfl rfl (threadDefinitions_converse ts)

end

/-- In a module that is threaded functions are called at most once, there are no loops, and return
statements are only directly in functions. -/
theorem threadModule_converse (m : Module) (hn : m.vids.Nodup)
    (hnp : Stmt.listNamedParameters m.statements) (s : ThreadState) (h : threadModule m = some s) :
    m.calls.Nodup ∧ Stmt.listFits false m.statements = true := by
  rw [Module.vids, List.nodup_cons] at hn
  obtain ⟨hm, hn⟩ := hn
  simp only [List.mem_cons, not_or] at hm
  rw [threadModule, Option.bind_eq_some_iff] at h
  obtain ⟨s1, h1, h⟩ := h
  have hin : ∀ x, ¬ InTable (ThreadState.initial.startAt m.v).table x := by
    rintro x ⟨n, f, h, _⟩
    cases h
  obtain ⟨i, f⟩ := scope_converse (X := fun _ => False) (g := fun _ => none)
    (s := ThreadState.initial.startAt m.v) (u := m.v) (threadDefinitions_converse m.statements)
    (threadBody_converse m.statements) (fun _ => rfl)
    (by
      refine ⟨fun _ _ => rfl, fun x _ => hin x, fun _ _ h => h, fun x hx => ?_, fun _ _ _ => by
        simp [ThreadState.initial, ThreadState.startAt], fun _ _ => by
        simp [ThreadState.initial, ThreadState.startAt]⟩
      simp only [ThreadState.startAt, ne_eq, Option.some.injEq]
      rintro rfl
      simp only [List.mem_cons] at hx
      tauto) hn hnp rfl (hin _) (hin _)
    (fun _ => by simp [ThreadState.initial, ThreadState.startAt]) h1
  exact ⟨i.nodup, f false (by simp [ThreadState.initial, ThreadState.startAt])⟩

end Fern
