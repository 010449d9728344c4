import Verif.Lemmas.ThreadPaths

/-!
# Lemmas about threading: the paths through statements, scopes and functions
-/

namespace Fern

variable {σ : Vid → List Vid} {m : Vid}

/-- The paths through the statements of a scope, second pass. -/
def BodyPaths (σ : Vid → List Vid) (m : Vid) (ts : List Stmt) : Prop :=
  ∀ (X : Vid → Prop) (s s' : ThreadState) (u sentinel : Vid) (g : FunctionTraces), X m →
    (∀ x, InTable s.table x → ¬ X x) → Knows σ m s.table g →
    Unthreaded X s (Stmt.bodyVids ts) → (Stmt.bodyVids ts).Nodup → Stmt.listNamedParameters ts →
    s.last = some u → ¬ X u → sentinel ∉ s.succ u →
    (∀ x, InTable s.table x → sentinel ∉ s.succ x) → ¬ InTable s.table sentinel →
    sentinel ∉ Stmt.bodyVids ts → threadBody sentinel s ts = some s' → Agree σ X s' →
    ∃ w, ¬ X w ∧ Through σ m u (bodyTraces g ts) w ∧ (s'.last = some w ∨ σ w = [sentinel])

/-- The paths through the functions that are defined in a scope. -/
def DefinitionPaths (σ : Vid → List Vid) (m : Vid) (ts : List Stmt) : Prop :=
  ∀ (X : Vid → Prop) (s s' : ThreadState) (g : FunctionTraces), X m →
    (∀ x, InTable s.table x → ¬ X x) → Knows σ m s.table g →
    Unthreaded X s (Stmt.definitionVids ts) → (Stmt.definitionVids ts).Nodup →
    Stmt.listNamedParameters ts → threadDefinitions s ts = some s' → Agree σ X s' →
    Knows σ m s'.table (definitionTraces g ts)

theorem knows_push {t : SymbolTable Threaded} {g : FunctionTraces} (h : Knows σ m t g) :
    Knows σ m t.pushScope g := by
  intro n
  have := h n
  rw [SymbolTable.pushScope]
  simp only [SymbolTable.value_cons, Scope.value_nil, Option.none_or]
  exact this

theorem inTable_push {t : SymbolTable Threaded} {x : Vid} :
    InTable t.pushScope x ↔ InTable t x := inTable_cons_nil

theorem Unthreaded.setLast {X : Vid → Prop} {s : ThreadState} {l : List Vid} (h : Unthreaded X s l) {v : Vid}
    (hv : v ∉ l) : Unthreaded X { s with last := some v } l :=
  ⟨h.succ, h.table, h.out, fun x hx => by
    simp only [ne_eq, Option.some.injEq]
    rintro rfl
    exact hv hx, h.pred, h.head⟩

theorem Unthreaded.avoid {X : Vid → Prop} {s : ThreadState} {l : List Vid} (h : Unthreaded X s l) {v : Vid}
    (hv : v ∉ l) : Unthreaded (fun x => X x ∨ x = v) s l :=
  ⟨h.succ, h.table, fun x hx h' => h'.elim (h.out x hx) (fun h' => hv (by rwa [← h'])), h.last, h.pred,
    h.head⟩

theorem Unthreaded.push {X : Vid → Prop} {s : ThreadState} {l : List Vid} (h : Unthreaded X s l) :
    Unthreaded X { s with table := s.table.pushScope } l :=
  ⟨h.succ, fun x hx h' => h.table x hx (inTable_push.1 h'), h.out, h.last, h.pred, h.head⟩

theorem Unthreaded.addSuccessor {X : Vid → Prop} {s : ThreadState} {l : List Vid} (h : Unthreaded X s l)
    {u v : Vid} (hu : X u) (hv : v ∉ l) : Unthreaded X (s.addSuccessor u v) l := by
  refine ⟨fun x hx => ?_, h.table, h.out, h.last, fun x hx y hy => ?_, h.head⟩
  · have : x ≠ u := fun h' => h.out x hx (by rwa [h'])
    change (if x = u then _ else s.succ x) = []
    rw [if_neg this]
    exact h.succ x hx
  · change x ∈ (if y = u then s.succ u ++ [v] else s.succ y) at hy
    split at hy
    · rw [List.mem_append, List.mem_singleton] at hy
      rcases hy with hy | rfl
      · exact h.pred x hx _ hy
      · exact hv hx
    · exact h.pred x hx _ hy

theorem scope_through {X : Vid → Prop} {s s' : ThreadState} {u v sentinel : Vid} {back : Option Vid}
    {g : FunctionTraces} {t : List Stmt} (hd : DefinitionPaths σ m t) (hb : BodyPaths σ m t)
    (hX : X m) (ht : ∀ x, InTable s.table x → ¬ X x) (hk : Knows σ m s.table g)
    (hf : Unthreaded X s (v :: Stmt.listVids t))
    (hn : (v :: sentinel :: Stmt.listVids t).Nodup) (hnp : Stmt.listNamedParameters t)
    (hu : s.last = some u) (hXu : X u) (hsX : ¬ X sentinel) (hst : ¬ InTable s.table sentinel)
    (hsent : ∀ x, sentinel ∉ s.succ x)
    (h : s.scope v sentinel back (fun s => threadDefinitions s t) (fun s => threadBody sentinel s t) =
      some s')
    (ha : Agree σ X s') :
    Through σ m v ((bodyTraces (definitionTraces g t) t).andThen (.one sentinel)) sentinel := by
  obtain ⟨u', s1, s2, s3, hl, h1, h2, h3, h4, rfl⟩ := scope_steps h
  rw [hu, Option.some.injEq] at hl
  subst hl
  have ha3 : Agree σ X s3 := ha
  rw [List.nodup_cons, List.nodup_cons] at hn
  obtain ⟨hv, hs, hnt⟩ := hn
  rw [List.mem_cons, not_or] at hv
  obtain ⟨hnd, hnb, hdis⟩ := List.nodup_append'.1 ((Stmt.listVids_perm t).nodup_iff.1 hnt)
  have hmem : ∀ {x}, x ∈ Stmt.listVids t ↔ _ := fun {x} => Stmt.mem_listVids (ts := t) (x := x)
  have d := threadDefinitions_chunk t hnp h1
  have b := threadBody_chunk t hnp h2
  have hft : Unthreaded X s (Stmt.listVids t) := hf.sub (by simp +contextual)
  -- The state in which the functions are visited.
  have hf0 : Unthreaded X { s with table := s.table.pushScope, last := some v } (Stmt.listVids t) :=
    hft.push.setLast hv.2
  have ht1 : ∀ x, InTable s1.table x → ¬ X x := by
    intro x hx
    rcases d.inTable x hx with hx | hx
    · exact ht x (inTable_push.1 hx)
    · exact hf0.out x (hmem.2 (.inl hx))
  have hf1 : Unthreaded X s1 (Stmt.bodyVids t) :=
    (hf0.sub (fun x hx => hmem.2 (.inr hx))).defChunk d (fun x hx hx' => hdis hx' hx)
  have hvX : ¬ X v := hf.out v (by simp)
  have hvu : v ≠ u := fun h => hvX (by rwa [h])
  have hv1 : s1.succ v = [] := by
    rw [d.frame v (fun h => hv.2 (hmem.2 (.inl h))) (fun h => hf.table v (by simp) (inTable_push.1 h))]
    exact hf.succ v (by simp)
  have hs1 : ∀ x, sentinel ∉ s1.succ x := by
    intro x hx
    rcases d.news x sentinel hx with h | h | h
    · exact hsent x h
    · exact hs (hmem.2 (.inl h))
    · exact hst (inTable_push.1 h)
  have hst1 : ¬ InTable s1.table sentinel := by
    intro h
    rcases d.inTable sentinel h with h | h
    · exact hst (inTable_push.1 h)
    · exact hs (hmem.2 (.inl h))
  have hs2 : ∀ x, sentinel ∉ (s1.addSuccessor u v).succ x := by
    intro x hx
    change sentinel ∈ (if x = u then s1.succ u ++ [v] else s1.succ x) at hx
    split at hx
    · rw [List.mem_append, List.mem_singleton] at hx
      rcases hx with hx | hx
      · exact hs1 _ hx
      · exact hv.1 hx.symm
    · exact hs1 _ hx
  -- The state in which the other statements are visited.
  have hf2 : Unthreaded X { s1.addSuccessor u v with last := some v } (Stmt.bodyVids t) :=
    (hf1.addSuccessor hXu (fun h => hv.2 (hmem.2 (.inr h)))).setLast
      (fun h => hv.2 (hmem.2 (.inr h)))
  -- The successors in the end.
  have ha2 : Agree σ X s2 := by
    rcases endScope_eq h3 with ⟨_, rfl⟩ | ⟨w, hw, hw', rfl⟩
    · exact ha3
    · intro x hx hx'
      have hxw : x ≠ w := by
        rintro rfl
        exact hx' hw'
      have := ha3 x hx
      dsimp only at this
      rw [if_neg hxw] at this
      exact this hx'
  have ha1' : Agree σ X { s1.addSuccessor u v with last := some v } :=
    ha2.chunk b (fun x hx => .inl (hf2.succ x hx))
  have ha1 : Agree σ X s1 := by
    intro x hx hx'
    have hxu : x ≠ u := fun h => hx (by rwa [h])
    have := ha1' x hx
    change (if x = u then s1.succ u ++ [v] else s1.succ x) ≠ [] →
      σ x = (if x = u then s1.succ u ++ [v] else s1.succ x) at this
    rw [if_neg hxu] at this
    exact this hx'
  have hk1 := hd X { s with table := s.table.pushScope, last := some v } s1 g hX (fun x hx => ht x (inTable_push.1 hx)) (knows_push hk)
    (hf0.sub (fun x hx => hmem.2 (.inl hx))) hnd hnp h1 ha1
  obtain ⟨w, hw, hT, hlast⟩ := hb X { s1.addSuccessor u v with last := some v } s2 v sentinel _
    hX ht1 hk1 hf2 hnb hnp rfl hvX (hs2 v)
    (fun x _ => hs2 x) hst1 (fun h => hs (hmem.2 (.inr h))) h2 ha2
  have hsm : sentinel ≠ m := fun h => hsX (by rwa [h])
  refine hT.andThen (Through.edge ?_ hsm)
  rcases hlast with hlast | hlast
  · rcases endScope_eq h3 with ⟨hl, _⟩ | ⟨w', hl, hw', rfl⟩
    · rw [hlast] at hl
      cases hl
    · rw [hlast, Option.some.injEq] at hl
      subst hl
      have := ha3 w hw
      dsimp only at this
      rw [if_pos rfl] at this
      exact this (by simp)
  · exact hlast

/-- The successors of the vertex before a scope. -/
theorem scope_succ {s s' : ThreadState} {u v sentinel : Vid} {back : Option Vid} {t : List Stmt}
    (hnp : Stmt.listNamedParameters t) (hu : s.last = some u) (hut : ¬ InTable s.table u)
    (hus : u ∉ Stmt.listVids t)
    (h : s.scope v sentinel back (fun s => threadDefinitions s t) (fun s => threadBody sentinel s t) =
      some s') : s'.succ u = s.succ u ++ [v] := by
  obtain ⟨u', s1, s2, s3, hl, h1, h2, h3, h4, rfl⟩ := scope_steps h
  rw [hu, Option.some.injEq] at hl
  subst hl
  have d := threadDefinitions_chunk t hnp h1
  have b := threadBody_chunk t hnp h2
  have hmem : ∀ {x}, x ∈ Stmt.listVids t ↔ _ := fun {x} => Stmt.mem_listVids (ts := t) (x := x)
  have hd1 : s1.succ u = s.succ u :=
    d.frame u (fun h => hus (hmem.2 (.inl h))) (fun h => hut (inTable_push.1 h))
  have hb0 : (s1.addSuccessor u v).succ u = s.succ u ++ [v] := by
    change (if u = u then s1.succ u ++ [v] else s1.succ u) = _
    rw [if_pos rfl, hd1]
  have hb1 : s2.succ u = s.succ u ++ [v] := by
    rw [b.keep u (fun h => hus (hmem.2 (.inr h))) ?_]
    · exact hb0
    · change (s1.addSuccessor u v).succ u ≠ []
      rw [hb0]
      simp
  change s3.succ u = _
  rcases endScope_eq h3 with ⟨_, rfl⟩ | ⟨w, hw, hw', rfl⟩
  · exact hb1
  · have : u ≠ w := by
      rintro rfl
      rw [hb1] at hw'
      simp at hw'
    dsimp only
    rw [if_neg this, hb1]

/-- An expression, an assignment or an `if`. -/
def Stmt.isPlain : Stmt → Bool
  | .expr _ | .assign _ _ _ _ | .ifElse _ _ _ _ _ _ _ _ _ => true
  | _ => false

/-- The paths through a statement. -/
def StmtPaths (σ : Vid → List Vid) (m : Vid) (t : Stmt) : Prop :=
  ∀ (X : Vid → Prop) (s s' : ThreadState) (u : Vid) (g : FunctionTraces), X m →
    (∀ x, InTable s.table x → ¬ X x) → Knows σ m s.table g →
    Unthreaded X s t.ownVids → t.ownVids.Nodup → t.namedParameters →
    s.last = some u → ¬ X u → threadStmt s t = some s' → Agree σ X s' →
    ∃ w, s'.last = some w ∧ ¬ X w ∧ Through σ m u (stmtTraces g t) w ∧
      ((w ∈ t.ownVids ∧ s'.succ w = []) ∨ InTable s.table w)

theorem expr_paths (e : Expr) : StmtPaths σ m (.expr e) := by
  intro X s s' u g hX ht hk hf hn _ hu hu' h ha
  rw [threadStmt] at h
  rw [stmtTraces]
  exact threadExpr_through hX e ht hk hf hn hu hu' h ha

theorem assign_paths (v target : Vid) (n : Str) (e : Expr) :
    StmtPaths σ m (.assign v target n e) := by
  intro X s s' u g hX ht hk hf hn _ hu hu' h ha
  rw [threadStmt, Option.bind_eq_some_iff] at h
  obtain ⟨s1, h1, h⟩ := h
  rw [Option.bind_eq_some_iff] at h
  obtain ⟨s2, h2, h⟩ := h
  simp only [Stmt.ownVids, Stmt.vids] at hf hn ⊢
  rw [List.nodup_cons, List.nodup_cons, List.mem_cons, not_or] at hn
  obtain ⟨⟨hvt, hve⟩, hte, hne⟩ := hn
  have c1 := (threadExpr_chunk e h1).1
  have hf1 : Unthreaded X s1 [v, target] := (hf.sub (by simp +contextual)).chunk c1 (by simp [hve, hte])
  have c2 := threadTo_chunk (A := (· = target)) h2 (.inl rfl)
  have hf2 : Unthreaded X s2 [v] := (hf1.sub (by simp)).chunk c2 (by simpa using hvt)
  have c3 := threadTo_chunk (A := (· = v)) h (.inl rfl)
  have ha2 : Agree σ X s2 := ha.chunk c3 (by rintro x rfl; exact .inl (hf2.succ x (by simp)))
  have ha1 : Agree σ X s1 := ha2.chunk c2 (by rintro x rfl; exact .inl (hf1.succ x (by simp)))
  obtain ⟨w, hw, hw', hT, _⟩ := threadExpr_through hX e ht hk
    (hf.sub (fun x hx => by simp [hx])) hne hu hu' h1 ha1
  have htX := hf1.out target (by simp)
  have hvX := hf2.out v (by simp)
  refine ⟨v, threadTo_last h, hvX, ?_, .inl ⟨by simp, threadTo_fresh hf2 h⟩⟩
  rw [stmtTraces]
  exact hT.andThen ((threadTo_through hX hw hw' htX h2 ha2).andThen
    (threadTo_through hX (threadTo_last h2) htX hvX h ha))

theorem setSuccessor_agree {X : Vid → Prop} {s s' : ThreadState} {u v : Vid}
    (h : s.setSuccessor u v = some s') (ha : Agree σ X s') : Agree σ X s := by
  obtain ⟨hu, rfl⟩ := setSuccessor_eq h
  intro x hx hx'
  have hxu : x ≠ u := by
    rintro rfl
    exact hx' hu
  have := ha x hx
  dsimp only at this
  rw [if_neg hxu] at this
  exact this hx'

theorem setSuccessor_final {X : Vid → Prop} {s s' : ThreadState} {u v : Vid}
    (h : s.setSuccessor u v = some s') (ha : Agree σ X s') (hu : ¬ X u) : σ u = [v] := by
  obtain ⟨_, rfl⟩ := setSuccessor_eq h
  have := ha u hu
  dsimp only at this
  rw [if_pos rfl] at this
  exact this (by simp)

set_option maxHeartbeats 2000000 in
theorem if_paths (v sentinel : Vid) (c : Expr) (tv ts : Vid) (t : List Stmt) (fv fs : Vid)
    (f : List Stmt) (hdt : DefinitionPaths σ m t) (hbt : BodyPaths σ m t)
    (hdf : DefinitionPaths σ m f) (hbf : BodyPaths σ m f) :
    StmtPaths σ m (.ifElse v sentinel c tv ts t fv fs f) := by
  intro X s s' u g hX ht hk hf hn hnp hu hu' h ha
  rw [threadStmt, Option.bind_eq_some_iff] at h
  obtain ⟨s1, h1, h⟩ := h
  rw [Option.bind_eq_some_iff] at h
  obtain ⟨s2, h2, h⟩ := h
  rw [Option.bind_eq_some_iff] at h
  obtain ⟨s3, h3, h⟩ := h
  rw [Option.bind_eq_some_iff] at h
  obtain ⟨s4, h4, h⟩ := h
  have h2' := (linkTo_threadTo h2).1
  simp only [Stmt.ownVids, Stmt.vids] at hf hn ⊢
  simp only [List.nodup_cons, List.nodup_append', List.mem_cons, List.mem_append, not_or,
    List.disjoint_cons_right, List.disjoint_append_right] at hn
  obtain ⟨⟨hv1, hv2, hv3, hv4, hv5, hv6, hv7, hv8⟩, ⟨hs2, hs3, hs4, hs5, hs6, hs7, hs8⟩, hnc,
    ⟨⟨ht1, ht2, ht3, ht4, ht5⟩, ⟨hts1, hts2, hts3, hts4⟩, hnt, ⟨⟨hfv1, hfv2⟩, hfs, hnf⟩, hdtf⟩,
    hct, hcs, hctt, hcfv, hcfs, hcf⟩ := hn
  have c1 := (threadExpr_chunk c h1).1
  have hfr1 : Unthreaded X s1 (v :: sentinel :: tv :: ts :: fv :: fs ::
      (Stmt.listVids t ++ Stmt.listVids f)) := by
    refine (hf.sub ?_).chunk c1 ?_
    · intro x hx
      simp only [List.mem_cons, List.mem_append] at hx ⊢
      tauto
    · intro x hx hx'
      simp only [List.mem_cons, List.mem_append] at hx
      rcases hx with rfl | rfl | rfl | rfl | rfl | rfl | hx | hx
      · exact hv2 hx'
      · exact hs2 hx'
      · exact hct hx'
      · exact hcs hx'
      · exact hcfv hx'
      · exact hcfs hx'
      · exact hctt hx' hx
      · exact hcf hx' hx
  have hvX : ¬ X v := hf.out v (by simp)
  have c2 := threadTo_chunk (A := (· = v)) h2' (.inl rfl)
  have hv2s : s2.succ v = [] := threadTo_fresh (hfr1.sub (by simp)) h2'
  have hfr2 : Unthreaded (fun x => X x ∨ x = v) s2 (sentinel :: tv :: ts :: fv :: fs ::
      (Stmt.listVids t ++ Stmt.listVids f)) := by
    have hnv : ∀ x ∈ (sentinel :: tv :: ts :: fv :: fs :: (Stmt.listVids t ++ Stmt.listVids f)),
        ¬ x = v := by
      intro x hx
      simp only [List.mem_cons, List.mem_append] at hx
      rintro rfl
      tauto
    refine Unthreaded.avoid ((hfr1.sub ?_).chunk c2 hnv) (fun h => hnv v h rfl)
    intro x hx
    exact List.mem_cons_of_mem _ hx
  have hl2 : s2.last = some v := threadTo_last h2'
  have ht2' : s2.table = s.table := c2.table.trans c1.table
  have hvt : ¬ InTable s.table v := hf.table v (by simp)
  obtain ⟨c3, hl3⟩ := scope_chunk hl2 (fun s1 h1 => threadDefinitions_chunk t hnp.1 h1)
    (fun s1 s2 h2 => threadBody_chunk t hnp.1 h2) h3
  have hA3 : ∀ x, x ∈ sentinel :: fv :: fs :: Stmt.listVids f →
      ¬ (x = v ∨ x = tv ∨ x = ts ∨ x ∈ Stmt.definitionVids t ∨ x ∈ Stmt.bodyVids t) := by
    intro x hx
    rw [← Stmt.mem_listVids]
    simp only [List.mem_cons] at hx
    rcases hx with rfl | rfl | rfl | hx
    · tauto
    · tauto
    · tauto
    · rintro (rfl | rfl | rfl | h)
      · exact hv8 hx
      · exact ht5 hx
      · exact hts4 hx
      · exact hdtf.2.2 h hx
  have hfr3 : Unthreaded (fun x => X x ∨ x = v) s3 (sentinel :: fv :: fs :: Stmt.listVids f) := by
    refine (hfr2.sub ?_).chunk c3 hA3
    intro x hx
    simp only [List.mem_cons, List.mem_append] at hx ⊢
    tauto
  have hv3s : s3.succ v = [tv] := by
    rw [scope_succ hnp.1 hl2 (by rwa [ht2']) hv5 h3, hv2s]
    rfl
  have c4 : Chunk (fun x => x = ts ∨ x = sentinel) s3 s4 :=
    setSuccessor_chunk h4 (.inl rfl) (.inl (.inr rfl))
  have hfr4 : Unthreaded (fun x => X x ∨ x = v) s4 (fv :: fs :: Stmt.listVids f) := by
    refine (hfr3.sub (fun x hx => List.mem_cons_of_mem _ hx)).chunk c4 ?_
    intro x hx
    simp only [List.mem_cons] at hx
    rcases hx with rfl | rfl | hx
    · tauto
    · tauto
    · rintro (rfl | rfl)
      · exact hts4 hx
      · exact hs8 hx
  have hs4' : s4.succ sentinel = [] := by
    obtain ⟨_, rfl⟩ := setSuccessor_eq h4
    dsimp only
    rw [if_neg hs4]
    exact hfr3.succ sentinel (by simp)
  have hv4s : s4.succ v = [tv] := by
    obtain ⟨_, rfl⟩ := setSuccessor_eq h4
    dsimp only
    rw [if_neg hv4, hv3s]
  have hX' : X m ∨ m = v := .inl hX
  have ht' : ∀ x, InTable s.table x → ¬ (X x ∨ x = v) := by
    rintro x hx (h | rfl)
    · exact ht x hx h
    · exact hvt hx
  have htsX : ¬ (X ts ∨ ts = v) := hfr2.out ts (by simp)
  have hsX : ¬ (X sentinel ∨ sentinel = v) := hfr2.out sentinel (by simp)
  have htvX : ¬ (X tv ∨ tv = v) := hfr2.out tv (by simp)
  have hsm : sentinel ≠ m := fun h => hsX (by rw [h]; exact hX')
  have htvm : tv ≠ m := fun h => htvX (by rw [h]; exact hX')
  -- The part that both cases share.
  have common : Agree σ (fun x => X x ∨ x = v) s4 →
      Through σ m u ((exprTraces g c).andThen (.one v)) v ∧
      Through σ m tv ((bodyTraces (definitionTraces g t) t).andThen (.one ts)) ts ∧
      σ ts = [sentinel] := by
    intro ha4
    have ha3 := setSuccessor_agree h4 ha4
    have hts := setSuccessor_final h4 ha4 htsX
    have ha2' : Agree σ (fun x => X x ∨ x = v) s2 := by
      refine ha3.chunk c3 (fun x hx => ?_)
      rw [← Stmt.mem_listVids] at hx
      rcases hx with rfl | hx
      · exact .inl hv2s
      · refine .inl (hfr2.succ x ?_)
        simp only [List.mem_cons, List.mem_append]
        tauto
    have ha2 : Agree σ X s2 := by
      intro x hx hx'
      refine ha2' x ?_ hx'
      rintro (h | rfl)
      · exact hx h
      · exact hx' hv2s
    have ha1 : Agree σ X s1 := ha2.chunk c2
      (by rintro x rfl; exact .inl (hfr1.succ x (by simp)))
    obtain ⟨w, hw, hw', hT, _⟩ := threadExpr_through hX c ht hk
      (hf.sub (fun x hx => by simp [hx])) hnc hu hu' h1 ha1
    refine ⟨hT.andThen (threadTo_through hX hw hw' hvX h2' ha2), ?_, hts⟩
    refine scope_through hdt hbt (X := fun x => X x ∨ x = v) hX' (by rwa [ht2']) (by rwa [ht2'])
      (hfr2.sub ?_) ?_ hnp.1 hl2 (.inr rfl) htsX (hfr2.table ts (by simp)) (hfr2.pred ts (by simp))
      h3 ha3
    · intro x hx
      simp only [List.mem_cons, List.mem_append] at hx ⊢
      tauto
    · simp only [List.nodup_cons, List.mem_cons, not_or]
      exact ⟨⟨ht1, ht2⟩, hts1, hnt⟩
  split at h
  · rename_i hfe
    rw [Option.some.injEq] at h
    subst h
    have ha4 : Agree σ X s4 := ha
    have ha3 := setSuccessor_agree h4 ha4
    obtain ⟨hT1, hT2, hts⟩ := common (ha4.mono (fun x => .inl))
    refine ⟨sentinel, rfl, fun h => hsX (.inl h), ?_, .inl ⟨by simp, hs4'⟩⟩
    rw [stmtTraces, if_pos hfe]
    rw [← Traces.andThen_assoc]
    refine hT1.andThen ?_
    have hσv : σ v = [tv] := by rw [ha3 v hvX (by rw [hv3s]; simp), hv3s]
    exact ((Through.edge hσv htvm).andThen hT2).andThen (Through.edge hts hsm)
  · rename_i hfe
    rw [Option.bind_eq_some_iff] at h
    obtain ⟨s5, h5, h⟩ := h
    rw [Option.map_eq_some_iff] at h
    obtain ⟨s6, h6, rfl⟩ := h
    have ha6 : Agree σ X s6 := ha
    have ha5 := setSuccessor_agree h6 ha6
    have hfr4' : Unthreaded (fun x => X x ∨ x = v) (s4.startAt v) (fv :: fs :: Stmt.listVids f) :=
      hfr4.setLast (fun h => hfr4.out v h (.inr rfl))
    have ht4' : (s4.startAt v).table = s.table := by
      change s4.table = s.table
      rw [c4.table, c3.table, ht2']
    obtain ⟨c5, hl5⟩ := scope_chunk (s := s4.startAt v) rfl
      (fun s1 h1 => threadDefinitions_chunk f hnp.2 h1)
      (fun s1 s2 h2 => threadBody_chunk f hnp.2 h2) h5
    have hs5 : s5.succ sentinel = [] := by
      rw [c5.frame sentinel ?_ ?_ (by rw [ht4']; exact hf.table sentinel (by simp))]
      · exact hs4'
      · change some v ≠ some sentinel
        simp only [ne_eq, Option.some.injEq]
        exact hv1
      · rw [← Stmt.mem_listVids]
        rintro (h | h | h | h)
        · exact hv1 h.symm
        · exact hs6 h
        · exact hs7 h
        · exact hs8 h
    have hs6' : s6.succ sentinel = [] := by
      obtain ⟨_, rfl⟩ := setSuccessor_eq h6
      dsimp only
      rw [if_neg hs7, hs5]
    have hv5s : s5.succ v = [tv, fv] := by
      rw [scope_succ (s := s4.startAt v) hnp.2 rfl (by rwa [ht4']) hv8 h5]
      change s4.succ v ++ [fv] = _
      rw [hv4s]
      rfl
    have ha4 : Agree σ (fun x => X x ∨ x = v) (s4.startAt v) := by
      refine (ha5.mono (fun x => .inl)).chunk c5 (fun x hx => ?_)
      rw [← Stmt.mem_listVids] at hx
      rcases hx with rfl | hx
      · exact .inr (.inr rfl)
      · refine .inl (hfr4'.succ x ?_)
        simp only [List.mem_cons]
        exact hx
    obtain ⟨hT1, hT2, hts⟩ := common ha4
    have hfsX : ¬ (X fs ∨ fs = v) := hfr4.out fs (by simp)
    have hfvX : ¬ (X fv ∨ fv = v) := hfr4.out fv (by simp)
    have hfvm : fv ≠ m := fun h => hfvX (by rw [h]; exact hX')
    have hT3 := scope_through hdf hbf (X := fun x => X x ∨ x = v) (s := s4.startAt v) hX'
      (by rwa [ht4']) (by rwa [ht4'])
      (hfr4'.sub (by intro x hx; simp only [List.mem_cons] at hx ⊢; tauto))
      (by
        simp only [List.nodup_cons, List.mem_cons, not_or]
        exact ⟨⟨hfv1, hfv2⟩, hfs, hnf⟩) hnp.2 rfl (.inr rfl) hfsX (hfr4'.table fs (by simp))
      (hfr4'.pred fs (by simp)) h5 (ha5.mono (fun x => .inl))
    have hfs' := setSuccessor_final h6 ha6 (fun h => hfsX (.inl h))
    refine ⟨sentinel, rfl, fun h => hsX (.inl h), ?_, .inl ⟨by simp, hs6'⟩⟩
    rw [stmtTraces, if_neg hfe]
    rw [← Traces.andThen_assoc]
    refine hT1.andThen ?_
    have hσv : σ v = [tv, fv] := by rw [ha5 v hvX (by rw [hv5s]; simp), hv5s]
    rw [Traces.or_andThen, Traces.andThen_assoc (.one tv), Traces.andThen_assoc (.one fv)]
    exact Through.branch hσv htvm hfvm (hT2.andThen (Through.edge hts hsm))
      (hT3.andThen (Through.edge hfs' hsm))

/-- The paths through a return statement. -/
theorem ret_paths {X : Vid → Prop} {s s' : ThreadState} {u v : Vid} {e : Option Expr}
    {g : FunctionTraces} (hX : X m) (ht : ∀ x, InTable s.table x → ¬ X x) (hk : Knows σ m s.table g)
    (hf : Unthreaded X s (Stmt.ret v e).ownVids) (hn : (Stmt.ret v e).ownVids.Nodup)
    (hu : s.last = some u) (hu' : ¬ X u) (h : threadStmt s (.ret v e) = some s')
    (ha : Agree σ X s') :
    s'.last = some v ∧ ¬ X v ∧ Through σ m u (stmtTraces g (.ret v e)) v ∧
      ∃ sentinel, s'.succ v = [sentinel] ∧ σ v = [sentinel] := by
  obtain ⟨s1, s2, b, h1, h2, h3, h4⟩ := ret_steps h
  have ha2 := setSuccessor_agree h4 ha
  have hvX : ¬ X v := hf.out v (by cases e <;> simp [Stmt.ownVids, Stmt.vids])
  have hl : s'.last = some v := by
    rw [(setSuccessor_eq h4).2]
    change s2.last = some v
    exact threadTo_last h2
  have hs : s'.succ v = [b] := by
    obtain ⟨_, rfl⟩ := setSuccessor_eq h4
    exact if_pos rfl
  refine ⟨hl, hvX, ?_, b, hs, setSuccessor_final h4 ha hvX⟩
  cases e with
  | none =>
    rw [Option.some.injEq] at h1
    subst h1
    rw [stmtTraces]
    exact threadTo_through hX hu hu' hvX h2 ha2
  | some e =>
    dsimp only at h1
    simp only [Stmt.ownVids, Stmt.vids] at hf hn
    obtain ⟨hn1, hn2⟩ := List.nodup_cons.1 hn
    have c1 := (threadExpr_chunk e h1).1
    have hfv : Unthreaded X s1 [v] := (hf.sub (by simp)).chunk c1 (by simpa using hn1)
    have c2 := threadTo_chunk (A := (· = v)) h2 (.inl rfl)
    have ha1 : Agree σ X s1 := ha2.chunk c2 (by rintro x rfl; exact .inl (hfv.succ x (by simp)))
    obtain ⟨w, hw, hw', hT, _⟩ := threadExpr_through hX e ht hk
      (hf.sub (fun x hx => by simp [hx])) hn2 hu hu' h1 ha1
    rw [stmtTraces]
    exact hT.andThen (threadTo_through hX hw hw' hvX h2 ha2)

/-- A statement that is not a return statement, then the others. -/
theorem body_cons (t : Stmt) (ts : List Stmt)
    (hg : ∀ g, bodyTraces g (t :: ts) = (stmtTraces g t).andThen (bodyTraces g ts))
    (h1 : StmtPaths σ m t) (h2 : BodyPaths σ m ts) : BodyPaths σ m (t :: ts) := by
  intro X s s' u sentinel g hX ht hk hf hn hnp hu hu' hsu hst hsi hso h ha
  rw [threadBody, Option.bind_eq_some_iff] at h
  obtain ⟨s1, e1, h⟩ := h
  rw [Option.bind_eq_some_iff] at h
  obtain ⟨s2, e2, h⟩ := h
  rw [Stmt.bodyVids] at hf hn hso
  rw [List.mem_append, not_or] at hso
  obtain ⟨hn1, hn2, hdis⟩ := List.nodup_append'.1 hn
  have c1 := threadStmt_chunk t hnp.1 e1
  have c2 : Chunk (fun _ => False) s1 s2 := afterStatement_chunk e2
  have c3 := threadBody_chunk ts hnp.2 h
  have hf1 : Unthreaded X s1 (Stmt.bodyVids ts) := (hf.sub (fun x hx => by simp [hx])).chunk c1
    (fun x hx hx' => hdis hx' hx)
  have hf2 : Unthreaded X s2 (Stmt.bodyVids ts) := hf1.chunk c2 (fun _ _ h => h)
  have ha2 : Agree σ X s2 := ha.chunk c3 (fun x hx => .inl (hf2.succ x hx))
  have ha1 : Agree σ X s1 := ha2.chunk c2 (fun _ h => h.elim)
  obtain ⟨w, hw, hw', hT, hws⟩ := h1 X s s1 u g hX ht hk (hf.sub (fun x hx => by simp [hx])) hn1
    hnp.1 hu hu' e1 ha1
  have hst1 : ∀ x, InTable s.table x → sentinel ∉ s1.succ x := by
    intro x hx hm
    rcases c1.news x (fun h => hf.table x (by simp [h]) hx) sentinel hm with h | h | h
    · exact hst x hx h
    · exact hso.1 h
    · exact hsi h
  have hsw : sentinel ∉ s1.succ w := by
    rcases hws with ⟨_, hws⟩ | hws
    · rw [hws]; simp
    · exact hst1 w hws
  have e2' : s2 = s1 := by
    obtain ⟨w', hl, ⟨_, h⟩ | ⟨hm, _⟩⟩ := afterStatement_eq e2
    · exact h
    · rw [hw, Option.some.injEq] at hl
      subst hl
      exact absurd hm hsw
  subst e2'
  obtain ⟨w2, hw2, hT2, hlast⟩ := h2 X s2 s' w sentinel g hX (by rwa [c1.table]) (by rwa [c1.table])
    hf2 hn2 hnp.2 hw hw' hsw (by rwa [c1.table]) (by rwa [c1.table]) hso.2 h ha
  refine ⟨w2, hw2, ?_, hlast⟩
  rw [hg]
  exact hT.andThen hT2

/-- A function definition is not passed in the second pass. -/
theorem body_function (v : Vid) (n : Str) (args : List Expr) (bv bs : Vid) (body ts : List Stmt)
    (h2 : BodyPaths σ m ts) : BodyPaths σ m (.function v n args bv bs body :: ts) := by
  intro X s s' u sentinel g hX ht hk hf hn hnp hu hu' hsu hst hsi hso h ha
  rw [threadBody, Option.bind_eq_some_iff] at h
  obtain ⟨s1, e1, h⟩ := h
  rw [Option.bind_eq_some_iff] at h
  obtain ⟨s2, e2, h⟩ := h
  rw [threadStmt, Option.some.injEq] at e1
  subst e1
  have e2' : s2 = s := by
    obtain ⟨w', hl, ⟨_, h⟩ | ⟨hm, _⟩⟩ := afterStatement_eq e2
    · exact h
    · rw [hu, Option.some.injEq] at hl
      subst hl
      exact absurd hm hsu
  subst e2'
  obtain ⟨w2, hw2, hT2, hlast⟩ := h2 X s2 s' u sentinel g hX ht hk hf hn hnp.2 hu hu' hsu hst hsi hso
    h ha
  refine ⟨w2, hw2, ?_, hlast⟩
  have hT : Through σ m u (Traces.none.andThen (bodyTraces g ts)) w2 := (Through.none u).andThen hT2
  rw [bodyTraces, stmtTraces]
  · exact hT
  · intro _ _
    simp

/-- What follows a return statement is not passed. -/
theorem body_ret (v : Vid) (e : Option Expr) (ts : List Stmt) : BodyPaths σ m (.ret v e :: ts) := by
  intro X s s' u sentinel g hX ht hk hf hn hnp hu hu' hsu hst hsi hso h ha
  rw [threadBody, Option.bind_eq_some_iff] at h
  obtain ⟨s1, e1, h⟩ := h
  rw [Option.bind_eq_some_iff] at h
  obtain ⟨s2, e2, h⟩ := h
  rw [Stmt.bodyVids] at hf hn hso
  obtain ⟨hn1, hn2, hdis⟩ := List.nodup_append'.1 hn
  have c1 := threadStmt_chunk _ hnp.1 e1
  have c2 : Chunk (fun _ => False) s1 s2 := afterStatement_chunk e2
  have c3 := threadBody_chunk ts hnp.2 h
  have hf1 : Unthreaded X s1 (Stmt.bodyVids ts) := (hf.sub (fun x hx => by simp [hx])).chunk c1
    (fun x hx hx' => hdis hx' hx)
  have hf2 : Unthreaded X s2 (Stmt.bodyVids ts) := hf1.chunk c2 (fun _ _ h => h)
  have ha2 : Agree σ X s2 := ha.chunk c3 (fun x hx => .inl (hf2.succ x hx))
  have ha1 : Agree σ X s1 := ha2.chunk c2 (fun _ h => h.elim)
  obtain ⟨hl, hvX, hT, b, hb, hσ⟩ := ret_paths hX ht hk (hf.sub (fun x hx => by simp [hx])) hn1 hu hu'
    e1 ha1
  refine ⟨v, hvX, by rw [bodyTraces]; exact hT, .inr ?_⟩
  obtain ⟨w', hl', ⟨hm, _⟩ | ⟨hm, _⟩⟩ := afterStatement_eq e2
  · rw [hl, Option.some.injEq] at hl'
    subst hl'
    rw [hb] at hm
    cases hm
  · rw [hl, Option.some.injEq] at hl'
    subst hl'
    rw [hb, List.mem_singleton] at hm
    rw [hσ, hm]

theorem body_nil : BodyPaths σ m [] := by
  intro X s s' u sentinel g hX ht hk hf hn hnp hu hu' hsu hst hsi hso h ha
  rw [threadBody, Option.some.injEq] at h
  subst h
  exact ⟨u, hu', by rw [bodyTraces]; exact Through.none u, .inl hu⟩

theorem definitions_skip (t : Stmt) (ts : List Stmt)
    (hs : ∀ s, threadDefinitions s (t :: ts) = threadDefinitions s ts)
    (hg : ∀ g, definitionTraces g (t :: ts) = definitionTraces g ts)
    (hv : t.definitionVids1 = []) (h : DefinitionPaths σ m ts) : DefinitionPaths σ m (t :: ts) := by
  intro X s s' g hX ht hk hf hn hnp h1 ha
  rw [hg]
  rw [hs] at h1
  rw [Stmt.definitionVids, hv, List.nil_append] at hf hn
  exact h X s s' g hX ht hk hf hn hnp.2 h1 ha

/-- After passing fresh names the last vertex has no successors. -/
theorem threadNames_fresh {X : Vid → Prop} {s s' : ThreadState} (args : List Expr) (u : Vid)
    (hu : s.last = some u) (hus : s.succ u = []) (hf : Unthreaded X s (Expr.listVids args))
    (hn : (Expr.listVids args).Nodup)
    (ha : ∀ a ∈ args, ∃ v n, a = .name v n) (h : threadExprs s args = some s') :
    ∃ w, s'.last = some w ∧ s'.succ w = [] ∧ (w = u ∨ w ∈ Expr.listVids args) := by
  induction args generalizing s u with
  | nil =>
    rw [threadExprs, Option.some.injEq] at h
    subst h
    exact ⟨u, hu, hus, .inl rfl⟩
  | cons a args ih =>
    obtain ⟨v, n, rfl⟩ := ha a (by simp)
    rw [threadExprs, Option.bind_eq_some_iff] at h
    obtain ⟨s1, h1, h⟩ := h
    rw [threadExpr] at h1
    simp only [Expr.listVids, Expr.vids, List.singleton_append] at hf hn
    obtain ⟨hn1, hn2⟩ := List.nodup_cons.1 hn
    have c1 := threadTo_chunk (A := (· = v)) h1 (.inl rfl)
    obtain ⟨w, h2, h3, h4⟩ := ih v (threadTo_last h1) (threadTo_fresh (hf.sub (by simp)) h1)
      ((hf.sub (fun x hx => List.mem_cons_of_mem _ hx)).chunk c1 (by rintro x hx rfl; exact hn1 hx))
      hn2 (fun a h => ha a (by simp [h])) h
    refine ⟨w, h2, h3, .inr ?_⟩
    simp only [Expr.listVids, Expr.vids, List.mem_append, List.mem_singleton]
    exact h4

theorem knows_addValue {t t' : SymbolTable Threaded} {g : FunctionTraces} {n : Str} {f : Threaded}
    {T : Traces} (h : t.addValue n f = some t') (hk : Knows σ m t g)
    (hT : Through σ m f.entry T f.exit) : Knows σ m t' (g.define n f.entry T) := by
  cases t with
  | nil => cases h
  | cons sc t =>
    rw [SymbolTable.addValue, Option.some.injEq] at h
    subst h
    intro n'
    rw [SymbolTable.value_cons, Scope.setValue, Scope.value_assign, FunctionTraces.define]
    have := hk n'
    rw [SymbolTable.value_cons] at this
    by_cases hn : n = n'
    · rw [if_pos hn, if_pos hn.symm]
      exact .inr ⟨f, T, rfl, rfl, hT⟩
    · rw [if_neg hn, if_neg (fun h => hn h.symm)]
      exact this

theorem definitions_function (v : Vid) (n : Str) (args : List Expr) (bv bs : Vid)
    (body ts : List Stmt) (hd : DefinitionPaths σ m body) (hb : BodyPaths σ m body)
    (hts : DefinitionPaths σ m ts) :
    DefinitionPaths σ m (.function v n args bv bs body :: ts) := by
  intro X s s' g hX ht hk hf hn hnp h ha
  rw [threadDefinitions, Option.bind_eq_some_iff] at h
  obtain ⟨s1, h1, h⟩ := h
  rw [Option.bind_eq_some_iff] at h
  obtain ⟨s2, h2, h⟩ := h
  rw [Option.bind_eq_some_iff] at h
  obtain ⟨t, h3, h⟩ := h
  split at h
  case isFalse => cases h
  rename_i hcond
  -- The function on its own.
  have hone : threadDefinitions s [.function v n args bv bs body] =
      some { s2 with table := t, last := s.last, functions := s.functions } := by
    rw [threadDefinitions, h1, Option.bind_some, h2, Option.bind_some, h3, Option.bind_some,
      if_pos hcond, threadDefinitions]
  have d1 := threadDefinitions_chunk [.function v n args bv bs body] ⟨hnp.1, trivial⟩ hone
  have d2 := threadDefinitions_chunk ts hnp.2 h
  simp only [Stmt.definitionVids, Stmt.definitionVids1, List.append_nil] at d1 d2 hf hn
  obtain ⟨hn1, hn2, hdis⟩ := List.nodup_append'.1 hn
  have hfr : Unthreaded X { s2 with table := t, last := s.last, functions := s.functions }
      (Stmt.definitionVids ts) :=
    (hf.sub (fun x hx => by simp [hx])).defChunk d1 (fun x hx hx' => hdis hx' hx)
  have ha' : Agree σ X { s2 with table := t, last := s.last, functions := s.functions } :=
    ha.defChunk d2 (fun x hx => hfr.succ x hx)
  have ha2 : Agree σ X s2 := ha'
  have ht1 : ∀ x, InTable t x → ¬ X x := by
    intro x hx
    rcases d1.inTable x hx with h | h
    · exact ht x h
    · exact hf.out x (by simp [h])
  rw [definitionTraces]
  refine hts X { s2 with table := t, last := s.last, functions := s.functions } s' _ hX ht1 ?_ hfr hn2
    hnp.2 h ha
  -- What is left is the function itself.
  simp only [Stmt.vids, List.nodup_cons, List.nodup_append', List.mem_cons, List.mem_append, not_or,
    List.disjoint_cons_right] at hn1
  obtain ⟨⟨hv1, hv2, hv3, hv4⟩, hna, ⟨⟨hbv1, hbv2⟩, hbs, hnb⟩, hda1, hda2, hda3⟩ := hn1
  have hf0 : Unthreaded X { s with last := some v, functions := bs :: s.functions }
      (bv :: (Expr.listVids args ++ Stmt.listVids body)) := by
    have hf' : Unthreaded X s (bv :: (Expr.listVids args ++ Stmt.listVids body)) := by
      refine hf.sub (fun x hx => ?_)
      simp only [Stmt.vids, List.mem_cons, List.mem_append] at hx ⊢
      tauto
    refine ⟨hf'.succ, hf'.table, hf'.out, fun x hx => ?_, hf'.pred, fun x hx => ?_⟩
    · simp only [ne_eq, Option.some.injEq]
      rintro rfl
      simp only [List.mem_cons, List.mem_append] at hx
      tauto
    · rw [List.head?_cons]
      simp only [ne_eq, Option.some.injEq]
      rintro rfl
      simp only [List.mem_cons, List.mem_append] at hx
      rcases hx with hx | hx | hx
      · exact hbv1 hx.symm
      · exact hda2 hx
      · exact hbs hx
  have hfv : Unthreaded X s [v, bs] := by
    refine hf.sub (fun x hx => ?_)
    simp only [Stmt.vids, List.mem_cons, List.mem_append, List.not_mem_nil, or_false] at hx ⊢
    tauto
  have c1 := threadExprs_chunk args h1
  have hvX : ¬ X v := hfv.out v (by simp)
  have hbsX : ¬ X bs := hfv.out bs (by simp)
  obtain ⟨u, hu, hus, hu'⟩ := threadNames_fresh (X := X)
    (s := { s with last := some v, functions := bs :: s.functions }) args v rfl (hfv.succ v (by simp))
    (hf0.sub (fun x hx => by simp [hx])) hna hnp.1.1 h1
  have hnews := (threadNames_last args v rfl hnp.1.1 h1).2
  have huX : ¬ X u := by
    rcases hu' with rfl | h
    · exact hvX
    · exact hf0.out u (by simp [h])
  have hut : ¬ InTable s.table u := by
    rcases hu' with rfl | h
    · exact hfv.table u (by simp)
    · exact hf0.table u (by simp [h])
  have hu1 : u ≠ bv ∧ u ≠ bs ∧ u ∉ Stmt.listVids body := by
    rcases hu' with rfl | h
    · exact ⟨hv2 ∘ fun h => by tauto, hv3 ∘ fun h => by tauto, by tauto⟩
    · exact ⟨by rintro rfl; exact hda1 h, by rintro rfl; exact hda2 h, fun h' => hda3 h h'⟩
  have hf1 : Unthreaded (fun x => X x ∨ x = u) s1 (bv :: Stmt.listVids body) := by
    refine Unthreaded.avoid ((hf0.sub ?_).chunk c1 ?_) ?_
    · intro x hx
      simp only [List.mem_cons, List.mem_append] at hx ⊢
      tauto
    · intro x hx hx'
      rcases List.mem_cons.1 hx with rfl | hx
      · exact hda1 hx'
      · exact hda3 hx' hx
    · simp only [List.mem_cons, not_or]
      exact ⟨hu1.1, hu1.2.2⟩
  have ht1' : s1.table = s.table := c1.table
  obtain ⟨c2, hl2⟩ := scope_chunk hu (fun s1 h1 => threadDefinitions_chunk body hnp.1.2 h1)
    (fun s1 s2 h2 => threadBody_chunk body hnp.1.2 h2) h2
  have ct2 : s2.table = s.table := c2.table.trans ht1'
  have hbs1 : s1.succ bs = [] := by
    rw [c1.frame bs ?_ hda2 (hfv.table bs (by simp))]
    · exact hfv.succ bs (by simp)
    · simp only [ne_eq, Option.some.injEq]
      exact hv3
  have ha1 : Agree σ X s1 := by
    refine ha2.chunk c2 (fun x hx => ?_)
    rw [← Stmt.mem_listVids] at hx
    rcases hx with rfl | rfl | rfl | hx
    · exact .inl hus
    · exact .inl (hf1.succ x (by simp))
    · exact .inl hbs1
    · exact .inl (hf1.succ x (by simp [hx]))
  obtain ⟨w, hw, hw', hT⟩ := threadExprs_through hX args (g := g)
    (s := { s with last := some v, functions := bs :: s.functions }) ht hk
    (hf0.sub (fun x hx => by simp [hx])) hna rfl hvX h1 ha1
  rw [hu, Option.some.injEq] at hw
  subst hw
  have hσu : σ u = [bv] := by
    have h4 := scope_succ hnp.1.2 hu (by rwa [ht1']) hu1.2.2 h2
    rw [hus, List.nil_append] at h4
    rw [ha2 u huX (by rw [h4]; simp), h4]
  have hbvX : ¬ X bv := fun h => hf1.out bv (by simp) (.inl h)
  have hbvm : bv ≠ m := fun h => hbvX (by rwa [h])
  have hT2 := scope_through hd hb (X := fun x => X x ∨ x = u) (g := g) (.inl hX)
    (by
      rw [ht1']
      rintro x hx (h | rfl)
      · exact ht x hx h
      · exact hut hx) (by rwa [ht1']) hf1
    (by
      simp only [List.nodup_cons, List.mem_cons, not_or]
      exact ⟨⟨hbv1, hbv2⟩, hbs, hnb⟩) hnp.1.2 hu (.inr rfl)
    (by
      rintro (h | h)
      · exact hbsX h
      · exact hu1.2.1 h.symm)
    (by rw [ht1']; exact hfv.table bs (by simp))
    (by
      intro x hx
      rcases hnews x bs hx with h | h
      · exact hfv.pred bs (by simp) x h
      · exact hda2 h) h2 (ha2.mono (fun x => .inl))
  exact knows_addValue (f := ⟨v, bs⟩) h3 (by rwa [ct2])
    (hT.andThen ((Through.edge hσu hbvm).andThen hT2))

mutual

theorem threadStmt_paths (t : Stmt) (hp : t.isPlain = true) : StmtPaths σ m t :=
  match t with
  | .expr e => expr_paths e
  | .assign v target n e => assign_paths v target n e
  | .ifElse v sentinel c tv ts t fv fs f =>
    if_paths v sentinel c tv ts t fv fs f (threadDefinitions_paths t) (threadBody_paths t)
      (threadDefinitions_paths f) (threadBody_paths f)
  | .while _ _ _ _ _ _ _ _ _ => absurd hp (by simp [Stmt.isPlain])
  | .function _ _ _ _ _ _ => absurd hp (by simp [Stmt.isPlain])
  | .ret _ _ => absurd hp (by simp [Stmt.isPlain])

theorem threadBody_paths (ts : List Stmt) : BodyPaths σ m ts :=
  match ts with
  | [] => body_nil
  | .expr e :: ts => body_cons _ ts (fun g => by rw [bodyTraces]; simp)
      (threadStmt_paths (.expr e) rfl) (threadBody_paths ts)
  | .assign v target n e :: ts => body_cons _ ts (fun g => by rw [bodyTraces]; simp)
      (threadStmt_paths (.assign v target n e) rfl) (threadBody_paths ts)
  | .ifElse v sentinel c tv ts' t fv fs f :: ts =>
      body_cons _ ts (fun g => by rw [bodyTraces]; simp)
      (threadStmt_paths (.ifElse v sentinel c tv ts' t fv fs f) rfl) (threadBody_paths ts)
  | .while _ _ _ _ _ _ _ _ _ :: ts => by
    intro X s s' u sentinel g hX ht hk hf hn hnp hu hu' hsu hst hsi hso h ha
    rw [threadBody, threadStmt] at h
    cases h
  | .function v n args bv bs body :: ts => body_function v n args bv bs body ts (threadBody_paths ts)
  | .ret v e :: ts => body_ret v e ts

theorem threadDefinitions_paths (ts : List Stmt) : DefinitionPaths σ m ts :=
  match ts with
  | [] => by
    intro X s s' g hX ht hk hf hn hnp h ha
    rw [threadDefinitions, Option.some.injEq] at h
    subst h
    rw [definitionTraces]
    exact hk
  | .function v n args bv bs body :: ts =>
    definitions_function v n args bv bs body ts (threadDefinitions_paths body)
      (threadBody_paths body) (threadDefinitions_paths ts)
  | .while _ _ _ _ _ _ _ _ _ :: ts => by
    intro X s s' g hX ht hk hf hn hnp h ha
    rw [threadDefinitions] at h
    cases h
  | .expr _ :: ts => definitions_skip _ ts (fun s => by rw [threadDefinitions])
      (fun g => by rw [definitionTraces]; simp) rfl (threadDefinitions_paths ts)
  | .assign _ _ _ _ :: ts => definitions_skip _ ts (fun s => by rw [threadDefinitions])
      (fun g => by rw [definitionTraces]; simp) rfl (threadDefinitions_paths ts)
  | .ifElse _ _ _ _ _ _ _ _ _ :: ts => definitions_skip _ ts (fun s => by rw [threadDefinitions])
      (fun g => by rw [definitionTraces]; simp) rfl (threadDefinitions_paths ts)
  | .ret _ _ :: ts => definitions_skip _ ts (fun s => by rw [threadDefinitions])
      (fun g => by rw [definitionTraces]; simp) rfl (threadDefinitions_paths ts)

end

end Fern
