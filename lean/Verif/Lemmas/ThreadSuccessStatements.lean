import Verif.Lemmas.ThreadSuccess

/-!
# Lemmas about threading: when the threading of statements succeeds
-/

namespace Fern

variable {g : Callable} {s s1 s2 : ThreadState} {A A1 A2 C C1 C2 : List Vid}

theorem isExit_define {n : Str} {f x : Vid} (h : IsExit (g.define n f) x) : IsExit g x ∨ x = f := by
  obtain ⟨n', h⟩ := h
  rw [Callable.define] at h
  split at h
  · rw [Option.some.injEq] at h
    exact .inr h.symm
  · exact .inl ⟨n', h⟩

theorem isExit_callables (ts : List Stmt) (g : Callable) {x : Vid} (h : IsExit (callables g ts) x) :
    IsExit g x ∨ x ∈ Stmt.definitionVids ts := by
  induction ts generalizing g with
  | nil => exact .inl h
  | cons t ts ih =>
    cases t with
    | function v n args bv bs body =>
      rw [callables] at h
      rcases ih _ h with h | h
      · rcases isExit_define h with h | rfl
        · exact .inl h
        · exact .inr (by simp [Stmt.definitionVids, Stmt.definitionVids1, Stmt.vids])
      · exact .inr (by simp [Stmt.definitionVids, h])
    | _ => exact (ih _ h).imp_right (fun h => by simp [Stmt.definitionVids, h])

mutual

theorem stmtCalls_exit (g : Callable) (t : Stmt) :
    ∀ x ∈ stmtCalls g t, IsExit g x ∨ x ∈ t.ownVids :=
  match t with
  | .expr e => fun x hx => .inl (exprCalls_exit e x (by rwa [stmtCalls] at hx))
  | .assign _ _ _ e => fun x hx => .inl (exprCalls_exit e x (by rwa [stmtCalls] at hx))
  | .ifElse v sentinel c tv ts t fv fs f => by
    intro x hx
    rw [stmtCalls, List.mem_append, List.mem_append] at hx
    rcases hx with hx | hx | hx
    · exact .inl (exprCalls_exit c x hx)
    · have := scopeCalls_exit g t x hx
      simp only [Stmt.ownVids, Stmt.vids, List.mem_cons, List.mem_append]
      tauto
    · have := scopeCalls_exit g f x hx
      simp only [Stmt.ownVids, Stmt.vids, List.mem_cons, List.mem_append]
      tauto
  | .while _ _ _ _ _ _ _ _ _ => by simp [stmtCalls]
  | .function _ _ _ _ _ _ => by simp [stmtCalls]
  | .ret _ none => by simp [stmtCalls]
  | .ret _ (some e) => fun x hx => .inl (exprCalls_exit e x (by rwa [stmtCalls] at hx))

theorem bodyCalls_exit (g : Callable) (ts : List Stmt) :
    ∀ x ∈ bodyCalls g ts, IsExit g x ∨ x ∈ Stmt.bodyVids ts :=
  match ts with
  | [] => by simp [bodyCalls]
  | t :: ts => by
    intro x hx
    rw [bodyCalls, List.mem_append] at hx
    rw [Stmt.bodyVids, List.mem_append]
    rcases hx with hx | hx
    · have := stmtCalls_exit g t x hx
      tauto
    · have := bodyCalls_exit g ts x hx
      tauto

theorem definitionCalls_exit (g : Callable) (ts : List Stmt) :
    ∀ x ∈ definitionCalls g ts, IsExit g x ∨ x ∈ Stmt.definitionVids ts :=
  match ts with
  | [] => by simp [definitionCalls]
  | .function v n args bv bs body :: ts => by
    intro x hx
    rw [definitionCalls, List.mem_append, List.mem_append] at hx
    simp only [Stmt.definitionVids, Stmt.definitionVids1, Stmt.vids, List.mem_cons, List.mem_append]
    rcases hx with (hx | hx) | hx
    · exact .inl (exprsCalls_exit args x hx)
    · have := scopeCalls_exit g body x hx
      tauto
    · rcases definitionCalls_exit _ ts x hx with h | h
      · rcases isExit_define h with h | h
        · exact .inl h
        · tauto
      · tauto
  | .while _ _ _ _ _ _ _ _ _ :: ts => by
    simpa [definitionCalls, Stmt.definitionVids, Stmt.definitionVids1] using definitionCalls_exit g ts
  | .expr _ :: ts => by
    simpa [definitionCalls, Stmt.definitionVids, Stmt.definitionVids1] using definitionCalls_exit g ts
  | .assign _ _ _ _ :: ts => by
    simpa [definitionCalls, Stmt.definitionVids, Stmt.definitionVids1] using definitionCalls_exit g ts
  | .ifElse _ _ _ _ _ _ _ _ _ :: ts => by
    simpa [definitionCalls, Stmt.definitionVids, Stmt.definitionVids1] using definitionCalls_exit g ts
  | .ret _ _ :: ts => by
    simpa [definitionCalls, Stmt.definitionVids, Stmt.definitionVids1] using definitionCalls_exit g ts

theorem scopeCalls_exit (g : Callable) (ts : List Stmt) :
    ∀ x ∈ definitionCalls g ts ++ bodyCalls (callables g ts) ts,
      IsExit g x ∨ x ∈ Stmt.listVids ts := by
  intro x hx
  rw [List.mem_append] at hx
  rw [Stmt.mem_listVids]
  rcases hx with hx | hx
  · have := definitionCalls_exit g ts x hx
    tauto
  · rcases bodyCalls_exit _ ts x hx with h | h
    · have := isExit_callables ts g h
      tauto
    · tauto

end

/-- The first statement is a function definition. -/
def Stmt.startsWithFunction : List Stmt → Bool
  | .function _ _ _ _ _ _ :: _ => true
  | _ => false

/-- The second pass over the statements succeeds. -/
def BodySuccess (ts : List Stmt) : Prop :=
  ∀ (g : Callable) (s : ThreadState) (sentinel : Vid) (direct : Bool), TableExits s.table g →
    Ready g s (Stmt.bodyVids ts) (bodyCalls g ts) → Stmt.listFits direct ts = true →
    (direct = true → s.functions.head? = some sentinel) →
    (s.last = none → Stmt.startsWithFunction ts = false) →
    ∃ s', threadBody sentinel s ts = some s' ∧ Done s s' (Stmt.bodyVids ts) (bodyCalls g ts) ∧
      (s'.last = none → (ts = [] ∧ s.last = none) ∨
        ∃ t, ts.getLast? = some t ∧ (s'.succ t.vid).head? = some sentinel)

/-- The first pass over the statements succeeds. -/
def DefinitionSuccess (ts : List Stmt) : Prop :=
  ∀ (g : Callable) (s : ThreadState) (direct : Bool), TableExits s.table g → s.table ≠ [] →
    Ready g s (Stmt.definitionVids ts) (definitionCalls g ts) → Stmt.listFits direct ts = true →
    Stmt.listNamedParameters ts →
    ∃ s', threadDefinitions s ts = some s' ∧ s'.functions = s.functions ∧ s'.last = s.last ∧
      s'.table.tail = s.table.tail ∧ s'.table ≠ [] ∧ TableExits s'.table (callables g ts) ∧
      (∀ x, x ∉ Stmt.definitionVids ts → x ∉ definitionCalls g ts → s'.succ x = s.succ x) ∧
      (∀ x, IsExit (callables g ts) x → x ∈ Stmt.definitionVids ts → x ∉ definitionCalls g ts →
        s'.succ x = [])

theorem tableExits_push {t : SymbolTable Threaded} (h : TableExits t g) : TableExits t.pushScope g := by
  intro n
  rw [SymbolTable.pushScope, SymbolTable.value_cons, Scope.value_nil, Option.none_or]
  exact h n

theorem linkTo_eq_threadTo {v : Vid} (h : s.last ≠ none) : s.linkTo v = s.threadTo v := by
  unfold ThreadState.linkTo ThreadState.threadTo
  cases hl : s.last with
  | none => exact absurd hl h
  | some u => rfl

theorem scope_success {t : List Stmt} (hb : BodySuccess t) (hd : DefinitionSuccess t)
    {v sentinel u : Vid} {direct : Bool} (ht : TableExits s.table g)
    (hr : Ready g { s with last := none } (v :: sentinel :: Stmt.listVids t)
      (definitionCalls g t ++ bodyCalls (callables g t) t))
    (hu : s.last = some u) (huA : u ∉ v :: sentinel :: Stmt.listVids t)
    (huC : u ∉ definitionCalls g t ++ bodyCalls (callables g t) t)
    (hfit : Stmt.listFits direct t = true) (hnp : Stmt.listNamedParameters t)
    (hdir : direct = true → s.functions.head? = some sentinel) :
    ∃ s', s.scope v sentinel (t.getLast?.map Stmt.vid) (fun s => threadDefinitions s t)
        (fun s => threadBody sentinel s t) = some s' ∧
      s'.table = s.table ∧ s'.functions = s.functions ∧ s'.last = some sentinel ∧
      s'.succ sentinel = [] ∧ s'.succ u = s.succ u ++ [v] ∧
      ∀ x, x ≠ u → x ∉ v :: sentinel :: Stmt.listVids t →
        x ∉ definitionCalls g t ++ bodyCalls (callables g t) t → s'.succ x = s.succ x := by
  have hnA := hr.nodupA
  rw [List.nodup_cons, List.nodup_cons, List.mem_cons, not_or] at hnA
  obtain ⟨⟨hv1, hv2⟩, hs, hnt⟩ := hnA
  obtain ⟨hnd, hnb, hdis⟩ := List.nodup_append'.1 ((Stmt.listVids_perm t).nodup_iff.1 hnt)
  have hmem : ∀ {x}, x ∈ Stmt.listVids t ↔ _ := fun {x} => Stmt.mem_listVids (ts := t) (x := x)
  obtain ⟨hCd, hCb, hCdis⟩ := List.nodup_append'.1 hr.nodupC
  have own : ∀ x ∈ v :: sentinel :: Stmt.listVids t, s.succ x = [] ∧ ¬ IsExit g x :=
    fun x hx => ⟨(hr.own x hx).1, (hr.own x hx).2.2⟩
  have calls : ∀ x ∈ definitionCalls g t ++ bodyCalls (callables g t) t, s.succ x = [] :=
    fun x hx => (hr.calls x hx).1
  have hvC : v ∉ definitionCalls g t ++ bodyCalls (callables g t) t := by
    intro h
    rcases scopeCalls_exit g t v h with h | h
    · exact (own v (by simp)).2 h
    · exact hv2 h
  have hsC : sentinel ∉ definitionCalls g t ++ bodyCalls (callables g t) t := by
    intro h
    rcases scopeCalls_exit g t sentinel h with h | h
    · exact (own sentinel (by simp)).2 h
    · exact hs h
  rw [List.mem_append, not_or] at hvC hsC huC
  simp only [List.mem_cons, not_or] at huA
  -- The first pass.
  obtain ⟨s1, e1, f1, l1, tt1, tn1, te1, fr1, ex1⟩ := hd g
    { s with table := s.table.pushScope, last := some v } direct (tableExits_push ht)
    (by simp [SymbolTable.pushScope]) (by
      refine ⟨hnd, hCd, fun x hx => ?_, fun x hx => ?_, ?_⟩
      · have h1 := own x (by simp [hmem.2 (.inl hx)])
        refine ⟨h1.1, ?_, h1.2⟩
        simp only [ne_eq, Option.some.injEq]
        rintro rfl
        exact hv2 (hmem.2 (.inl hx))
      · refine ⟨calls x (by simp [hx]), ?_⟩
        simp only [ne_eq, Option.some.injEq]
        rintro rfl
        exact hvC.1 hx
      · rintro _ ⟨⟩
        exact (own v (by simp)).1) hfit hnp
  -- The second pass.
  have hs1 : ∀ x, x ∉ Stmt.definitionVids t → x ∉ definitionCalls g t → s1.succ x = s.succ x := fr1
  have hvs1 : s1.succ v = [] := by
    rw [hs1 v (fun h => hv2 (hmem.2 (.inl h))) hvC.1]
    exact (own v (by simp)).1
  have hadd : ∀ x, x ≠ u → (s1.addSuccessor u v).succ x = s1.succ x := fun x hx => if_neg hx
  have huv : v ≠ u := fun h => huA.1 h.symm
  obtain ⟨s2, e2, d2, b2⟩ := hb (callables g t) { s1.addSuccessor u v with last := some v } sentinel
    direct te1 (by
      refine ⟨hnb, hCb, fun x hx => ?_, fun x hx => ?_, ?_⟩
      · have hx1 : x ∈ Stmt.listVids t := hmem.2 (.inr hx)
        have hxd : x ∉ Stmt.definitionVids t := fun h => hdis h hx
        have h1 := own x (by simp [hx1])
        have hxe : ¬ IsExit (callables g t) x := fun h =>
          (isExit_callables t g h).elim h1.2 hxd
        refine ⟨?_, ?_, hxe⟩
        · change (s1.addSuccessor u v).succ x = []
          rw [hadd x (by rintro rfl; exact huA.2.2 hx1), hs1 x hxd, h1.1]
          intro h
          exact (definitionCalls_exit g t x h).elim h1.2 hxd
        · simp only [ne_eq, Option.some.injEq]
          rintro rfl
          exact hv2 hx1
      · have hxu : x ≠ u := by
          rintro rfl
          exact huC.2 hx
        refine ⟨?_, ?_⟩
        · change (s1.addSuccessor u v).succ x = []
          rw [hadd x hxu]
          have hxC : x ∉ definitionCalls g t := fun h => hCdis h hx
          by_cases hxd : x ∈ Stmt.definitionVids t
          · rcases bodyCalls_exit _ t x hx with h | h
            · exact ex1 x h hxd hxC
            · exact absurd h (fun h => hdis hxd h)
          · rw [hs1 x hxd hxC]
            exact calls x (by simp [hx])
        · simp only [ne_eq, Option.some.injEq]
          rintro rfl
          exact hvC.2 hx
      · rintro _ ⟨⟩
        change (s1.addSuccessor u v).succ v = []
        rw [hadd v huv, hvs1]) hfit
    (by
      intro h
      change s1.functions.head? = _
      rw [f1]
      exact hdir h) (by simp)
  -- The end.
  have hlast2 : s2.last ≠ some sentinel := by
    rcases d2.last with h | h | ⟨w, h, hw⟩
    · rw [h]
      simp only [ne_eq, Option.some.injEq]
      exact hv1
    · rw [h]; simp
    · rw [h]
      rintro ⟨⟩
      rcases hw with hw | hw
      · exact hs (hmem.2 (.inr hw))
      · exact hsC.2 hw
  have hsu : sentinel ≠ u := fun h => huA.2.1 h.symm
  have frame2 : ∀ x, x ≠ v → x ∉ Stmt.bodyVids t → x ∉ bodyCalls (callables g t) t →
      s2.succ x = (s1.addSuccessor u v).succ x := by
    intro x hx1 hx2 hx3
    refine d2.frame x ?_ hx2 hx3
    simp only [ne_eq, Option.some.injEq]
    exact fun h => hx1 h.symm
  have hsent2 : s2.succ sentinel = [] := by
    rw [frame2 sentinel (fun h => hv1 h.symm) (fun h => hs (hmem.2 (.inr h))) hsC.2, hadd _ hsu,
      hs1 _ (fun h => hs (hmem.2 (.inl h))) hsC.1]
    exact (own sentinel (by simp)).1
  have hu2 : s2.succ u = s.succ u ++ [v] := by
    rw [frame2 u (fun h => huA.1 h) (fun h => huA.2.2 (hmem.2 (.inr h))) huC.2]
    change (if u = u then s1.succ u ++ [v] else _) = _
    rw [if_pos rfl, hs1 u (fun h => huA.2.2 (hmem.2 (.inl h))) huC.1]
  have hlu : s2.last ≠ some u := by
    rcases d2.last with h | h | ⟨w, h, hw⟩
    · rw [h]
      simp only [ne_eq, Option.some.injEq]
      exact huv
    · rw [h]; simp
    · rw [h]
      rintro ⟨⟩
      rcases hw with hw | hw
      · exact huA.2.2 (hmem.2 (.inr hw))
      · exact huC.2 hw
  have hlx : ∀ x, x ≠ v → x ∉ Stmt.bodyVids t → x ∉ bodyCalls (callables g t) t →
      s2.last ≠ some x := by
    intro x hx1 hx2 hx3
    rcases d2.last with h | h | ⟨w, h, hw⟩
    · rw [h]
      simp only [ne_eq, Option.some.injEq]
      exact fun h => hx1 h.symm
    · rw [h]; simp
    · rw [h]
      rintro ⟨⟩
      exact hw.elim hx2 hx3
  have hend : ∃ s3, s2.endScope sentinel (t.getLast?.map Stmt.vid) = some s3 ∧ s3.table = s2.table ∧
      s3.functions = s2.functions ∧ s3.last = some sentinel ∧
      ∀ x, s2.last ≠ some x → s3.succ x = s2.succ x := by
    cases hl : s2.last with
    | none =>
      rcases b2 hl with ⟨_, h⟩ | ⟨t', h1, h2⟩
      · cases h
      · refine ⟨{ s2 with last := some sentinel }, ?_, rfl, rfl, rfl, fun _ _ => rfl⟩
        unfold ThreadState.endScope
        rw [hl, h1, Option.map_some]
        dsimp only
        rw [if_pos h2]
    | some w =>
      refine ⟨{ s2 with succ := fun x => if x = w then [sentinel] else s2.succ x,
                        last := some sentinel }, ?_, rfl, rfl, rfl, fun x hx => ?_⟩
      · unfold ThreadState.endScope ThreadState.linkTo
        rw [hl]
        dsimp only
        rw [ThreadState.setSuccessor, if_pos (d2.isOpen w hl), ThreadState.addSuccessor,
          d2.isOpen w hl]
        rfl
      · dsimp only
        rw [if_neg]
        rintro rfl
        exact hx rfl
  obtain ⟨s3, e3, t3, f3, l3, fr3⟩ := hend
  have ht3 : s3.table = s1.table := by
    rw [t3, d2.table]
    rfl
  obtain ⟨sc, tb, htb⟩ : ∃ sc tb, s1.table = sc :: tb := by
    cases h : s1.table with
    | nil => exact absurd h tn1
    | cons sc tb => exact ⟨sc, tb, rfl⟩
  have htb' : tb = s.table := by
    rw [htb] at tt1
    exact tt1
  refine ⟨{ s3 with table := tb }, ?_, htb', ?_, l3, ?_, ?_, ?_⟩
  · rw [ThreadState.scope, hu]
    dsimp only
    rw [e1, Option.bind_some, e2, Option.bind_some, e3, Option.bind_some, ht3, htb]
    rfl
  · change s3.functions = s.functions
    rw [f3, d2.functions]
    exact f1
  · change s3.succ sentinel = []
    rw [fr3 _ hlast2, hsent2]
  · change s3.succ u = _
    rw [fr3 _ hlu, hu2]
  · intro x hx1 hx2 hx3
    simp only [List.mem_cons, not_or] at hx2
    rw [List.mem_append, not_or] at hx3
    change s3.succ x = s.succ x
    have hxb : x ∉ Stmt.bodyVids t := fun h => hx2.2.2 (hmem.2 (.inr h))
    rw [fr3 _ (hlx x hx2.1 hxb hx3.2), frame2 x hx2.1 hxb hx3.2, hadd x hx1,
      hs1 x (fun h => hx2.2.2 (hmem.2 (.inl h))) hx3.1]

/-- The threading of a statement succeeds. -/
def StmtSuccess (t : Stmt) : Prop :=
  ∀ (g : Callable) (s : ThreadState) (direct : Bool), TableExits s.table g →
    Ready g s t.ownVids (stmtCalls g t) → t.fits direct = true → t.namedParameters →
    ∃ s', threadStmt s t = some s' ∧ Done s s' t.ownVids (stmtCalls g t) ∧ s'.last ≠ none

theorem expr_success (e : Expr) : StmtSuccess (.expr e) := by
  intro g s direct ht hr _ _
  rw [threadStmt]
  rw [stmtCalls] at hr ⊢
  exact threadExpr_success e ht hr

theorem assign_success (v target : Vid) (n : Str) (e : Expr) : StmtSuccess (.assign v target n e) := by
  intro g s direct ht hr _ _
  rw [stmtCalls] at hr ⊢
  have hown : ∀ x ∈ (Stmt.assign v target n e).ownVids, ¬ IsExit g x := fun x hx => (hr.own x hx).2.2
  have hr' : Ready g s (e.vids ++ ([target] ++ [v])) (exprCalls g e ++ ([] ++ [])) := by
    refine hr.sub ?_ (by simp only [List.append_nil]; exact List.Subperm.refl _)
    simp only [Stmt.ownVids, Stmt.vids]
    refine List.Perm.subperm ?_
    refine List.perm_append_comm.trans ?_
    exact List.Perm.swap _ _ _
  obtain ⟨s1, e1, d1, _⟩ := threadExpr_success e ht
    (hr'.sub (List.sublist_append_left _ _).subperm (List.sublist_append_left _ _).subperm)
  have h1 := hr'.next d1 (fun x hx hx' => hown x (by
      simp only [List.mem_append, List.mem_singleton] at hx
      simp only [Stmt.ownVids, Stmt.vids, List.mem_cons]
      tauto) (exprCalls_exit e x hx')) (by simp)
  obtain ⟨s2, e2, d2, _⟩ := threadTo_success
    (h1.sub (List.sublist_append_left _ _).subperm (List.sublist_append_left _ _).subperm)
  have h2 := h1.next d2 (by simp) (by simp)
  obtain ⟨s3, e3, d3, l3⟩ := threadTo_success h2
  refine ⟨s3, by rw [threadStmt, e1, Option.bind_some, e2, Option.bind_some, e3], ?_, by rw [l3]; simp⟩
  exact ((d1.mono (fun x hx => by simp [Stmt.ownVids, Stmt.vids, hx]) (by simp)).trans
    (d2.mono (by simp [Stmt.ownVids, Stmt.vids]) (by simp))).trans
    (d3.mono (by simp [Stmt.ownVids, Stmt.vids]) (by simp))

/-- Some of what is left. -/
theorem Ready.rest (h : Ready g s A C) (d : Done s s1 A1 C1) (hA : A2 ⊆ A) (hA2 : A2.Nodup)
    (h1 : ∀ x ∈ A2, x ∉ A1 ∧ x ∉ C1) (hC : C2 ⊆ C) (hC2 : C2.Nodup)
    (h2 : ∀ x ∈ C2, x ∉ A1 ∧ x ∉ C1) : Ready g s1 A2 C2 := by
  have key : ∀ x, s.succ x = [] → s.last ≠ some x → x ∉ A1 → x ∉ C1 →
      s1.succ x = [] ∧ s1.last ≠ some x := by
    intro x hx1 hx2 hx3 hx4
    refine ⟨by rw [d.frame x hx2 hx3 hx4, hx1], ?_⟩
    rcases d.last with hl | hl | ⟨w, hl, hw⟩
    · rwa [hl]
    · rw [hl]; simp
    · rw [hl]
      rintro ⟨⟩
      exact hw.elim hx3 hx4
  refine ⟨hA2, hC2, fun x hx => ?_, fun x hx => ?_, d.isOpen⟩
  · obtain ⟨k1, k2, k3⟩ := h.own x (hA hx)
    obtain ⟨k4, k5⟩ := key x k1 k2 (h1 x hx).1 (h1 x hx).2
    exact ⟨k4, k5, k3⟩
  · obtain ⟨k1, k2⟩ := h.calls x (hC hx)
    exact key x k1 k2 (h2 x hx).1 (h2 x hx).2

theorem setSuccessor_some {u v : Vid} (h : s.succ u = []) :
    s.setSuccessor u v = some { s with succ := fun x => if x = u then [v] else s.succ x } := by
  rw [ThreadState.setSuccessor, if_pos h, ThreadState.addSuccessor, h]
  rfl

set_option maxHeartbeats 2000000 in
theorem if_success (v sentinel : Vid) (c : Expr) (tv ts : Vid) (t : List Stmt) (fv fs : Vid)
    (f : List Stmt) (hbt : BodySuccess t) (hdt : DefinitionSuccess t) (hbf : BodySuccess f)
    (hdf : DefinitionSuccess f) : StmtSuccess (.ifElse v sentinel c tv ts t fv fs f) := by
  intro g s direct ht hr hfit hnp
  rw [stmtCalls] at hr ⊢
  simp only [Stmt.ownVids, Stmt.vids] at hr ⊢
  generalize hCt : definitionCalls g t ++ bodyCalls (callables g t) t = Ct at hr ⊢
  generalize hCf : definitionCalls g f ++ bodyCalls (callables g f) f = Cf at hr ⊢
  have hCtx : ∀ x ∈ Ct, IsExit g x ∨ x ∈ Stmt.listVids t := by
    rw [← hCt]; exact scopeCalls_exit g t
  have hCfx : ∀ x ∈ Cf, IsExit g x ∨ x ∈ Stmt.listVids f := by
    rw [← hCf]; exact scopeCalls_exit g f
  have hn := hr.nodupA
  have hnC := hr.nodupC
  simp only [List.nodup_cons, List.nodup_append', List.mem_cons, List.mem_append, not_or,
    List.disjoint_cons_right, List.disjoint_append_right] at hn hnC
  obtain ⟨⟨hv1, hv2, hv3, hv4, hv5, hv6, hv7, hv8⟩, ⟨hs2, hs3, hs4, hs5, hs6, hs7, hs8⟩, hnc,
    ⟨⟨ht1, ht2, ht3, ht4, ht5⟩, ⟨hts1, hts2, hts3, hts4⟩, hnt, ⟨⟨hfv1, hfv2⟩, hfs, hnf⟩, hdtf⟩,
    hct, hcs, hctt, hcfv, hcfs, hcf⟩ := hn
  obtain ⟨hnCc, ⟨hnCt, hnCf, hCtf⟩, hCct, hCcf⟩ := hnC
  have hown : ∀ x, x ∈ v :: sentinel :: (c.vids ++ tv :: ts :: (Stmt.listVids t ++
      fv :: fs :: Stmt.listVids f)) → ¬ IsExit g x := fun x hx => (hr.own x hx).2.2
  -- The condition.
  obtain ⟨s1, e1, d1, l1⟩ := threadExpr_success c ht
    (hr.sub ((List.sublist_append_left c.vids _).trans
      ((List.sublist_cons_self _ _).trans (List.sublist_cons_self _ _))).subperm
      (List.sublist_append_left _ _).subperm)
  have hCc : ∀ x ∈ exprCalls g c, IsExit g x := exprCalls_exit c
  have r1 : Ready g s1 (v :: sentinel :: tv :: ts :: fv :: fs ::
      (Stmt.listVids t ++ Stmt.listVids f)) (Ct ++ Cf) := by
    refine hr.rest d1 ?_ ?_ ?_ (fun x hx => by simp only [List.mem_append] at hx ⊢; tauto) ?_ ?_
    · intro x hx
      simp only [List.mem_cons, List.mem_append] at hx ⊢
      tauto
    · simp only [List.nodup_cons, List.nodup_append', List.mem_cons, List.mem_append, not_or]
      exact ⟨⟨hv1, hv3, hv4, hv6, hv7, hv5, hv8⟩, ⟨hs3, hs4, hs6, hs7, hs5, hs8⟩,
        ⟨ht1, ht3, ht4, ht2, ht5⟩, ⟨hts2, hts3, hts1, hts4⟩, ⟨hfv1, hdtf.1, hfv2⟩, ⟨hdtf.2.1, hfs⟩,
        hnt, hnf, hdtf.2.2⟩
    · intro x hx
      have hx' : x ∈ v :: sentinel :: (c.vids ++ tv :: ts :: (Stmt.listVids t ++
          fv :: fs :: Stmt.listVids f)) := by
        simp only [List.mem_cons, List.mem_append] at hx ⊢
        tauto
      refine ⟨?_, fun h => hown x hx' (hCc x h)⟩
      simp only [List.mem_cons, List.mem_append] at hx
      rcases hx with rfl | rfl | rfl | rfl | rfl | rfl | hx | hx
      · exact hv2
      · exact hs2
      · exact hct
      · exact hcs
      · exact hcfv
      · exact hcfs
      · exact fun h => hctt h hx
      · exact fun h => hcf h hx
    · exact List.nodup_append'.2 ⟨hnCt, hnCf, hCtf⟩
    · intro x hx
      rw [List.mem_append] at hx
      rcases hx with hx | hx
      · refine ⟨fun h => ?_, fun h => hCct h hx⟩
        rcases hCtx x hx with h' | h'
        · exact hown x (by simp [h]) h'
        · exact hctt h h'
      · refine ⟨fun h => ?_, fun h => hCcf h hx⟩
        rcases hCfx x hx with h' | h'
        · exact hown x (by simp [h]) h'
        · exact hcf h h'
  -- The vertex itself.
  obtain ⟨s2, e2, d2, l2⟩ := threadTo_success (v := v) (r1.sub
    (List.Sublist.subperm (by simp)) List.nil_subperm)
  have hvCt : v ∉ Ct := fun h => (hCtx v h).elim (hown v (by simp)) hv5
  have hvCf : v ∉ Cf := fun h => (hCfx v h).elim (hown v (by simp)) hv8
  have r2 : Ready g s2 (sentinel :: tv :: ts :: fv :: fs ::
      (Stmt.listVids t ++ Stmt.listVids f)) (Ct ++ Cf) := by
    refine r1.rest d2 (List.subset_cons_self _ _) (List.nodup_cons.1 r1.nodupA).2 ?_
      (List.Subset.refl _) r1.nodupC ?_
    · intro x hx
      refine ⟨?_, by simp⟩
      rw [List.mem_singleton]
      rintro rfl
      exact (List.nodup_cons.1 r1.nodupA).1 hx
    · intro x hx
      refine ⟨?_, by simp⟩
      rw [List.mem_singleton]
      rintro rfl
      rw [List.mem_append] at hx
      exact hx.elim hvCt hvCf
  have hv2s : s2.succ v = [] := d2.isOpen v l2
  have tab2 : s2.table = s.table := d2.table.trans d1.table
  -- The scope for true.
  have hfit' : Stmt.listFits false t = true ∧ Stmt.listFits false f = true := by
    simpa [Stmt.fits] using hfit
  obtain ⟨s3, e3, tab3, f3, l3, ss3, su3, fr3⟩ := scope_success hbt hdt (s := s2) (g := g) (v := tv)
    (sentinel := ts) (u := v) (direct := false) (by rwa [tab2]) (by
      rw [hCt]
      refine ⟨?_, hnCt, fun x hx => ?_, fun x hx => ?_, by simp⟩
      · simp only [List.nodup_cons, List.mem_cons, not_or]
        exact ⟨⟨ht1, ht2⟩, hts1, hnt⟩
      · obtain ⟨k1, k2, k3⟩ := r2.own x (by
          simp only [List.mem_cons, List.mem_append] at hx ⊢
          tauto)
        exact ⟨k1, by simp, k3⟩
      · exact ⟨(r2.calls x (by simp [hx])).1, by simp⟩) l2
    (by
      simp only [List.mem_cons, not_or]
      exact ⟨hv3, hv4, hv5⟩) (by rwa [hCt]) hfit'.1 hnp.1 (by simp)
  rw [hCt] at fr3
  have rest3 : ∀ x ∈ sentinel :: fv :: fs :: Stmt.listVids f, s3.succ x = [] := by
    intro x hx
    have hx2 : x ∈ sentinel :: tv :: ts :: fv :: fs :: (Stmt.listVids t ++ Stmt.listVids f) := by
      simp only [List.mem_cons, List.mem_append] at hx ⊢
      tauto
    have hx3 : x ∉ tv :: ts :: Stmt.listVids t := by
      simp only [List.mem_cons] at hx ⊢
      rcases hx with rfl | rfl | rfl | hx
      · tauto
      · tauto
      · tauto
      · rintro (rfl | rfl | h)
        · exact ht5 hx
        · exact hts4 hx
        · exact hdtf.2.2 h hx
    have hx4 : ¬ IsExit g x := (r2.own x hx2).2.2
    rw [fr3 x ?_ hx3 ?_]
    · exact (r2.own x hx2).1
    · rintro rfl
      simp only [List.mem_cons] at hx
      tauto
    · intro h
      rcases hCtx x h with h | h
      · exact hx4 h
      · exact hx3 (by simp [h])
  have restC3 : ∀ x ∈ Cf, s3.succ x = [] := by
    intro x hx
    rw [fr3 x ?_ ?_ ?_]
    · exact (r2.calls x (by simp [hx])).1
    · rintro rfl
      exact hvCf hx
    · simp only [List.mem_cons]
      intro h
      rcases hCfx x hx with h' | h'
      · refine hown x ?_ h'
        simp only [List.mem_cons, List.mem_append]
        tauto
      · rcases h with rfl | rfl | h
        · exact ht5 h'
        · exact hts4 h'
        · exact hdtf.2.2 h h'
    · exact fun h => hCtf h hx
  have tab3' : s3.table = s.table := tab3.trans tab2
  have fun3 : s3.functions = s.functions := by rw [f3, d2.functions, d1.functions]
  -- Its sentinel.
  have e4 := setSuccessor_some (s := s3) (u := ts) (v := sentinel) ss3
  have start : threadStmt s (.ifElse v sentinel c tv ts t fv fs f) =
      if f.isEmpty then
        some (ThreadState.startAt
          { s3 with succ := fun x => if x = ts then [sentinel] else s3.succ x } sentinel)
      else
        ((ThreadState.startAt
            { s3 with succ := fun x => if x = ts then [sentinel] else s3.succ x } v).scope fv fs
          (f.getLast?.map Stmt.vid) (fun s => threadDefinitions s f)
          (fun s => threadBody fs s f)).bind fun s =>
        (s.setSuccessor fs sentinel).map fun s => s.startAt sentinel := by
    rw [threadStmt, e1, Option.bind_some, linkTo_eq_threadTo l1, e2, Option.bind_some, e3,
      Option.bind_some, e4, Option.bind_some]
  -- What changes in all.
  have fr : ∀ x, s.last ≠ some x → x ∉ v :: sentinel :: (c.vids ++ tv :: ts :: (Stmt.listVids t ++
      fv :: fs :: Stmt.listVids f)) → x ∉ exprCalls g c ++ (Ct ++ Cf) → s3.succ x = s.succ x := by
    intro x hx1 hx2 hx3
    simp only [List.mem_cons, List.mem_append, not_or] at hx2 hx3
    rw [fr3 x (by tauto) (by simp only [List.mem_cons]; tauto) (by tauto),
      d2.frame x ?_ (by simp; tauto) (by simp), d1.frame x hx1 (by tauto) (by tauto)]
    rcases d1.last with hl | hl | ⟨w, hl, hw⟩
    · rwa [hl]
    · rw [hl]; simp
    · rw [hl]
      rintro ⟨⟩
      tauto
  rw [start]
  cases hf : f.isEmpty with
  | true =>
    refine ⟨_, if_pos rfl, ⟨tab3', fun3, fun x hx1 hx2 hx3 => ?_, .inr (.inr ⟨sentinel, rfl, .inl
      (by simp)⟩), ?_⟩, by simp [ThreadState.startAt]⟩
    · have : x ≠ ts := by
        rintro rfl
        exact hx2 (by simp)
      change (if x = ts then [sentinel] else s3.succ x) = s.succ x
      rw [if_neg this]
      exact fr x hx1 hx2 hx3
    · rintro _ ⟨⟩
      change (if sentinel = ts then [sentinel] else s3.succ sentinel) = []
      rw [if_neg hs4]
      exact rest3 sentinel (by simp)
  | false =>
    obtain ⟨s5, e5, tab5, f5, l5, ss5, su5, fr5⟩ := scope_success hbf hdf (g := g)
      (s := ThreadState.startAt { s3 with succ := fun x => if x = ts then [sentinel] else s3.succ x } v)
      (v := fv) (sentinel := fs) (u := v) (direct := false)
      (by
        change TableExits s3.table g
        rwa [tab3'])
      (by
        rw [hCf]
        refine ⟨?_, hnCf, fun x hx => ?_, fun x hx => ?_, by simp⟩
        · simp only [List.nodup_cons, List.mem_cons, not_or]
          exact ⟨⟨hfv1, hfv2⟩, hfs, hnf⟩
        · have hxt : x ≠ ts := by
            rintro rfl
            simp only [List.mem_cons] at hx
            tauto
          refine ⟨?_, by simp, hown x (by
            simp only [List.mem_cons, List.mem_append] at hx ⊢
            tauto)⟩
          change (if x = ts then [sentinel] else s3.succ x) = []
          rw [if_neg hxt]
          exact rest3 x (List.mem_cons_of_mem _ hx)
        · have hxt : x ≠ ts := by
            rintro rfl
            exact (hCfx x hx).elim (hown x (by simp)) hts4
          refine ⟨?_, by simp⟩
          change (if x = ts then [sentinel] else s3.succ x) = []
          rw [if_neg hxt]
          exact restC3 x hx) rfl
      (by
        simp only [List.mem_cons, not_or]
        exact ⟨hv6, hv7, hv8⟩) (by rwa [hCf]) hfit'.2 hnp.2 (by simp)
    rw [hCf] at fr5
    have hsCf : sentinel ∉ Cf := fun h => (hCfx sentinel h).elim (hown sentinel (by simp)) hs8
    have e6 := setSuccessor_some (s := s5) (u := fs) (v := sentinel) ss5
    rw [if_neg (by simp), e5, Option.bind_some, e6, Option.map_some]
    refine ⟨_, rfl, ⟨tab5.trans tab3', f5.trans fun3, fun x hx1 hx2 hx3 => ?_,
      .inr (.inr ⟨sentinel, rfl, .inl (by simp)⟩), ?_⟩, by simp [ThreadState.startAt]⟩
    · have hx4 := hx2
      have hx5 := hx3
      simp only [List.mem_cons, List.mem_append, not_or] at hx4 hx5
      change (if x = fs then [sentinel] else s5.succ x) = s.succ x
      rw [if_neg (by tauto), fr5 x (by tauto) (by simp only [List.mem_cons]; tauto) (by tauto)]
      change (if x = ts then [sentinel] else s3.succ x) = s.succ x
      rw [if_neg (by tauto)]
      exact fr x hx1 hx2 hx3
    · rintro _ ⟨⟩
      change (if sentinel = fs then [sentinel] else s5.succ sentinel) = []
      rw [if_neg hs7, fr5 sentinel (fun h => hv1 h.symm) (by
        simp only [List.mem_cons, not_or]
        exact ⟨hs6, hs7, hs8⟩) hsCf]
      change (if sentinel = ts then [sentinel] else s3.succ sentinel) = []
      rw [if_neg hs4]
      exact rest3 sentinel (by simp)

end Fern
