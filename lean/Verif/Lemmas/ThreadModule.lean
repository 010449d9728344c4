import Verif.Lemmas.ThreadStatements
import Verif.Lemmas.ThreadSuccessStatements

/-!
# Lemmas about threading: modules
-/

namespace Fern

variable {g : Callable} {s s1 s2 : ThreadState}

theorem afterStatement_open {sentinel : Vid} (h : s.last ≠ none)
    (ho : ∀ u, s.last = some u → s.succ u = []) : s.afterStatement sentinel = some s := by
  unfold ThreadState.afterStatement
  cases hl : s.last with
  | none => exact absurd hl h
  | some u =>
    dsimp only
    rw [ho u hl]

theorem body_success_nil : BodySuccess [] := by
  intro g s sentinel direct ht hr hf hd hn
  exact ⟨s, by rw [threadBody], ⟨rfl, rfl, fun _ _ _ _ => rfl, .inl rfl, hr.isOpen⟩,
    fun h => .inl ⟨rfl, h⟩⟩

theorem getLast?_cons_of {t t' : Stmt} {ts : List Stmt} (h : ts.getLast? = some t') :
    (t :: ts).getLast? = some t' := by
  rw [List.getLast?_cons, h]
  rfl

/-- A statement that succeeds and leaves an open last vertex, then the others. -/
theorem body_success_cons (t : Stmt) (ts : List Stmt) (h1 : StmtSuccess t)
    (hv : ∀ g, ∀ x ∈ stmtCalls g t, IsExit g x ∨ x ∈ t.ownVids) (h2 : BodySuccess ts)
    (hnp : t.namedParameters) : BodySuccess (t :: ts) := by
  intro g s sentinel direct ht hr hf hd hn
  rw [Stmt.bodyVids, bodyCalls] at hr
  rw [Stmt.listFits, Bool.and_eq_true, Bool.and_eq_true] at hf
  obtain ⟨hA1, hA2, hA⟩ := List.nodup_append'.1 hr.nodupA
  obtain ⟨s1, e1, d1, l1⟩ := h1 g s direct ht
    (hr.sub (List.sublist_append_left _ _).subperm (List.sublist_append_left _ _).subperm) hf.1.1 hnp
  have r1 := hr.next d1
    (fun x hx hx' => by
      rcases hv g x hx' with h | h
      · exact (hr.own x (by simp [hx])).2.2 h
      · exact hA h hx)
    (fun x hx hx' => by
      rcases bodyCalls_exit g ts x hx with h | h
      · exact (hr.own x (by simp [hx'])).2.2 h
      · exact hA hx' h)
  obtain ⟨s2, e2, d2, b2⟩ := h2 g s1 sentinel direct (by rwa [d1.table]) r1 hf.2
    (fun h => by rw [d1.functions]; exact hd h) (fun h => absurd h l1)
  refine ⟨s2, ?_, ?_, fun h => ?_⟩
  · rw [threadBody, e1, Option.bind_some, afterStatement_open l1 d1.isOpen, Option.bind_some, e2]
  · rw [Stmt.bodyVids, bodyCalls]
    exact (d1.mono (by simp) (by simp)).trans (d2.mono (by simp) (by simp))
  · rcases b2 h with ⟨_, h'⟩ | ⟨t', h', h''⟩
    · exact absurd h' l1
    · exact .inr ⟨t', getLast?_cons_of h', h''⟩

theorem body_success_function (v : Vid) (n : Str) (args : List Expr) (bv bs : Vid)
    (body ts : List Stmt) (h2 : BodySuccess ts) :
    BodySuccess (.function v n args bv bs body :: ts) := by
  intro g s sentinel direct ht hr hf hd hn
  have hl : s.last ≠ none := fun h => by
    have := hn h
    rw [Stmt.startsWithFunction] at this
    cases this
  rw [Stmt.bodyVids, bodyCalls, stmtCalls, Stmt.ownVids, List.nil_append, List.nil_append] at hr ⊢
  rw [Stmt.listFits, Bool.and_eq_true, Bool.and_eq_true] at hf
  obtain ⟨s2, e2, d2, b2⟩ := h2 g s sentinel direct ht hr hf.2 hd (fun h => absurd h hl)
  refine ⟨s2, ?_, d2, fun h => ?_⟩
  · rw [threadBody, threadStmt, Option.bind_some, afterStatement_open hl hr.isOpen, Option.bind_some,
      e2]
  · rcases b2 h with ⟨_, h'⟩ | ⟨t', h', h''⟩
    · exact absurd h' hl
    · exact .inr ⟨t', getLast?_cons_of h', h''⟩

/-- The expression of a return statement. -/
theorem retExpr_success (v : Vid) (e : Option Expr) (ht : TableExits s.table g)
    (h : Ready g s (Stmt.ret v e).ownVids (stmtCalls g (.ret v e))) :
    ∃ s', (match e with
      | none => some s
      | some e => threadExpr s e) = some s' ∧
      Done s s' (Stmt.ret v e).ownVids (stmtCalls g (.ret v e)) ∧ Ready g s' [v] [] := by
  cases e with
  | none =>
    refine ⟨s, rfl, ⟨rfl, rfl, fun _ _ _ _ => rfl, .inl rfl, h.isOpen⟩, ?_⟩
    exact h.sub (by simp only [Stmt.ownVids, Stmt.vids]; exact List.Subperm.refl _) List.nil_subperm
  | some e =>
    have h' : Ready g s (e.vids ++ [v]) (exprCalls g e ++ []) := by
      refine h.sub ?_ (by rw [stmtCalls, List.append_nil])
      simp only [Stmt.ownVids, Stmt.vids]
      exact (List.perm_append_singleton _ _).subperm
    obtain ⟨s1, e1, d1, _⟩ := threadExpr_success e ht
      (h'.sub (List.sublist_append_left _ _).subperm (List.sublist_append_left _ _).subperm)
    refine ⟨s1, e1, ?_, h'.next d1 ?_ (by simp)⟩
    · rw [stmtCalls]
      exact d1.mono (by simp [Stmt.ownVids, Stmt.vids]) (by simp)
    · intro x hx hx'
      exact (h'.own x (by simp [List.mem_singleton.1 hx])).2.2 (exprCalls_exit e x hx')

theorem body_success_ret (v : Vid) (e : Option Expr) (ts : List Stmt) (h2 : BodySuccess ts) :
    BodySuccess (.ret v e :: ts) := by
  intro g s sentinel direct ht hr hf hd hn
  rw [Stmt.bodyVids, bodyCalls] at hr
  rw [Stmt.listFits, Bool.and_eq_true, Bool.and_eq_true] at hf
  have hdir : direct = true := by
    have := hf.1.1
    rwa [Stmt.fits] at this
  have hts : Stmt.startsWithFunction ts = false := by
    have := hf.1.2
    rcases ts with _ | ⟨t, ts⟩
    · rfl
    · cases t with
      | function v n args bv bs body => simp [Stmt.retThenFunction] at this
      | _ => rfl
  obtain ⟨hA1, hA2, hA⟩ := List.nodup_append'.1 hr.nodupA
  obtain ⟨s1, e1, d1, r1⟩ := retExpr_success v e ht
    (hr.sub (List.sublist_append_left _ _).subperm (List.sublist_append_left _ _).subperm)
  obtain ⟨s2, e2, d2, l2⟩ := threadTo_success r1
  have hv : v ∈ (Stmt.ret v e).ownVids := by cases e <;> simp [Stmt.ownVids, Stmt.vids]
  have e3 := setSuccessor_some (s := s2) (u := v) (v := sentinel) (d2.isOpen v l2)
  have d12 := d1.trans (d2.mono (A := (Stmt.ret v e).ownVids) (C := stmtCalls g (.ret v e))
    (by simpa using hv) (by simp))
  have hh : s2.functions.head? = some sentinel := by
    rw [d12.functions]
    exact hd hdir
  obtain ⟨rest, hrest⟩ : ∃ rest, s2.functions = sentinel :: rest := by
    cases hf2 : s2.functions with
    | nil => rw [hf2] at hh; cases hh
    | cons a l =>
      rw [hf2, List.head?_cons, Option.some.injEq] at hh
      exact ⟨l, by rw [hh]⟩
  have e4 : threadStmt s (.ret v e) =
      some { s2 with succ := fun x => if x = v then [sentinel] else s2.succ x } := by
    unfold threadStmt
    refine Option.bind_eq_some_iff.2 ⟨s1, e1, ?_⟩
    rw [e2, Option.bind_some, hrest]
    dsimp only
    rw [e3, hrest]
  have e5 : ThreadState.afterStatement
      { s2 with succ := fun x => if x = v then [sentinel] else s2.succ x } sentinel =
      some { s2 with succ := fun x => if x = v then [sentinel] else s2.succ x, last := none } := by
    unfold ThreadState.afterStatement
    dsimp only
    rw [l2]
    dsimp only
    rw [if_pos rfl]
    dsimp only
    rw [if_pos rfl]
  have d3 : Done s { s2 with succ := fun x => if x = v then [sentinel] else s2.succ x, last := none }
      (Stmt.ret v e).ownVids (stmtCalls g (.ret v e)) := by
    refine ⟨d12.table, d12.functions, fun x hx1 hx2 hx3 => ?_, .inr (.inl rfl), by simp⟩
    dsimp only
    rw [if_neg (by rintro rfl; exact hx2 hv), d12.frame x hx1 hx2 hx3]
  have r3 := hr.next d3
    (fun x hx hx' => by
      rcases stmtCalls_exit g _ x hx' with h | h
      · exact (hr.own x (by simp [hx])).2.2 h
      · exact hA h hx)
    (fun x hx hx' => by
      rcases bodyCalls_exit g ts x hx with h | h
      · exact (hr.own x (by simp [hx'])).2.2 h
      · exact hA hx' h)
  obtain ⟨s4, e6, d4, b4⟩ := h2 g
    { s2 with succ := fun x => if x = v then [sentinel] else s2.succ x, last := none } sentinel direct
    (by
      change TableExits s2.table g
      rwa [d12.table]) r3 hf.2 (fun _ => hh) (fun _ => hts)
  refine ⟨s4, ?_, ?_, fun h => ?_⟩
  · rw [threadBody, e4, Option.bind_some, e5, Option.bind_some, e6]
  · rw [Stmt.bodyVids, bodyCalls]
    exact (d3.mono (by simp) (by simp)).trans (d4.mono (by simp) (by simp))
  · rcases b4 h with ⟨rfl, _⟩ | ⟨t', h', h''⟩
    · refine .inr ⟨.ret v e, rfl, ?_⟩
      rw [threadBody, Option.some.injEq] at e6
      subst e6
      change (if v = v then [sentinel] else s2.succ v).head? = some sentinel
      rw [if_pos rfl]
      rfl
    · exact .inr ⟨t', getLast?_cons_of h', h''⟩

theorem definition_success_skip (t : Stmt) (ts : List Stmt)
    (hs : ∀ s, threadDefinitions s (t :: ts) = threadDefinitions s ts)
    (hg : ∀ g, callables g (t :: ts) = callables g ts)
    (hc : ∀ g, definitionCalls g (t :: ts) = definitionCalls g ts)
    (hv : t.definitionVids1 = []) (h : DefinitionSuccess ts) : DefinitionSuccess (t :: ts) := by
  intro g s direct ht hn hr hf hnp
  rw [Stmt.definitionVids, hv, List.nil_append, hc] at hr ⊢
  rw [hs, hg]
  rw [Stmt.listFits, Bool.and_eq_true] at hf
  exact h g s direct ht hn hr hf.2 hnp.2

theorem tableExits_addValue {t : SymbolTable Threaded} (n : Str) (f : Threaded) (ht : TableExits t g)
    (hn : t ≠ []) : ∃ t', t.addValue n f = some t' ∧ TableExits t' (g.define n f.exit) := by
  cases t with
  | nil => exact absurd rfl hn
  | cons sc t =>
    refine ⟨_, rfl, fun n' => ?_⟩
    have := ht n'
    rw [SymbolTable.value_cons] at this
    rw [SymbolTable.value_cons, Scope.setValue, Scope.value_assign, Callable.define]
    by_cases h : n = n'
    · rw [if_pos h, if_pos h.symm]
      rfl
    · rw [if_neg h, if_neg (fun h' => h h'.symm)]
      exact this

theorem exprsCalls_names (args : List Expr) (ha : ∀ a ∈ args, ∃ v n, a = .name v n) :
    exprsCalls g args = [] := by
  induction args with
  | nil => rw [exprsCalls]
  | cons a args ih =>
    obtain ⟨v, n, rfl⟩ := ha a (by simp)
    rw [exprsCalls, exprCalls, ih (fun a h => ha a (by simp [h])), List.nil_append]

set_option maxHeartbeats 1000000 in
theorem definition_success_function (v : Vid) (n : Str) (args : List Expr) (bv bs : Vid)
    (body ts : List Stmt) (hb : BodySuccess body) (hd : DefinitionSuccess body)
    (hts : DefinitionSuccess ts) : DefinitionSuccess (.function v n args bv bs body :: ts) := by
  intro g s direct ht hne hr hf hnp
  have hna := exprsCalls_names (g := g) args hnp.1.1
  rw [Stmt.definitionVids, definitionCalls, hna, List.nil_append] at hr ⊢
  generalize hCb : definitionCalls g body ++ bodyCalls (callables g body) body = Cb at hr ⊢
  have hCbx : ∀ x ∈ Cb, IsExit g x ∨ x ∈ Stmt.listVids body := by
    rw [← hCb]; exact scopeCalls_exit g body
  rw [Stmt.listFits, Bool.and_eq_true, Bool.and_eq_true] at hf
  have hfb : Stmt.listFits true body = true := by
    have := hf.1.1
    rwa [Stmt.fits] at this
  obtain ⟨hA1, hA2, hA⟩ := List.nodup_append'.1 hr.nodupA
  obtain ⟨hC1, hC2, hC⟩ := List.nodup_append'.1 hr.nodupC
  rw [Stmt.definitionVids1] at *
  have hown : ∀ x ∈ (Stmt.function v n args bv bs body).vids, s.succ x = [] ∧ s.last ≠ some x ∧
      ¬ IsExit g x := fun x hx => hr.own x (by simp [hx])
  have hvids : (Stmt.function v n args bv bs body).vids =
      v :: (Expr.listVids args ++ bv :: bs :: Stmt.listVids body) := rfl
  have hn1 := hA1
  simp only [Stmt.vids, List.nodup_cons, List.nodup_append', List.mem_cons, List.mem_append, not_or,
    List.disjoint_cons_right] at hn1
  obtain ⟨⟨hv1, hv2, hv3, hv4⟩, hnargs, ⟨⟨hbv1, hbv2⟩, hbs, hnb⟩, hda1, hda2, hda3⟩ := hn1
  -- The parameters.
  obtain ⟨s1, e1, d1⟩ := threadExprs_success (g := g) args
    (s := { s with last := some v, functions := bs :: s.functions }) ht (by
      rw [hna]
      refine ⟨hnargs, List.nodup_nil, fun x hx => ?_, by simp, ?_⟩
      · have h1 := hown x (by simp [hvids, hx])
        refine ⟨h1.1, ?_, h1.2.2⟩
        simp only [ne_eq, Option.some.injEq]
        rintro rfl
        exact hv1 hx
      · rintro _ ⟨⟩
        exact (hown v (by simp [hvids])).1)
  rw [hna] at d1
  obtain ⟨u, hu, hu'⟩ : ∃ u, s1.last = some u ∧ (u = v ∨ u ∈ Expr.listVids args) :=
    (threadNames_last args v rfl hnp.1.1 e1).1
  have tab1 : s1.table = s.table := d1.table
  have fr1 : ∀ x, x ≠ v → x ∉ Expr.listVids args → s1.succ x = s.succ x := by
    intro x hx1 hx2
    refine d1.frame x ?_ hx2 (by simp)
    simp only [ne_eq, Option.some.injEq]
    exact fun h => hx1 h.symm
  have hu1 : u ≠ bv ∧ u ≠ bs ∧ u ∉ Stmt.listVids body := by
    rcases hu' with rfl | h
    · exact ⟨hv2, hv3, hv4⟩
    · exact ⟨by rintro rfl; exact hda1 h, by rintro rfl; exact hda2 h, fun h' => hda3 h h'⟩
  have hux : ¬ IsExit g u := by
    refine (hown u ?_).2.2
    rcases hu' with rfl | h
    · simp [hvids]
    · simp [hvids, h]
  have huCb : u ∉ Cb := fun h => (hCbx u h).elim hux hu1.2.2
  have hCfree : ∀ x ∈ Cb, x ≠ v ∧ x ∉ Expr.listVids args := by
    intro x hx
    rcases hCbx x hx with h | h
    · refine ⟨?_, fun h' => (hown x (by simp [hvids, h'])).2.2 h⟩
      rintro rfl
      exact (hown x (by simp [hvids])).2.2 h
    · refine ⟨?_, fun h' => hda3 h' h⟩
      rintro rfl
      exact hv4 h
  -- The body.
  obtain ⟨s2, e2, tab2, f2, l2, ss2, su2, fr2⟩ := scope_success hb hd (s := s1) (g := g) (v := bv)
    (sentinel := bs) (u := u) (direct := true) (by rwa [tab1]) (by
      rw [hCb]
      refine ⟨?_, hC1, fun x hx => ?_, fun x hx => ?_, by simp⟩
      · simp only [List.nodup_cons, List.mem_cons, not_or]
        exact ⟨⟨hbv1, hbv2⟩, hbs, hnb⟩
      · have h1 := hown x (by
          simp only [hvids, List.mem_cons, List.mem_append] at hx ⊢
          tauto)
        refine ⟨?_, by simp, h1.2.2⟩
        change s1.succ x = []
        rw [fr1 x, h1.1]
        · rintro rfl
          simp only [List.mem_cons] at hx
          tauto
        · simp only [List.mem_cons] at hx
          rcases hx with rfl | rfl | hx
          · exact hda1
          · exact hda2
          · exact fun h => hda3 h hx
      · refine ⟨?_, by simp⟩
        change s1.succ x = []
        rw [fr1 x (hCfree x hx).1 (hCfree x hx).2]
        exact (hr.calls x (by simp [hx])).1) hu
    (by
      simp only [List.mem_cons, not_or]
      exact hu1) (by rwa [hCb]) hfb hnp.1.2 (by
      intro _
      rw [d1.functions]
      rfl)
  rw [hCb] at fr2
  obtain ⟨t', e3, te3⟩ := tableExits_addValue (g := g) (t := s2.table) n ⟨v, bs⟩
    (by rw [tab2, tab1]; exact ht) (by rwa [tab2, tab1])
  have tt3 := addValue_tail e3
  -- What has changed.
  have fr : ∀ x, x ∉ (Stmt.function v n args bv bs body).vids → x ∉ Cb → s2.succ x = s.succ x := by
    intro x hx1 hx2
    simp only [hvids, List.mem_cons, List.mem_append, not_or] at hx1
    rw [fr2 x ?_ (by simp only [List.mem_cons]; tauto) hx2, fr1 x (by tauto) (by tauto)]
    rintro rfl
    tauto
  have hlbs : s.last ≠ some bs := (hown bs (by simp [hvids])).2.1
  -- The other functions.
  have hlast : ∀ x, x ∈ Stmt.definitionVids ts → x ∉ (Stmt.function v n args bv bs body).vids ∧
      x ∉ Cb := by
    intro x hx
    have h1 : x ∉ (Stmt.function v n args bv bs body).vids := fun h => hA h hx
    refine ⟨h1, fun h => ?_⟩
    rcases hCbx x h with h | h
    · exact (hr.own x (by simp [hx])).2.2 h
    · exact h1 (by simp [hvids, h])
  obtain ⟨s3, e4, f4, l4, tt4, tn4, te4, fr4, ex4⟩ := hts (g.define n bs)
    { s2 with table := t', last := s.last, functions := s.functions } direct te3 tt3.2 (by
      refine ⟨hA2, hC2, fun x hx => ?_, fun x hx => ?_, fun u hu => ?_⟩
      · obtain ⟨k1, k2, k3⟩ := hr.own x (by simp [hx])
        obtain ⟨k4, k5⟩ := hlast x hx
        refine ⟨?_, k2, fun h => ?_⟩
        · change s2.succ x = []
          rw [fr x k4 k5, k1]
        · rcases isExit_define h with h | rfl
          · exact k3 h
          · exact k4 (by simp [hvids])
      · have k1 := hr.calls x (by simp [hx])
        refine ⟨?_, k1.2⟩
        change s2.succ x = []
        by_cases hxb : x = bs
        · rw [hxb, ss2]
        · have hxC : x ∉ Cb := fun h => hC h hx
          rcases definitionCalls_exit _ ts x hx with h | h
          · rcases isExit_define h with h | h
            · rw [fr x (fun h' => (hown x h').2.2 h) hxC, k1.1]
            · exact absurd h hxb
          · rw [fr x (hlast x h).1 hxC, k1.1]
      · change s2.succ u = []
        have hu : s.last = some u := hu
        have := hr.isOpen u hu
        rw [fr u ?_ ?_, this]
        · exact fun h => (hown u h).2.1 hu
        · exact fun h => (hr.calls u (by simp [h])).2 hu) hf.2 hnp.2
  refine ⟨s3, ?_, f4, l4, ?_, tn4, ?_, ?_, ?_⟩
  · rw [threadDefinitions, e1, Option.bind_some, e2, Option.bind_some, e3, Option.bind_some,
      if_pos ⟨l2, hlbs, ss2⟩, e4]
  · rw [tt4]
    change t'.tail = _
    rw [tt3.1, tab2, tab1]
  · rw [callables]
    exact te4
  · intro x hx1 hx2
    rw [List.mem_append, not_or] at hx1 hx2
    rw [fr4 x hx1.2 hx2.2]
    change s2.succ x = _
    rw [fr x hx1.1 hx2.1]
  · intro x hx1 hx2 hx3
    rw [callables] at hx1
    rw [List.mem_append] at hx2
    rw [List.mem_append, not_or] at hx3
    by_cases hxt : x ∈ Stmt.definitionVids ts
    · exact ex4 x hx1 hxt hx3.2
    · have hxv := hx2.resolve_right hxt
      rcases isExit_callables ts _ hx1 with h | h
      · rcases isExit_define h with h | rfl
        · exact absurd h (hown x hxv).2.2
        · rw [fr4 x hxt hx3.2]
          exact ss2
      · exact absurd h hxt

mutual

theorem threadStmt_success (t : Stmt) (hp : t.isPlain = true) : StmtSuccess t :=
  match t with
  | .expr e => expr_success e
  | .assign v target n e => assign_success v target n e
  | .ifElse v sentinel c tv ts t fv fs f => by
    intro g s direct ht hr hf hnp
    exact if_success v sentinel c tv ts t fv fs f (threadBody_success t hnp.1)
      (threadDefinitions_success t) (threadBody_success f hnp.2) (threadDefinitions_success f)
      g s direct ht hr hf hnp
  | .while _ _ _ _ _ _ _ _ _ => absurd hp (by simp [Stmt.isPlain])
  | .function _ _ _ _ _ _ => absurd hp (by simp [Stmt.isPlain])
  | .ret _ _ => absurd hp (by simp [Stmt.isPlain])

theorem threadBody_success (ts : List Stmt) (hnp : Stmt.listNamedParameters ts) : BodySuccess ts :=
  match ts with
  | [] => body_success_nil
  | .expr e :: ts => body_success_cons _ ts (threadStmt_success (.expr e) rfl)
      (fun g => stmtCalls_exit g _) (threadBody_success ts hnp.2) hnp.1
  | .assign v target n e :: ts => body_success_cons _ ts (threadStmt_success (.assign v target n e) rfl)
      (fun g => stmtCalls_exit g _) (threadBody_success ts hnp.2) hnp.1
  | .ifElse v sentinel c tv ts' t fv fs f :: ts =>
      body_success_cons _ ts (threadStmt_success (.ifElse v sentinel c tv ts' t fv fs f) rfl)
      (fun g => stmtCalls_exit g _) (threadBody_success ts hnp.2) hnp.1
  | .while _ _ _ _ _ _ _ _ _ :: ts => by
    intro g s sentinel direct ht hr hf hd hn
    rw [Stmt.listFits, Stmt.fits] at hf
    simp at hf
  | .function v n args bv bs body :: ts =>
    body_success_function v n args bv bs body ts (threadBody_success ts hnp.2)
  | .ret v e :: ts => body_success_ret v e ts (threadBody_success ts hnp.2)

theorem threadDefinitions_success (ts : List Stmt) : DefinitionSuccess ts :=
  match ts with
  | [] => by
    intro g s direct ht hn hr hf hnp
    rw [threadDefinitions, callables]
    exact ⟨s, rfl, rfl, rfl, rfl, hn, ht, fun _ _ _ => rfl, fun x _ h => by
      rw [Stmt.definitionVids] at h; cases h⟩
  | .function v n args bv bs body :: ts => by
    intro g s direct ht hn hr hf hnp
    exact definition_success_function v n args bv bs body ts (threadBody_success body hnp.1.2)
      (threadDefinitions_success body) (threadDefinitions_success ts) g s direct ht hn hr hf hnp
  | .while _ _ _ _ _ _ _ _ _ :: ts => by
    intro g s direct ht hn hr hf hnp
    rw [Stmt.listFits, Stmt.fits] at hf
    simp at hf
  | .expr _ :: ts => definition_success_skip _ ts (fun s => by rw [threadDefinitions])
      (fun g => by rw [callables]; simp) (fun g => by rw [definitionCalls]; simp) rfl
      (threadDefinitions_success ts)
  | .assign _ _ _ _ :: ts => definition_success_skip _ ts (fun s => by rw [threadDefinitions])
      (fun g => by rw [callables]; simp) (fun g => by rw [definitionCalls]; simp) rfl
      (threadDefinitions_success ts)
  | .ifElse _ _ _ _ _ _ _ _ _ :: ts => definition_success_skip _ ts (fun s => by rw [threadDefinitions])
      (fun g => by rw [callables]; simp) (fun g => by rw [definitionCalls]; simp) rfl
      (threadDefinitions_success ts)
  | .ret _ _ :: ts => definition_success_skip _ ts (fun s => by rw [threadDefinitions])
      (fun g => by rw [callables]; simp) (fun g => by rw [definitionCalls]; simp) rfl
      (threadDefinitions_success ts)

end

/-- A module is threaded if functions are called at most once. -/
theorem threadModule_success (m : Module) (hn : m.vids.Nodup)
    (hnp : Stmt.listNamedParameters m.statements) (hf : Stmt.listFits false m.statements = true)
    (hc : m.calls.Nodup) : ∃ s, threadModule m = some s := by
  rw [Module.vids, List.nodup_cons] at hn
  obtain ⟨s', e, tab, f, l, ss, _⟩ := scope_success (g := fun _ => none)
    (s := ThreadState.initial.startAt m.v) (v := m.scope) (sentinel := m.sentinel) (u := m.v)
    (direct := false) (threadBody_success m.statements hnp) (threadDefinitions_success m.statements)
    (fun n => rfl) (by
      refine ⟨hn.2, hc, fun x _ => ⟨rfl, by simp, ?_⟩, fun x _ => ⟨rfl, by simp⟩, by simp⟩
      rintro ⟨n, h⟩
      cases h) rfl hn.1 (by
      intro h
      rcases scopeCalls_exit (fun _ => none) m.statements m.v h with ⟨n, h⟩ | h
      · cases h
      · exact hn.1 (by simp [h])) hf hnp (by simp)
  rw [threadModule, e, Option.bind_some, l]
  dsimp only
  rw [f, tab, if_pos ⟨rfl, rfl⟩, setSuccessor_some ss]
  exact ⟨_, rfl⟩

/-- What is passed by following the successors of a module that is threaded. -/
theorem threadModule_paths (m : Module) (hn : m.vids.Nodup)
    (hnp : Stmt.listNamedParameters m.statements) (s : ThreadState)
    (h : threadModule m = some s) (l : List Vid) :
    FirstPath s.succ m.v m.v l ↔ moduleTraces m l := by
  rw [Module.vids, List.nodup_cons] at hn
  obtain ⟨hm, hn⟩ := hn
  simp only [List.mem_cons, not_or] at hm
  rw [threadModule, Option.bind_eq_some_iff] at h
  obtain ⟨s1, h1, h⟩ := h
  split at h
  · cases h
  rename_i u hu
  split at h
  case isFalse => cases h
  have hin : ∀ x, ¬ InTable (ThreadState.initial.startAt m.v).table x := by
    rintro x ⟨n, f, h, _⟩
    cases h
  have hl := (scope_chunk (s := ThreadState.initial.startAt m.v) rfl
    (fun s1 h1 => threadDefinitions_chunk m.statements hnp h1)
    (fun s1 s2 h2 => threadBody_chunk m.statements hnp h2) h1).2
  rw [hu, Option.some.injEq] at hl
  subst hl
  have ha : Agree s.succ (· = m.v) s := fun _ _ _ => rfl
  have ha1 := setSuccessor_agree h ha
  have hsu := scope_succ (s := ThreadState.initial.startAt m.v) hnp rfl (hin m.v) hm.2.2 h1
  obtain ⟨_, rfl⟩ := setSuccessor_eq h
  have hσm : (fun x => if x = m.sentinel then [m.v] else s1.succ x) m.v = [m.scope] := by
    dsimp only
    rw [if_neg hm.2.1, hsu]
    rfl
  have hT := scope_through (X := (· = m.v)) (s := ThreadState.initial.startAt m.v) (m := m.v)
    (g := fun _ => none) (u := m.v) (threadDefinitions_paths m.statements)
    (threadBody_paths m.statements)
    rfl (fun x h => absurd h (hin x)) (fun n => .inl ⟨rfl, rfl⟩)
    (by
      refine ⟨fun _ _ => rfl, fun x _ => hin x, fun x hx => ?_, fun x hx => ?_, fun _ _ _ => by
        simp [ThreadState.initial, ThreadState.startAt], fun _ _ => by
        simp [ThreadState.initial, ThreadState.startAt]⟩
      · rintro rfl
        simp only [List.mem_cons] at hx
        tauto
      · simp only [ThreadState.startAt, ne_eq, Option.some.injEq]
        rintro rfl
        simp only [List.mem_cons] at hx
        tauto) hn hnp rfl rfl (fun h => hm.2.1 h.symm) (hin _)
    (fun _ => by simp [ThreadState.initial, ThreadState.startAt]) h1 ha1
  have hT2 := (Through.edge hσm (fun h => hm.1 h.symm)).andThen hT
  rw [hT2 l, moduleTraces]
  have hend : ∀ l', FirstPath (fun x => if x = m.sentinel then [m.v] else s1.succ x) m.v m.sentinel l' ↔
      l' = [m.v] := by
    intro l'
    constructor
    · intro hp
      cases hp with
      | reached _ => rfl
      | step h1 h2 h3 =>
        rw [if_pos rfl, List.mem_singleton] at h1
        exact absurd h1 h2
    · rintro rfl
      exact .reached (by simp)
  constructor
  · rintro ⟨tr, l', rfl, ⟨x, y, rfl, hx, x', y', rfl, hx', hy'⟩, hp⟩
    rw [hend] at hp
    subst hp
    exact ⟨x, _, by simp, hx, x', _, rfl, hx', y', _, rfl, hy', rfl⟩
  · rintro ⟨x, _, rfl, hx, x', _, rfl, hx', y', _, rfl, hy', rfl⟩
    exact ⟨x ++ (x' ++ y'), [m.v], by simp, ⟨x, _, rfl, hx, x', y', rfl, hx', hy'⟩, (hend _).2 rfl⟩

end Fern
