import Verif.Spec.Thread
import Mathlib.Data.List.Perm.Subperm
import Mathlib.Data.List.Nodup

/-!
# Lemmas about the order in which control passes the vertices

Consequences of the specification alone: what is passed in modules without functions.
-/

namespace Fern

/-- No function can be called. -/
abbrev noTraces : FunctionTraces := fun _ => none

theorem Traces.andThen_none_iff (T : Traces) (l : List Vid) : (T.andThen .none) l ↔ T l := by
  constructor
  · rintro ⟨x, y, rfl, hx, rfl⟩
    simpa using hx
  · intro h
    exact ⟨l, [], by simp, h, rfl⟩

theorem Traces.andThen_one_iff (T : Traces) (v : Vid) (l : List Vid) :
    (T.andThen (.one v)) l ↔ ∃ x, T x ∧ l = x ++ [v] := by
  constructor
  · rintro ⟨x, y, rfl, hx, rfl⟩
    exact ⟨x, hx, rfl⟩
  · rintro ⟨x, hx, rfl⟩
    exact ⟨x, _, rfl, hx, rfl⟩

theorem Traces.one_andThen_iff (T : Traces) (v : Vid) (l : List Vid) :
    ((Traces.one v).andThen T) l ↔ ∃ x, T x ∧ l = v :: x := by
  constructor
  · rintro ⟨x, y, rfl, rfl, hy⟩
    exact ⟨y, hy, rfl⟩
  · rintro ⟨x, hx, rfl⟩
    exact ⟨[v], x, rfl, rfl, hx⟩

mutual

/-- The vertices of an expression, operands first. -/
def Expr.postorder : Expr → List Vid
  | .name v _ | .number v _ | .string v _ => [v]
  | .call v _ args | .operator v _ args => Expr.listPostorder args ++ [v]
  | .subscript v e i => e.postorder ++ (i.postorder ++ [v])
  | .attribute v e _ => e.postorder ++ [v]

@[inherit_doc Expr.postorder]
def Expr.listPostorder : List Expr → List Vid
  | [] => []
  | e :: es => e.postorder ++ Expr.listPostorder es

end

mutual

theorem exprTraces_iff (e : Expr) (l : List Vid) : exprTraces noTraces e l ↔ l = e.postorder :=
  match e with
  | .name v _ | .number v _ | .string v _ => by rw [exprTraces, Expr.postorder]; rfl
  | .call v n args => by
    rw [exprTraces]
    dsimp only
    rw [Expr.postorder]
    constructor
    · rintro ⟨x, y, rfl, hx, z, w, rfl, rfl, rfl⟩
      rw [(exprsTraces_iff args x).1 hx]
      simp
    · rintro rfl
      exact ⟨_, _, rfl, (exprsTraces_iff args _).2 rfl, [v], [], by simp, rfl, rfl⟩
  | .operator v n args => by
    rw [exprTraces, Expr.postorder, Traces.andThen_one_iff]
    simp [exprsTraces_iff args]
  | .subscript v e i => by
    rw [exprTraces, Expr.postorder]
    constructor
    · rintro ⟨x, y, rfl, hx, z, w, rfl, hz, rfl⟩
      rw [(exprTraces_iff e x).1 hx, (exprTraces_iff i z).1 hz]
    · rintro rfl
      exact ⟨_, _, rfl, (exprTraces_iff e _).2 rfl, _, _, rfl, (exprTraces_iff i _).2 rfl, rfl⟩
  | .attribute v e _ => by
    rw [exprTraces, Expr.postorder, Traces.andThen_one_iff]
    simp [exprTraces_iff e]

theorem exprsTraces_iff (es : List Expr) (l : List Vid) :
    exprsTraces noTraces es l ↔ l = Expr.listPostorder es :=
  match es with
  | [] => by rw [exprsTraces, Expr.listPostorder]; rfl
  | e :: es => by
    rw [exprsTraces, Expr.listPostorder]
    constructor
    · rintro ⟨x, y, rfl, hx, hy⟩
      rw [(exprTraces_iff e x).1 hx, (exprsTraces_iff es y).1 hy]
    · rintro rfl
      exact ⟨_, _, rfl, (exprTraces_iff e _).2 rfl, (exprsTraces_iff es _).2 rfl⟩

end

mutual

theorem Expr.postorder_perm (e : Expr) : e.postorder.Perm e.vids :=
  match e with
  | .name v _ | .number v _ | .string v _ => by rw [Expr.postorder, Expr.vids]
  | .call v n args | .operator v n args => by
    rw [Expr.postorder, Expr.vids]
    exact (List.perm_append_singleton _ _).trans ((Expr.listPostorder_perm args).cons _)
  | .subscript v e i => by
    rw [Expr.postorder, Expr.vids, ← List.append_assoc]
    exact (List.perm_append_singleton _ _).trans
      (((Expr.postorder_perm e).append (Expr.postorder_perm i)).cons _)
  | .attribute v e _ => by
    rw [Expr.postorder, Expr.vids]
    exact (List.perm_append_singleton _ _).trans ((Expr.postorder_perm e).cons _)

theorem Expr.listPostorder_perm (es : List Expr) : (Expr.listPostorder es).Perm (Expr.listVids es) :=
  match es with
  | [] => by rw [Expr.listPostorder, Expr.listVids]
  | e :: es => by
    rw [Expr.listPostorder, Expr.listVids]
    exact (Expr.postorder_perm e).append (Expr.listPostorder_perm es)

end

theorem Expr.vid_mem_postorder (e : Expr) : e.vid ∈ e.postorder := by
  cases e <;> simp [Expr.vid, Expr.postorder]

theorem Expr.vid_mem_listPostorder {a : Expr} {es : List Expr} (h : a ∈ es) :
    a.vid ∈ Expr.listPostorder es := by
  induction es with
  | nil => cases h
  | cons e es ih =>
    rw [Expr.listPostorder, List.mem_append]
    rcases List.mem_cons.1 h with rfl | h
    · exact .inl (Expr.vid_mem_postorder _)
    · exact .inr (ih h)

/-- One vertex of the first part and one of the second. -/
theorem pair_sublist {x y : Vid} {l m : List Vid} (hx : x ∈ l) (hy : y ∈ m) :
    [x, y].Sublist (l ++ m) := by
  have := (List.singleton_sublist.2 hx).append (List.singleton_sublist.2 hy)
  exact this

mutual

theorem Expr.needs_postorder (e : Expr) : ∀ p ∈ e.needs, [p.1, p.2].Sublist e.postorder :=
  match e with
  | .name v _ | .number v _ | .string v _ => by simp [Expr.needs]
  | .call v n args | .operator v n args => by
    rw [Expr.needs, Expr.postorder]
    intro p hp
    rw [List.mem_append, List.mem_map] at hp
    rcases hp with ⟨a, ha, rfl⟩ | hp
    · exact pair_sublist (Expr.vid_mem_listPostorder ha) (by simp)
    · exact (Expr.listNeeds_postorder args p hp).trans (List.sublist_append_left _ _)
  | .subscript v e i => by
    rw [Expr.needs, Expr.postorder]
    intro p hp
    simp only [List.mem_cons, List.mem_append] at hp
    rcases hp with rfl | rfl | hp | hp
    · exact pair_sublist (Expr.vid_mem_postorder e) (by simp)
    · exact (pair_sublist (Expr.vid_mem_postorder i) (by simp)).trans (List.sublist_append_right _ _)
    · exact (Expr.needs_postorder e p hp).trans (List.sublist_append_left _ _)
    · exact ((Expr.needs_postorder i p hp).trans (List.sublist_append_left _ _)).trans
        (List.sublist_append_right _ _)
  | .attribute v e _ => by
    rw [Expr.needs, Expr.postorder]
    intro p hp
    simp only [List.mem_cons] at hp
    rcases hp with rfl | hp
    · exact pair_sublist (Expr.vid_mem_postorder e) (by simp)
    · exact (Expr.needs_postorder e p hp).trans (List.sublist_append_left _ _)

theorem Expr.listNeeds_postorder (es : List Expr) :
    ∀ p ∈ Expr.listNeeds es, [p.1, p.2].Sublist (Expr.listPostorder es) :=
  match es with
  | [] => by simp [Expr.listNeeds]
  | e :: es => by
    rw [Expr.listNeeds, Expr.listPostorder]
    intro p hp
    rcases List.mem_append.1 hp with hp | hp
    · exact (Expr.needs_postorder e p hp).trans (List.sublist_append_left _ _)
    · exact (Expr.listNeeds_postorder es p hp).trans (List.sublist_append_right _ _)

end

theorem definitionTraces_basic (g : FunctionTraces) (ts : List Stmt) (h : Stmt.listBasic ts = true) :
    definitionTraces g ts = g := by
  induction ts with
  | nil => rw [definitionTraces]
  | cons t ts ih =>
    rw [Stmt.listBasic, Bool.and_eq_true] at h
    cases t with
    | expr e => rw [definitionTraces]; exact ih h.2; simp
    | assign v target n e => rw [definitionTraces]; exact ih h.2; simp
    | ifElse => rw [definitionTraces]; exact ih h.2; simp
    | «while» => simp [Stmt.basic] at h
    | function => simp [Stmt.basic] at h
    | ret => simp [Stmt.basic] at h

theorem bodyTraces_basic (g : FunctionTraces) (t : Stmt) (ts : List Stmt) (h : t.basic = true) :
    bodyTraces g (t :: ts) = (stmtTraces g t).andThen (bodyTraces g ts) := by
  cases t with
  | expr e => rw [bodyTraces]; simp
  | assign v target n e => rw [bodyTraces]; simp
  | ifElse => rw [bodyTraces]; simp
  | «while» => simp [Stmt.basic] at h
  | function => simp [Stmt.basic] at h
  | ret => simp [Stmt.basic] at h

/-- What is passed by a statement: different vertices of it, dependencies in order. -/
structure Orderly (V N : List Vid) (D O : List (Vid × Vid)) (T : Traces) : Prop where
  subperm : ∀ l, T l → l.Subperm V
  isSome : ∃ l, T l
  nodes : ∀ x ∈ N, ∃ l, T l ∧ x ∈ l
  nodesSub : ∀ x ∈ N, x ∈ V
  needs : ∀ l, T l → ∀ p ∈ D, p.2 ∈ l → [p.1, p.2].Sublist l
  needsSub : ∀ p ∈ D, p.2 ∈ V
  order : ∀ l, T l → ∀ p ∈ O, p.1 ∈ l → p.2 ∈ l → [p.1, p.2].Sublist l
  orderSub : ∀ p ∈ O, p.1 ∈ V ∧ p.2 ∈ V

theorem Orderly.cons {a b n1 n2 : List Vid} {d1 d2 o1 o2 : List (Vid × Vid)} {T1 T2 : Traces}
    (h1 : Orderly a n1 d1 o1 T1) (h2 : Orderly b n2 d2 o2 T2) (hn : (a ++ b).Nodup) :
    Orderly (a ++ b) (n1 ++ n2) (d1 ++ d2)
      (o1 ++ (n1.flatMap (fun x => n2.map (fun y => (x, y))) ++ o2)) (T1.andThen T2) := by
  obtain ⟨_, _, hd⟩ := List.nodup_append'.1 hn
  refine ⟨?_, ?_, ?_, ?_, ?_, ?_, ?_, ?_⟩
  · rintro _ ⟨x, y, rfl, hx, hy⟩
    exact (h1.subperm x hx).append (h2.subperm y hy)
  · obtain ⟨x, hx⟩ := h1.isSome
    obtain ⟨y, hy⟩ := h2.isSome
    exact ⟨_, x, y, rfl, hx, hy⟩
  · intro z hz
    rcases List.mem_append.1 hz with hz | hz
    · obtain ⟨x, hx, hzx⟩ := h1.nodes z hz
      obtain ⟨y, hy⟩ := h2.isSome
      exact ⟨_, ⟨x, y, rfl, hx, hy⟩, by simp [hzx]⟩
    · obtain ⟨x, hx, hzx⟩ := h2.nodes z hz
      obtain ⟨y, hy⟩ := h1.isSome
      exact ⟨_, ⟨y, x, rfl, hy, hx⟩, by simp [hzx]⟩
  · intro z hz
    rcases List.mem_append.1 hz with hz | hz
    · simp [h1.nodesSub z hz]
    · simp [h2.nodesSub z hz]
  · rintro _ ⟨x, y, rfl, hx, hy⟩ p hp hp2
    rcases List.mem_append.1 hp with hp | hp
    · refine (h1.needs x hx p hp ?_).trans (List.sublist_append_left _ _)
      rcases List.mem_append.1 hp2 with h | h
      · exact h
      · exact absurd ((h2.subperm y hy).subset h) (hd (h1.needsSub p hp))
    · refine (h2.needs y hy p hp ?_).trans (List.sublist_append_right _ _)
      rcases List.mem_append.1 hp2 with h | h
      · exact absurd (h2.needsSub p hp) (hd ((h1.subperm x hx).subset h))
      · exact h
  · intro p hp
    rcases List.mem_append.1 hp with hp | hp
    · simp [h1.needsSub p hp]
    · simp [h2.needsSub p hp]
  · rintro _ ⟨x, y, rfl, hx, hy⟩ p hp hp1 hp2
    have left : ∀ z, z ∈ a → z ∈ x ++ y → z ∈ x := by
      intro z hz hz'
      rcases List.mem_append.1 hz' with h | h
      · exact h
      · exact absurd ((h2.subperm y hy).subset h) (hd hz)
    have right : ∀ z, z ∈ b → z ∈ x ++ y → z ∈ y := by
      intro z hz hz'
      rcases List.mem_append.1 hz' with h | h
      · exact absurd hz (hd ((h1.subperm x hx).subset h))
      · exact h
    simp only [List.mem_append, List.mem_flatMap, List.mem_map] at hp
    rcases hp with hp | ⟨u, hu, w, hw, rfl⟩ | hp
    · obtain ⟨k1, k2⟩ := h1.orderSub p hp
      exact (h1.order x hx p hp (left _ k1 hp1) (left _ k2 hp2)).trans (List.sublist_append_left _ _)
    · exact pair_sublist (left _ (h1.nodesSub u hu) hp1) (right _ (h2.nodesSub w hw) hp2)
    · obtain ⟨k1, k2⟩ := h2.orderSub p hp
      exact (h2.order y hy p hp (right _ k1 hp1) (right _ k2 hp2)).trans (List.sublist_append_right _ _)
  · intro p hp
    simp only [List.mem_append, List.mem_flatMap, List.mem_map] at hp
    rcases hp with hp | ⟨u, hu, w, hw, rfl⟩ | hp
    · simp [h1.orderSub p hp]
    · simp [h1.nodesSub u hu, h2.nodesSub w hw]
    · simp [h2.orderSub p hp]

theorem Orderly.expr (e : Expr) : Orderly e.vids e.vids e.needs [] (exprTraces noTraces e) := by
  have hp := Expr.postorder_perm e
  refine ⟨?_, ⟨_, (exprTraces_iff e _).2 rfl⟩, ?_, fun _ h => h, ?_, ?_, ?_, ?_⟩
  · intro l hl
    rw [exprTraces_iff] at hl
    subst hl
    exact hp.subperm
  · intro x hx
    exact ⟨_, (exprTraces_iff e _).2 rfl, hp.mem_iff.2 hx⟩
  · intro l hl p hp _
    rw [exprTraces_iff] at hl
    subst hl
    exact Expr.needs_postorder e p hp
  · intro p h
    exact hp.mem_iff.1 ((Expr.needs_postorder e p h).subset (by simp))
  · simp
  · simp

theorem Orderly.assign (v target : Vid) (n : Str) (e : Expr) :
    Orderly (v :: target :: e.vids) (v :: target :: e.vids)
      ((e.vid, target) :: (target, v) :: e.needs) []
      (stmtTraces noTraces (.assign v target n e)) := by
  have hp := Expr.postorder_perm e
  have key : ∀ l, stmtTraces noTraces (.assign v target n e) l ↔ l = e.postorder ++ [target, v] := by
    intro l
    rw [stmtTraces]
    constructor
    · rintro ⟨x, y, rfl, hx, z, w, rfl, rfl, rfl⟩
      rw [(exprTraces_iff e x).1 hx]
      rfl
    · rintro rfl
      exact ⟨_, _, rfl, (exprTraces_iff e _).2 rfl, [target], [v], rfl, rfl, rfl⟩
  have hperm : (e.postorder ++ [target, v]).Perm (v :: target :: e.vids) := by
    refine (List.perm_append_comm).trans ?_
    exact (List.Perm.swap v target _).trans ((hp.cons _).cons _)
  refine ⟨?_, ⟨_, (key _).2 rfl⟩, ?_, fun _ h => h, ?_, ?_, by simp, by simp⟩
  · intro l hl
    rw [key] at hl
    subst hl
    exact hperm.subperm
  · intro x hx
    exact ⟨_, (key _).2 rfl, hperm.mem_iff.2 hx⟩
  · intro l hl p hp _
    rw [key] at hl
    subst hl
    simp only [List.mem_cons] at hp
    rcases hp with rfl | rfl | hp
    · exact pair_sublist (Expr.vid_mem_postorder e) (by simp)
    · exact List.sublist_append_right _ _
    · exact (Expr.needs_postorder e p hp).trans (List.sublist_append_left _ _)
  · intro p h
    simp only [List.mem_cons] at h
    rcases h with rfl | rfl | h
    · simp
    · simp
    · have : p.2 ∈ e.vids := hp.mem_iff.1 ((Expr.needs_postorder e p h).subset (by simp))
      simp [this]

/-- A scope with its vertices around it. -/
theorem Orderly.scope {a n : List Vid} {d o : List (Vid × Vid)} {T : Traces} (h : Orderly a n d o T)
    (v sentinel : Vid) (hn : (v :: sentinel :: a).Nodup) :
    Orderly (v :: sentinel :: a) n d o ((Traces.one v).andThen (T.andThen (.one sentinel))) := by
  have key : ∀ l, ((Traces.one v).andThen (T.andThen (.one sentinel))) l ↔
      ∃ x, T x ∧ l = v :: (x ++ [sentinel]) := by
    intro l
    constructor
    · rintro ⟨x, y, rfl, rfl, z, w, rfl, hz, rfl⟩
      exact ⟨z, hz, rfl⟩
    · rintro ⟨x, hx, rfl⟩
      exact ⟨[v], _, rfl, rfl, x, _, rfl, hx, rfl⟩
  simp only [List.nodup_cons, List.mem_cons, not_or] at hn
  have mem : ∀ z x, z ∈ a → z ∈ v :: (x ++ [sentinel]) → z ∈ x := by
    intro z x hz hz'
    simp only [List.mem_cons, List.mem_append, List.not_mem_nil, or_false] at hz'
    rcases hz' with rfl | h | rfl
    · exact absurd hz hn.1.2
    · exact h
    · exact absurd hz hn.2.1
  have sub : ∀ x : List Vid, x.Sublist (v :: (x ++ [sentinel])) := fun x =>
    (List.sublist_append_left x [sentinel]).trans (List.sublist_cons_self _ _)
  refine ⟨?_, ?_, ?_, ?_, ?_, ?_, ?_, ?_⟩
  · intro l hl
    obtain ⟨x, hx, rfl⟩ := (key l).1 hl
    exact (List.subperm_cons v).2 ((List.perm_append_singleton sentinel x).subperm.trans
      ((List.subperm_cons sentinel).2 (h.subperm x hx)))
  · obtain ⟨x, hx⟩ := h.isSome
    exact ⟨_, (key _).2 ⟨x, hx, rfl⟩⟩
  · intro z hz
    obtain ⟨x, hx, hzx⟩ := h.nodes z hz
    exact ⟨_, (key _).2 ⟨x, hx, rfl⟩, by simp [hzx]⟩
  · intro x hx
    simp [h.nodesSub x hx]
  · intro l hl p hp hp2
    obtain ⟨x, hx, rfl⟩ := (key l).1 hl
    exact (h.needs x hx p hp (mem _ _ (h.needsSub p hp) hp2)).trans (sub x)
  · intro p hp
    simp [h.needsSub p hp]
  · intro l hl p hp hp1 hp2
    obtain ⟨x, hx, rfl⟩ := (key l).1 hl
    obtain ⟨k1, k2⟩ := h.orderSub p hp
    exact (h.order x hx p hp (mem _ _ k1 hp1) (mem _ _ k2 hp2)).trans (sub x)
  · intro p hp
    simp [h.orderSub p hp]

/-- One of two branches. -/
theorem Orderly.or {a b n1 n2 : List Vid} {d1 d2 o1 o2 : List (Vid × Vid)} {T1 T2 : Traces}
    (h1 : Orderly a n1 d1 o1 T1) (h2 : Orderly b n2 d2 o2 T2) (hn : (a ++ b).Nodup) :
    Orderly (a ++ b) (n1 ++ n2) (d1 ++ d2) (o1 ++ o2) (T1.or T2) := by
  obtain ⟨_, _, hd⟩ := List.nodup_append'.1 hn
  refine ⟨?_, ?_, ?_, ?_, ?_, ?_, ?_, ?_⟩
  · rintro l (hl | hl)
    · exact (h1.subperm l hl).trans (List.sublist_append_left _ _).subperm
    · exact (h2.subperm l hl).trans (List.sublist_append_right _ _).subperm
  · obtain ⟨x, hx⟩ := h1.isSome
    exact ⟨x, .inl hx⟩
  · intro z hz
    rcases List.mem_append.1 hz with hz | hz
    · obtain ⟨x, hx, hzx⟩ := h1.nodes z hz
      exact ⟨_, .inl hx, hzx⟩
    · obtain ⟨x, hx, hzx⟩ := h2.nodes z hz
      exact ⟨_, .inr hx, hzx⟩
  · intro z hz
    rcases List.mem_append.1 hz with hz | hz
    · simp [h1.nodesSub z hz]
    · simp [h2.nodesSub z hz]
  · intro l hl p hp hp2
    rcases List.mem_append.1 hp with hp | hp <;> rcases hl with hl | hl
    · exact h1.needs l hl p hp hp2
    · exact absurd ((h2.subperm l hl).subset hp2) (hd (h1.needsSub p hp))
    · exact absurd (h2.needsSub p hp) (hd ((h1.subperm l hl).subset hp2))
    · exact h2.needs l hl p hp hp2
  · intro p hp
    rcases List.mem_append.1 hp with hp | hp
    · simp [h1.needsSub p hp]
    · simp [h2.needsSub p hp]
  · intro l hl p hp hp1 hp2
    rcases List.mem_append.1 hp with hp | hp <;> rcases hl with hl | hl
    · exact h1.order l hl p hp hp1 hp2
    · exact absurd ((h2.subperm l hl).subset hp2) (hd (h1.orderSub p hp).2)
    · exact absurd (h2.orderSub p hp).2 (hd ((h1.subperm l hl).subset hp2))
    · exact h2.order l hl p hp hp1 hp2
  · intro p hp
    rcases List.mem_append.1 hp with hp | hp
    · simp [h1.orderSub p hp]
    · simp [h2.orderSub p hp]

/-- More vertices that are never passed. -/
theorem Orderly.more {a b n : List Vid} {d o : List (Vid × Vid)} {T : Traces} (h : Orderly a n d o T)
    (hs : a.Subperm b) : Orderly b n d o T :=
  ⟨fun l hl => (h.subperm l hl).trans hs, h.isSome, h.nodes, fun x hx => hs.subset (h.nodesSub x hx),
    h.needs, fun p hp => hs.subset (h.needsSub p hp), h.order,
    fun p hp => ⟨hs.subset (h.orderSub p hp).1, hs.subset (h.orderSub p hp).2⟩⟩

/-- The condition, the statement, the branches and the sentinel. -/
theorem Orderly.if {a n : List Vid} {d o : List (Vid × Vid)} {T : Traces} (v sentinel : Vid) (c : Expr)
    (h : Orderly a n d o T) (hn : (v :: sentinel :: (c.vids ++ a)).Nodup) :
    Orderly (v :: sentinel :: (c.vids ++ a)) (v :: (c.vids ++ n))
      ((c.vid, v) :: (c.needs ++ (n.map (fun x => (v, x)) ++ d))) o
      ((exprTraces noTraces c).andThen ((Traces.one v).andThen (T.andThen (.one sentinel)))) := by
  have hc := Expr.postorder_perm c
  have key : ∀ l, ((exprTraces noTraces c).andThen
      ((Traces.one v).andThen (T.andThen (.one sentinel)))) l ↔
      ∃ x, T x ∧ l = c.postorder ++ (v :: (x ++ [sentinel])) := by
    intro l
    constructor
    · rintro ⟨x0, y0, rfl, hx0, x, y, rfl, rfl, z, w, rfl, hz, rfl⟩
      rw [exprTraces_iff] at hx0
      subst hx0
      exact ⟨z, hz, rfl⟩
    · rintro ⟨x, hx, rfl⟩
      exact ⟨_, _, rfl, (exprTraces_iff c _).2 rfl, [v], _, rfl, rfl, x, _, rfl, hx, rfl⟩
  simp only [List.nodup_cons, List.mem_cons, List.mem_append, not_or] at hn
  obtain ⟨⟨hvs, hvc, hva⟩, ⟨hsc, hsa⟩, hca⟩ := hn
  obtain ⟨_, _, hd⟩ := List.nodup_append'.1 hca
  have mem : ∀ z x, z ∈ a → z ∈ c.postorder ++ (v :: (x ++ [sentinel])) → z ∈ x := by
    intro z x hz hz'
    simp only [List.mem_cons, List.mem_append, List.not_mem_nil, or_false, hc.mem_iff] at hz'
    rcases hz' with h | rfl | h | rfl
    · exact absurd hz (hd h)
    · exact absurd hz hva
    · exact h
    · exact absurd hz hsa
  have sub : ∀ x : List Vid, x.Sublist (c.postorder ++ (v :: (x ++ [sentinel]))) := fun x =>
    ((List.sublist_append_left x [sentinel]).trans (List.sublist_cons_self _ _)).trans
      (List.sublist_append_right _ _)
  refine ⟨?_, ?_, ?_, ?_, ?_, ?_, ?_, ?_⟩
  · intro l hl
    obtain ⟨x, hx, rfl⟩ := (key l).1 hl
    have h1 : (c.postorder ++ (v :: (x ++ [sentinel]))).Perm (v :: sentinel :: (c.postorder ++ x)) := by
      refine List.perm_middle.trans (List.Perm.cons _ ?_)
      rw [← List.append_assoc]
      exact List.perm_append_singleton _ _
    exact h1.subperm.trans ((List.subperm_cons v).2 ((List.subperm_cons sentinel).2
      (hc.subperm.append (h.subperm x hx))))
  · obtain ⟨x, hx⟩ := h.isSome
    exact ⟨_, (key _).2 ⟨x, hx, rfl⟩⟩
  · intro z hz
    obtain ⟨x0, hx0⟩ := h.isSome
    simp only [List.mem_cons, List.mem_append] at hz
    rcases hz with rfl | hz | hz
    · exact ⟨_, (key _).2 ⟨x0, hx0, rfl⟩, by simp⟩
    · exact ⟨_, (key _).2 ⟨x0, hx0, rfl⟩, by simp [hc.mem_iff.2 hz]⟩
    · obtain ⟨x, hx, hzx⟩ := h.nodes z hz
      exact ⟨_, (key _).2 ⟨x, hx, rfl⟩, by simp [hzx]⟩
  · intro z hz
    simp only [List.mem_cons, List.mem_append] at hz ⊢
    rcases hz with rfl | hz | hz
    · exact .inl rfl
    · exact .inr (.inr (.inl hz))
    · exact .inr (.inr (.inr (h.nodesSub z hz)))
  · intro l hl p hp hp2
    obtain ⟨x, hx, rfl⟩ := (key l).1 hl
    simp only [List.mem_cons, List.mem_append, List.mem_map] at hp
    rcases hp with rfl | hp | ⟨z, hz, rfl⟩ | hp
    · exact pair_sublist (Expr.vid_mem_postorder c) (by simp)
    · exact (Expr.needs_postorder c p hp).trans (List.sublist_append_left _ _)
    · have := mem z x (h.nodesSub z hz) hp2
      refine List.Sublist.trans ?_ (List.sublist_append_right _ _)
      exact List.Sublist.cons_cons _ (List.singleton_sublist.2 (by simp [this]))
    · exact (h.needs x hx p hp (mem _ _ (h.needsSub p hp) hp2)).trans (sub x)
  · intro p hp
    simp only [List.mem_cons, List.mem_append, List.mem_map] at hp ⊢
    rcases hp with rfl | hp | ⟨z, hz, rfl⟩ | hp
    · exact .inl rfl
    · exact .inr (.inr (.inl (hc.mem_iff.1 ((Expr.needs_postorder c p hp).subset (by simp)))))
    · exact .inr (.inr (.inr (h.nodesSub z hz)))
    · exact .inr (.inr (.inr (h.needsSub p hp)))
  · intro l hl p hp hp1 hp2
    obtain ⟨x, hx, rfl⟩ := (key l).1 hl
    obtain ⟨k1, k2⟩ := h.orderSub p hp
    exact (h.order x hx p hp (mem _ _ k1 hp1) (mem _ _ k2 hp2)).trans (sub x)
  · intro p hp
    obtain ⟨k1, k2⟩ := h.orderSub p hp
    simp [k1, k2]

mutual

theorem Stmt.orderly (t : Stmt) (hb : t.basic = true) (hn : t.vids.Nodup) :
    Orderly t.vids t.nodes t.needs t.order (stmtTraces noTraces t) :=
  match t with
  | .expr e => by
    rw [Stmt.vids, Stmt.nodes, Stmt.needs, Stmt.order, stmtTraces]
    exact Orderly.expr e
  | .assign v target n e => by
    rw [Stmt.vids, Stmt.nodes, Stmt.needs, Stmt.order]
    exact Orderly.assign v target n e
  | .ifElse v sentinel c tv ts t fv fs f => by
    rw [Stmt.basic, Bool.and_eq_true] at hb
    rw [Stmt.vids, Stmt.nodes, Stmt.needs, Stmt.order, stmtTraces]
    rw [Stmt.vids] at hn
    have hperm : (tv :: ts :: (Stmt.listVids t ++ fv :: fs :: Stmt.listVids f)).Perm
        ((tv :: ts :: Stmt.listVids t) ++ (fv :: fs :: Stmt.listVids f)) := by simp
    have hn2 := (List.nodup_append'.1 (List.nodup_cons.1 (List.nodup_cons.1 hn).2).2).2.1
    have hn3 := hperm.nodup_iff.1 hn2
    obtain ⟨k1, k2, _⟩ := List.nodup_append'.1 hn3
    have kt := Stmt.listOrderly t hb.1 (List.nodup_cons.1 (List.nodup_cons.1 k1).2).2
    have kf := Stmt.listOrderly f hb.2 (List.nodup_cons.1 (List.nodup_cons.1 k2).2).2
    rw [definitionTraces_basic _ t hb.1, definitionTraces_basic _ f hb.2]
    refine Orderly.if v sentinel c ?_ hn
    split
    · rename_i hf
      rw [List.isEmpty_iff] at hf
      subst hf
      rw [Stmt.listNodes, Stmt.listNeeds, Stmt.listOrder, List.append_nil, List.append_nil,
        List.append_nil]
      refine (kt.scope tv ts k1).more ?_
      exact (List.sublist_append_left _ (fv :: fs :: Stmt.listVids [])).subperm.trans hperm.symm.subperm
    · exact ((kt.scope tv ts k1).or (kf.scope fv fs k2) hn3).more hperm.symm.subperm
  | .while _ _ _ _ _ _ _ _ _ => absurd hb (by simp [Stmt.basic])
  | .function _ _ _ _ _ _ => absurd hb (by simp [Stmt.basic])
  | .ret _ _ => absurd hb (by simp [Stmt.basic])

theorem Stmt.listOrderly (ts : List Stmt) (hb : Stmt.listBasic ts = true)
    (hn : (Stmt.listVids ts).Nodup) :
    Orderly (Stmt.listVids ts) (Stmt.listNodes ts) (Stmt.listNeeds ts) (Stmt.listOrder ts)
      (bodyTraces noTraces ts) :=
  match ts with
  | [] => by
    rw [Stmt.listVids, Stmt.listNodes, Stmt.listNeeds, Stmt.listOrder, bodyTraces]
    refine ⟨?_, ⟨[], rfl⟩, by simp, by simp, by simp, by simp, by simp, by simp⟩
    rintro l rfl
    exact List.Subperm.refl _
  | t :: ts => by
    rw [Stmt.listBasic, Bool.and_eq_true] at hb
    rw [Stmt.listVids] at hn
    rw [Stmt.listVids, Stmt.listNodes, Stmt.listNeeds, Stmt.listOrder, bodyTraces_basic _ t ts hb.1]
    obtain ⟨k1, k2, _⟩ := List.nodup_append'.1 hn
    exact (Stmt.orderly t hb.1 k1).cons (Stmt.listOrderly ts hb.2 k2) hn

end

end Fern
