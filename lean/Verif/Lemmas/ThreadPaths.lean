import Verif.Lemmas.Thread
import Mathlib.Data.List.Nodup

/-!
# Lemmas about threading: the paths along successors
-/

namespace Fern

/-- The paths from `u` to `m` are those of the traces followed by the paths from `w` to `m`. -/
def Through (σ : Vid → List Vid) (m u : Vid) (T : Traces) (w : Vid) : Prop :=
  ∀ l, FirstPath σ m u l ↔ ∃ tr l', l = tr ++ l' ∧ T tr ∧ FirstPath σ m w l'

namespace Traces

theorem andThen_assoc (a b c : Traces) : (a.andThen b).andThen c = a.andThen (b.andThen c) := by
  funext l
  apply propext
  constructor
  · rintro ⟨x, y, rfl, ⟨x', y', rfl, h1, h2⟩, h3⟩
    exact ⟨x', y' ++ y, by simp, h1, y', y, rfl, h2, h3⟩
  · rintro ⟨x, y, rfl, h1, ⟨x', y', rfl, h2, h3⟩⟩
    exact ⟨x ++ x', y', by simp, ⟨x, x', rfl, h1, h2⟩, h3⟩

theorem or_andThen (a b c : Traces) : (a.or b).andThen c = (a.andThen c).or (b.andThen c) := by
  funext l
  apply propext
  constructor
  · rintro ⟨x, y, rfl, h1 | h1, h2⟩
    · exact .inl ⟨x, y, rfl, h1, h2⟩
    · exact .inr ⟨x, y, rfl, h1, h2⟩
  · rintro (⟨x, y, rfl, h1, h2⟩ | ⟨x, y, rfl, h1, h2⟩)
    · exact ⟨x, y, rfl, .inl h1, h2⟩
    · exact ⟨x, y, rfl, .inr h1, h2⟩

theorem andThen_none (a : Traces) : a.andThen .none = a := by
  funext l
  apply propext
  constructor
  · rintro ⟨x, y, rfl, h1, rfl⟩
    rwa [List.append_nil]
  · intro h
    exact ⟨l, [], by simp, h, rfl⟩

end Traces

variable {σ : Vid → List Vid} {m : Vid}

theorem Through.none (u : Vid) : Through σ m u .none u := by
  intro l
  constructor
  · intro h
    exact ⟨[], l, rfl, rfl, h⟩
  · rintro ⟨tr, l', rfl, rfl, h⟩
    exact h

theorem Through.andThen {u w x : Vid} {A B : Traces} (h1 : Through σ m u A w)
    (h2 : Through σ m w B x) : Through σ m u (A.andThen B) x := by
  intro l
  rw [h1 l]
  constructor
  · rintro ⟨tr, l', rfl, ha, hl⟩
    obtain ⟨tr', l'', rfl, hb, hl'⟩ := (h2 l').1 hl
    exact ⟨tr ++ tr', l'', by simp, ⟨tr, tr', rfl, ha, hb⟩, hl'⟩
  · rintro ⟨_, l', rfl, ⟨tr, tr', rfl, ha, hb⟩, hl⟩
    exact ⟨tr, tr' ++ l', by simp, ha, (h2 _).2 ⟨tr', l', rfl, hb, hl⟩⟩

theorem Through.edge {u x : Vid} (h : σ u = [x]) (hx : x ≠ m) : Through σ m u (.one x) x := by
  intro l
  constructor
  · intro hl
    cases hl with
    | reached h' =>
      rw [h, List.mem_singleton] at h'
      exact absurd h'.symm hx
    | step h1 h2 h3 =>
      rw [h, List.mem_singleton] at h1
      subst h1
      exact ⟨[_], _, rfl, rfl, h3⟩
  · rintro ⟨tr, l', rfl, rfl, hl⟩
    exact .step (by rw [h]; simp) hx hl

theorem Through.branch {u a b w : Vid} {A B : Traces} (h : σ u = [a, b]) (ha : a ≠ m) (hb : b ≠ m)
    (h1 : Through σ m a A w) (h2 : Through σ m b B w) :
    Through σ m u (((Traces.one a).andThen A).or ((Traces.one b).andThen B)) w := by
  intro l
  constructor
  · intro hl
    cases hl with
    | reached h' =>
      rw [h] at h'
      simp only [List.mem_cons, List.not_mem_nil, or_false] at h'
      rcases h' with h' | h'
      · exact absurd h'.symm ha
      · exact absurd h'.symm hb
    | step h3 h4 h5 =>
      rw [h] at h3
      simp only [List.mem_cons, List.not_mem_nil, or_false] at h3
      rcases h3 with rfl | rfl
      · obtain ⟨tr, l', rfl, ht, hl⟩ := (h1 _).1 h5
        exact ⟨_ :: tr, l', rfl, .inl ⟨[_], tr, rfl, rfl, ht⟩, hl⟩
      · obtain ⟨tr, l', rfl, ht, hl⟩ := (h2 _).1 h5
        exact ⟨_ :: tr, l', rfl, .inr ⟨[_], tr, rfl, rfl, ht⟩, hl⟩
  · rintro ⟨_, l', rfl, ⟨_, tr, rfl, rfl, ht⟩ | ⟨_, tr, rfl, rfl, ht⟩, hl⟩
    · exact .step (x := a) (by rw [h]; simp) ha ((h1 _).2 ⟨tr, l', rfl, ht, hl⟩)
    · exact .step (x := b) (by rw [h]; simp) hb ((h2 _).2 ⟨tr, l', rfl, ht, hl⟩)

/-- The successors that there are, are the final ones, apart from those of the vertices in `X`. -/
def Agree (σ : Vid → List Vid) (X : Vid → Prop) (s : ThreadState) : Prop :=
  ∀ x, ¬ X x → s.succ x ≠ [] → σ x = s.succ x

/-- The functions that can be called and what control passes behind their definitions. -/
def Knows (σ : Vid → List Vid) (m : Vid) (t : SymbolTable Threaded) (g : FunctionTraces) : Prop :=
  ∀ n, (SymbolTable.value t n = none ∧ g n = none) ∨
    ∃ f T, SymbolTable.value t n = some f ∧ g n = some (f.entry, T) ∧ Through σ m f.entry T f.exit

/-- These vertices have not been passed. -/
structure Unthreaded (X : Vid → Prop) (s : ThreadState) (l : List Vid) : Prop where
  succ : ∀ x ∈ l, s.succ x = []
  table : ∀ x ∈ l, ¬ InTable s.table x
  out : ∀ x ∈ l, ¬ X x
  last : ∀ x ∈ l, s.last ≠ some x
  pred : ∀ x ∈ l, ∀ y, x ∉ s.succ y
  head : ∀ x ∈ l, s.functions.head? ≠ some x

variable {X : Vid → Prop} {A : Vid → Prop} {s s' : ThreadState}

theorem Unthreaded.sub {l l' : List Vid} (h : Unthreaded X s l) (hs : ∀ x ∈ l', x ∈ l) : Unthreaded X s l' :=
  ⟨fun x hx => h.succ x (hs x hx), fun x hx => h.table x (hs x hx), fun x hx => h.out x (hs x hx),
    fun x hx => h.last x (hs x hx), fun x hx => h.pred x (hs x hx), fun x hx => h.head x (hs x hx)⟩

theorem Unthreaded.chunk {l : List Vid} (h : Unthreaded X s l) (c : Chunk A s s') (hA : ∀ x ∈ l, ¬ A x) :
    Unthreaded X s' l where
  succ x hx := by rw [c.frame x (h.last x hx) (hA x hx) (h.table x hx), h.succ x hx]
  table x hx := by rw [c.table]; exact h.table x hx
  out := h.out
  last x hx := by
    rcases c.last with hl | hl | ⟨w, hl, hw⟩
    · rw [hl]; exact h.last x hx
    · rw [hl]; simp
    · rw [hl]
      rintro ⟨⟩
      exact hw.elim (hA x hx) (h.table x hx)
  pred x hx y hy := by
    have h1 := c.newsAll y x hy
    have := hA x hx
    have := h.table x hx
    have := h.pred x hx y
    have := h.head x hx
    tauto
  head x hx := by rw [c.functions]; exact h.head x hx

theorem Unthreaded.defChunk {l : List Vid} (h : Unthreaded X s l) (c : DefChunk A s s')
    (hA : ∀ x ∈ l, ¬ A x) : Unthreaded X s' l where
  succ x hx := by rw [c.frame x (hA x hx) (h.table x hx), h.succ x hx]
  table x hx h' := (c.inTable x h').elim (h.table x hx) (hA x hx)
  out := h.out
  last x hx := by rw [c.last]; exact h.last x hx
  pred x hx y hy := by
    have h1 := c.news y x hy
    have := hA x hx
    have := h.table x hx
    have := h.pred x hx y
    tauto
  head x hx := by rw [c.functions]; exact h.head x hx

theorem Agree.chunk (h : Agree σ X s') (c : Chunk A s s') (hA : ∀ x, A x → s.succ x = [] ∨ X x) :
    Agree σ X s := by
  intro x hx hs
  have hx' : ¬ A x := fun ha => (hA x ha).elim hs hx
  have := c.keep x hx' hs
  rw [← this]
  exact h x hx (by rwa [this])

theorem Agree.defChunk (h : Agree σ X s') (c : DefChunk A s s') (hA : ∀ x, A x → s.succ x = []) :
    Agree σ X s := by
  intro x hx hs
  have hx' : ¬ A x := fun ha => hs (hA x ha)
  have := c.keep x hx' hs
  rw [← this]
  exact h x hx (by rwa [this])

theorem Agree.mono {Y : Vid → Prop} (h : Agree σ X s) (hxy : ∀ x, X x → Y x) : Agree σ Y s :=
  fun x hx hs => h x (fun h' => hx (hxy x h')) hs

theorem threadTo_succ {u v : Vid} (hu : s.last = some u) (h : s.threadTo v = some s') :
    s'.succ u = [v] ∧ s.succ u = [] := by
  rcases threadTo_eq h with ⟨hl, _⟩ | ⟨u', hl, h2, rfl⟩
  · rw [hu] at hl; cases hl
  · rw [hu, Option.some.injEq] at hl
    subst hl
    exact ⟨if_pos rfl, h2⟩

theorem threadTo_through {u v : Vid} (hX : X m) (hu : s.last = some u) (hu' : ¬ X u) (hv : ¬ X v)
    (h : s.threadTo v = some s') (ha : Agree σ X s') : Through σ m u (.one v) v := by
  have h1 := (threadTo_succ hu h).1
  refine Through.edge ?_ (fun h => hv (by rwa [h]))
  rw [ha u hu' (by rw [h1]; simp), h1]

/-- After `threadTo v` a fresh `v` is the last vertex and has no successors. -/
theorem threadTo_fresh {v : Vid} (hf : Unthreaded X s [v]) (h : s.threadTo v = some s') :
    s'.succ v = [] := by
  rcases threadTo_eq h with ⟨hl, rfl⟩ | ⟨u', hl, h2, rfl⟩
  · exact hf.succ v (by simp)
  · have : v ≠ u' := by
      rintro rfl
      exact hf.last v (by simp) hl
    dsimp only
    rw [if_neg this]
    exact hf.succ v (by simp)

theorem finishCall_through {u v : Vid} {n : Str} {g : FunctionTraces} (hX : X m)
    (ht : ∀ x, InTable s.table x → ¬ X x) (hk : Knows σ m s.table g) (hf : Unthreaded X s [v])
    (hu : s.last = some u) (hu' : ¬ X u) (h : s.finishCall v n = some s') (ha : Agree σ X s') :
    ∃ w, s'.last = some w ∧ ¬ X w ∧
      Through σ m u ((Traces.one v).andThen
        (match g n with
          | none => .none
          | some (d, t) => (Traces.one d).andThen t)) w ∧
      ((w = v ∧ s'.succ w = []) ∨ InTable s.table w) := by
  have hv : ¬ X v := hf.out v (by simp)
  rw [ThreadState.finishCall, Option.bind_eq_some_iff] at h
  obtain ⟨s1, h1, h⟩ := h
  have c1 := threadTo_chunk (A := (· = v)) h1 (.inl rfl)
  have hs1 := threadTo_fresh hf h1
  rcases hk n with ⟨hn, hg⟩ | ⟨f, T, hn, hg, hT⟩
  · rw [c1.table, hn] at h
    dsimp only at h
    rw [Option.some.injEq] at h
    subst h
    rw [hg]
    refine ⟨v, threadTo_last h1, hv, ?_, .inl ⟨rfl, hs1⟩⟩
    exact (threadTo_through hX hu hu' hv h1 ha).andThen (Through.none v)
  · rw [c1.table, hn] at h
    dsimp only at h
    rw [Option.map_eq_some_iff] at h
    obtain ⟨s2, h2, rfl⟩ := h
    have ha2 : Agree σ X s2 := ha
    have hin : InTable s.table f.entry := ⟨n, f, hn, .inl rfl⟩
    have hout : InTable s.table f.exit := ⟨n, f, hn, .inr rfl⟩
    have c2 := threadTo_chunk (A := fun _ => False) h2 (.inr (by rwa [c1.table]))
    have ha1 : Agree σ X s1 := ha2.chunk c2 (fun x hx => hx.elim)
    rw [hg]
    refine ⟨f.exit, rfl, ht _ hout, ?_, .inr hout⟩
    exact (threadTo_through hX hu hu' hv h1 ha1).andThen
      ((threadTo_through hX (threadTo_last h1) hv (ht _ hin) h2 ha2).andThen hT)

mutual

theorem threadExpr_through {s s' : ThreadState} {u : Vid} {g : FunctionTraces} (hX : X m)
    (e : Expr) (ht : ∀ x, InTable s.table x → ¬ X x) (hk : Knows σ m s.table g)
    (hf : Unthreaded X s e.vids) (hn : e.vids.Nodup) (hu : s.last = some u) (hu' : ¬ X u)
    (h : threadExpr s e = some s') (ha : Agree σ X s') :
    ∃ w, s'.last = some w ∧ ¬ X w ∧ Through σ m u (exprTraces g e) w ∧
      ((w ∈ e.vids ∧ s'.succ w = []) ∨ InTable s.table w) :=
  match e with
  | .name v _ | .number v _ | .string v _ => by
    rw [threadExpr] at h
    rw [Expr.vids] at hf
    exact ⟨v, threadTo_last h, hf.out v (by simp),
      threadTo_through hX hu hu' (hf.out v (by simp)) h ha,
      .inl ⟨by simp [Expr.vids], threadTo_fresh hf h⟩⟩
  | .call v n args => by
    rw [threadExpr, Option.bind_eq_some_iff] at h
    obtain ⟨s1, h1, h⟩ := h
    rw [Expr.vids] at hf hn
    obtain ⟨hn1, hn2⟩ := List.nodup_cons.1 hn
    have c1 := threadExprs_chunk args h1
    have hfv : Unthreaded X s1 [v] := (hf.sub (by simp)).chunk c1 (by simpa using hn1)
    have c2 := (finishCall_chunk (A := (· = v)) h rfl).1
    have ha1 : Agree σ X s1 := ha.chunk c2 (by rintro x rfl; exact .inl (hfv.succ x (by simp)))
    obtain ⟨w, hw, hw', hT⟩ := threadExprs_through hX args ht hk
      (hf.sub (fun x hx => by simp [hx])) hn2 hu hu' h1 ha1
    obtain ⟨w2, hw2, hw2', hT2, hs⟩ := finishCall_through hX (by rwa [c1.table])
      (by rwa [c1.table]) hfv hw hw' h ha
    refine ⟨w2, hw2, hw2', ?_, ?_⟩
    · rw [exprTraces]
      exact hT.andThen hT2
    · rw [c1.table] at hs
      rcases hs with ⟨rfl, hs⟩ | hs
      · exact .inl ⟨by simp [Expr.vids], hs⟩
      · exact .inr hs
  | .operator v n args => by
    rw [threadExpr, Option.bind_eq_some_iff] at h
    obtain ⟨s1, h1, h⟩ := h
    rw [Expr.vids] at hf hn
    obtain ⟨hn1, hn2⟩ := List.nodup_cons.1 hn
    have c1 := threadExprs_chunk args h1
    have hfv : Unthreaded X s1 [v] := (hf.sub (by simp)).chunk c1 (by simpa using hn1)
    have c2 := threadTo_chunk (A := (· = v)) h (.inl rfl)
    have ha1 : Agree σ X s1 := ha.chunk c2 (by rintro x rfl; exact .inl (hfv.succ x (by simp)))
    obtain ⟨w, hw, hw', hT⟩ := threadExprs_through hX args ht hk
      (hf.sub (fun x hx => by simp [hx])) hn2 hu hu' h1 ha1
    refine ⟨v, threadTo_last h, hfv.out v (by simp), ?_,
      .inl ⟨by simp [Expr.vids], threadTo_fresh hfv h⟩⟩
    rw [exprTraces]
    exact hT.andThen (threadTo_through hX hw hw' (hfv.out v (by simp)) h ha)
  | .subscript v e i => by
    rw [threadExpr, Option.bind_eq_some_iff] at h
    obtain ⟨s1, h1, h⟩ := h
    rw [Option.bind_eq_some_iff] at h
    obtain ⟨s2, h2, h⟩ := h
    rw [Expr.vids] at hf hn
    obtain ⟨hn1, hn2⟩ := List.nodup_cons.1 hn
    rw [List.mem_append, not_or] at hn1
    obtain ⟨hne, hni, hd⟩ := List.nodup_append'.1 hn2
    have c1 := (threadExpr_chunk e h1).1
    have c2 := (threadExpr_chunk i h2).1
    have hfv1 : Unthreaded X s1 [v] := (hf.sub (by simp)).chunk c1 (by simpa using hn1.1)
    have hfv : Unthreaded X s2 [v] := hfv1.chunk c2 (by simpa using hn1.2)
    have hfi : Unthreaded X s1 i.vids := (hf.sub (fun x hx => by simp [hx])).chunk c1
      (fun x hx hx' => hd hx' hx)
    have c3 := threadTo_chunk (A := (· = v)) h (.inl rfl)
    have ha2 : Agree σ X s2 := ha.chunk c3 (by rintro x rfl; exact .inl (hfv.succ x (by simp)))
    have ha1 : Agree σ X s1 := ha2.chunk c2 (fun x hx => .inl (hfi.succ x hx))
    obtain ⟨w, hw, hw', hT, _⟩ := threadExpr_through hX e ht hk
      (hf.sub (fun x hx => by simp [hx])) hne hu hu' h1 ha1
    obtain ⟨w2, hw2, hw2', hT2, _⟩ := threadExpr_through hX i (by rwa [c1.table])
      (by rwa [c1.table]) hfi hni hw hw' h2 ha2
    refine ⟨v, threadTo_last h, hfv.out v (by simp), ?_,
      .inl ⟨by simp [Expr.vids], threadTo_fresh hfv h⟩⟩
    rw [exprTraces]
    exact hT.andThen (hT2.andThen (threadTo_through hX hw2 hw2' (hfv.out v (by simp)) h ha))
  | .attribute v e n => by
    rw [threadExpr, Option.bind_eq_some_iff] at h
    obtain ⟨s1, h1, h⟩ := h
    rw [Expr.vids] at hf hn
    obtain ⟨hn1, hn2⟩ := List.nodup_cons.1 hn
    have c1 := (threadExpr_chunk e h1).1
    have hfv : Unthreaded X s1 [v] := (hf.sub (by simp)).chunk c1 (by simpa using hn1)
    have c2 := threadTo_chunk (A := (· = v)) h (.inl rfl)
    have ha1 : Agree σ X s1 := ha.chunk c2 (by rintro x rfl; exact .inl (hfv.succ x (by simp)))
    obtain ⟨w, hw, hw', hT, _⟩ := threadExpr_through hX e ht hk
      (hf.sub (fun x hx => by simp [hx])) hn2 hu hu' h1 ha1
    refine ⟨v, threadTo_last h, hfv.out v (by simp), ?_,
      .inl ⟨by simp [Expr.vids], threadTo_fresh hfv h⟩⟩
    rw [exprTraces]
    exact hT.andThen (threadTo_through hX hw hw' (hfv.out v (by simp)) h ha)

theorem threadExprs_through {s s' : ThreadState} {u : Vid} {g : FunctionTraces} (hX : X m)
    (es : List Expr) (ht : ∀ x, InTable s.table x → ¬ X x) (hk : Knows σ m s.table g)
    (hf : Unthreaded X s (Expr.listVids es)) (hn : (Expr.listVids es).Nodup) (hu : s.last = some u)
    (hu' : ¬ X u) (h : threadExprs s es = some s') (ha : Agree σ X s') :
    ∃ w, s'.last = some w ∧ ¬ X w ∧ Through σ m u (exprsTraces g es) w :=
  match es with
  | [] => by
    rw [threadExprs, Option.some.injEq] at h
    subst h
    exact ⟨u, hu, hu', by rw [exprsTraces]; exact Through.none u⟩
  | e :: es => by
    rw [threadExprs, Option.bind_eq_some_iff] at h
    obtain ⟨s1, h1, h⟩ := h
    rw [Expr.listVids] at hf hn
    obtain ⟨hne, hni, hd⟩ := List.nodup_append'.1 hn
    have c1 := (threadExpr_chunk e h1).1
    have c2 := threadExprs_chunk es h
    have hfi : Unthreaded X s1 (Expr.listVids es) := (hf.sub (fun x hx => by simp [hx])).chunk c1
      (fun x hx hx' => hd hx' hx)
    have ha1 : Agree σ X s1 := ha.chunk c2 (fun x hx => .inl (hfi.succ x hx))
    obtain ⟨w, hw, hw', hT, _⟩ := threadExpr_through hX e ht hk
      (hf.sub (fun x hx => by simp [hx])) hne hu hu' h1 ha1
    obtain ⟨w2, hw2, hw2', hT2⟩ := threadExprs_through hX es (by rwa [c1.table])
      (by rwa [c1.table]) hfi hni hw hw' h ha
    exact ⟨w2, hw2, hw2', by rw [exprsTraces]; exact hT.andThen hT2⟩

end

end Fern
