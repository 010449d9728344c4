import Verif.Model.Loop
import Verif.Lemmas.IndexRangesSpec
import Mathlib.Data.List.Nodup
import Mathlib.Data.List.Range
/-
Helper lemmas about loops, element stores and interleavings.
-/
namespace Fern

variable {σ γ ι : Type}

@[simp] theorem forIn'_nil (body : ι → σ → Option σ) (s : σ) : forIn' [] body s = some s := rfl

theorem forIn'_cons (i : ι) (l : List ι) (body : ι → σ → Option σ) (s : σ) :
    forIn' (i :: l) body s = (body i s).bind (forIn' l body) := by
  simp [forIn', List.foldlM_cons]; rfl

theorem forIn'_append (l l' : List ι) (body : ι → σ → Option σ) (s : σ) :
    forIn' (l ++ l') body s = (forIn' l body s).bind (forIn' l' body) := by
  simp [forIn', List.foldlM_append]; rfl

theorem forIn'_flatMap {κ : Type} (l : List κ) (f : κ → List ι) (body : ι → σ → Option σ) (s : σ) :
    forIn' (l.flatMap f) body s = forIn' l (fun i s => forIn' (f i) body s) s := by
  induction l generalizing s with
  | nil => rfl
  | cons a l ih =>
    rw [List.flatMap_cons, forIn'_append, forIn'_cons]
    congr 1
    funext s
    exact ih s

theorem forIn'_map {κ : Type} (l : List κ) (f : κ → ι) (body : ι → σ → Option σ) (s : σ) :
    forIn' (l.map f) body s = forIn' l (fun i s => body (f i) s) s := by
  induction l generalizing s with
  | nil => rfl
  | cons a l ih =>
    rw [List.map_cons, forIn'_cons, forIn'_cons]
    congr 1
    funext s
    exact ih s

/-- Invariant rule for loops. -/
theorem forIn'_invariant {P : List ι → σ → Prop} {body : ι → σ → Option σ} (l : List ι) (s : σ)
    (h0 : P [] s)
    (hstep : ∀ (pre : List ι) (i : ι) (s : σ), (∃ post, l = pre ++ i :: post) → P pre s →
      ∃ s', body i s = some s' ∧ P (pre ++ [i]) s') :
    ∃ s', forIn' l body s = some s' ∧ P l s' := by
  have key : ∀ (post pre : List ι) (s : σ), l = pre ++ post → P pre s →
      ∃ s', forIn' post body s = some s' ∧ P l s' := by
    intro post
    induction post with
    | nil => intro pre s h hp; subst h; exact ⟨s, rfl, by simpa using hp⟩
    | cons i post ih =>
      intro pre s h hp
      obtain ⟨s', hs', hp'⟩ := hstep pre i s ⟨post, h⟩ hp
      obtain ⟨s'', hs'', hp''⟩ := ih (pre ++ [i]) s' (by simp [h]) hp'
      exact ⟨s'', by rw [forIn'_cons, hs']; exact hs'', hp''⟩
  exact key l [] s rfl h0

theorem rowLoop_eq (body : Nat → σ → Option σ) (k idx : Nat) (s : σ) :
    rowLoop body k idx s = forIn' (List.range' idx k) body s := by
  induction k generalizing idx s with
  | zero => rfl
  | succ k ih =>
    rw [List.range'_succ, forIn'_cons, rowLoop]
    show (body idx s).bind _ = _
    congr 1
    funext s
    exact ih _ _

theorem loop2d_eq (nrCols : Nat) (r : IndexRanges2) (body : Nat → σ → Option σ) (s : σ) :
    loop2d nrCols r body s = forIn' (cells2d nrCols r) body s := by
  unfold loop2d cells2d
  rw [forIn'_flatMap]
  congr 1
  funext i s
  rw [rowLoop_eq]

theorem range'_mul (a k n : Nat) :
    (List.range' a k).flatMap (fun i => List.range' (i * n) n) = List.range' (a * n) (k * n) := by
  induction k generalizing a with
  | zero => simp
  | succ k ih =>
    rw [List.range'_succ, List.flatMap_cons, ih]
    have h1 : (a + 1) * n = a * n + 1 * n := by ring
    have h2 : (k + 1) * n = n + k * n := by ring
    rw [h1, h2, ← List.range'_append]

/-- The cells of a band of rows. -/
theorem cells2d_band (n2 : Nat) (r : IndexRange) :
    cells2d n2 ⟨r, ⟨0, n2⟩⟩ = List.range' (r.b * n2) ((r.e - r.b) * n2) := by
  unfold cells2d IndexRange.indices linearIndex
  simp only [Nat.add_zero, Nat.sub_zero]
  exact range'_mul _ _ _

/-- The cells of all bands are `0 .. n1 * n2 - 1`. -/
theorem indexRanges2_flatten {t n1 n2 : Nat} {l : List IndexRanges2}
    (h : indexRanges2 t n1 n2 = some l) :
    l.flatMap (cells2d n2) = List.range (n1 * n2) := by
  rw [indexRanges2_eq] at h
  cases hl : indexRanges t n1 with
  | none => simp [hl] at h
  | some l1 =>
    rw [hl] at h
    simp only [Option.map_some, Option.some.injEq] at h
    subst h
    have hf := indexRanges_flatten hl
    rw [List.flatMap_map]
    have : List.flatMap (fun r => cells2d n2 ⟨r, ⟨0, n2⟩⟩) l1 =
        (l1.flatMap IndexRange.indices).flatMap (fun i => List.range' (i * n2) n2) := by
      rw [List.flatMap_assoc]
      rfl
    rw [this, hf, List.range_eq_range', range'_mul, List.range_eq_range', Nat.zero_mul]

/-- The cells of the whole array. -/
theorem cells2d_all (n1 n2 : Nat) : cells2d n2 ⟨⟨0, n1⟩, ⟨0, n2⟩⟩ = List.range (n1 * n2) := by
  rw [cells2d_band, List.range_eq_range']; simp

/-! Element stores. -/

theorem modifyAt_eq_some {α : Type} {i : Nat} {f : α → α} {l : List α} (h : i < l.length) :
    modifyAt i f l = some (l.modify i f) := if_pos h

/-- The element functions applied to element `k` by the actions, in order. -/
def actsOn (l : List (Act γ)) (k : Nat) (c : γ) : γ :=
  (l.filter (fun a => a.idx == k)).foldl (fun c a => a.fn c) c

theorem runActs_eq (l : List (Act γ)) (s : List γ) (h : ∀ a ∈ l, a.idx < s.length) :
    runActs l s = some (s.mapIdx (actsOn l)) := by
  induction l generalizing s with
  | nil =>
    simp only [runActs, forIn'_nil, Option.some.injEq]
    apply List.ext_getElem <;> simp [actsOn]
  | cons a l ih =>
    have ha := h a (by simp)
    have hl : ∀ b ∈ l, b.idx < (s.modify a.idx a.fn).length := by
      intro b hb; simpa using h b (by simp [hb])
    have := ih (s.modify a.idx a.fn) hl
    unfold runActs at this ⊢
    rw [forIn'_cons, modifyAt_eq_some ha, Option.bind_some, this]
    congr 1
    apply List.ext_getElem
    · simp
    · intro k h1 h2
      simp only [List.getElem_mapIdx, List.getElem_modify]
      unfold actsOn
      rw [List.filter_cons]
      by_cases hk : a.idx = k
      · simp [hk]
      · simp [hk]

/-- The step on element `i` amounts to applying `F i` to that element. -/
def Pointwise (step : Nat → List γ → Option (List γ)) (F : Nat → γ → γ) (n : Nat) : Prop :=
  ∀ i s, i < n → s.length = n → step i s = some (s.modify i (F i))

theorem pointwise_loop {step : Nat → List γ → Option (List γ)} {F : Nat → γ → γ} {n : Nat}
    (h : Pointwise step F n) (l : List Nat) (hl : ∀ i ∈ l, i < n) (hn : l.Nodup) (s : List γ)
    (hs : s.length = n) :
    forIn' l step s = some (s.mapIdx (fun k c => if k ∈ l then F k c else c)) := by
  have : forIn' l step s = runActs (l.map (fun i => ⟨i, F i⟩)) s := by
    unfold runActs
    rw [forIn'_map]
    clear hn
    induction l generalizing s with
    | nil => rfl
    | cons i l ih =>
      have hi := hl i (by simp)
      rw [forIn'_cons, forIn'_cons, h i s hi hs, modifyAt_eq_some (show i < s.length by omega)]
      exact ih (fun j hj => hl j (by simp [hj])) _ (by simpa using hs)
  rw [this, runActs_eq]
  · congr 1
    apply List.ext_getElem
    · simp
    · intro k h1 h2
      simp only [List.getElem_mapIdx]
      unfold actsOn
      rw [List.filter_map, List.foldl_map]
      have hf : List.filter ((fun a : Act γ => a.idx == k) ∘ fun i => ⟨i, F i⟩) l =
          if k ∈ l then [k] else [] := by
        have : ((fun a : Act γ => a.idx == k) ∘ fun i => ⟨i, F i⟩) = fun i => i == k := by
          funext i; rfl
        rw [this]
        split
        · rename_i hk
          rw [List.filter_beq, List.count_eq_one_of_mem hn hk]; rfl
        · rename_i hk
          rw [List.filter_eq_nil_iff]
          intro a ha hak
          simp only [beq_iff_eq] at hak
          exact hk (hak ▸ ha)
      rw [hf]
      split <;> simp
  · intro a ha
    simp only [List.mem_map] at ha
    obtain ⟨i, hi, rfl⟩ := ha
    rw [hs]; exact hl i hi

/-- Elementwise description of the whole loop. -/
theorem pointwise_loop_range {step : Nat → List γ → Option (List γ)} {F : Nat → γ → γ} {n : Nat}
    (h : Pointwise step F n) (s : List γ) (hs : s.length = n) :
    forIn' (List.range n) step s = some (s.mapIdx F) := by
  rw [pointwise_loop h _ (by simp) List.nodup_range s hs]
  congr 1
  apply List.ext_getElem
  · simp
  · intro k h1 h2
    simp only [List.getElem_mapIdx, List.mem_range]
    rw [if_pos]
    simpa [hs] using h1

/-! Interleavings. -/

theorem Interleave.perm {α : Type} {ts : List (List α)} {l : List α} (h : Interleave ts l) :
    l.Perm ts.flatten := by
  induction h with
  | done h => rw [List.flatten_eq_nil_iff.2 h]
  | @step pre post a t l _ ih =>
    simp only [List.flatten_append, List.flatten_cons] at ih ⊢
    exact (ih.cons a).trans List.perm_middle.symm

/-- The sequential execution, task after task, is one of the interleavings. -/
theorem Interleave.sequential {α : Type} (ts : List (List α)) : Interleave ts ts.flatten := by
  induction ts with
  | nil => exact .done (by simp)
  | cons t ts ih =>
    induction t with
    | nil =>
      simp only [List.flatten_cons, List.nil_append]
      generalize ts.flatten = l at ih
      induction ih with
      | done h => exact .done (by simpa using h)
      | @step pre post a t l _ ih => exact .step (pre := [] :: pre) ih
    | cons a t iht =>
      rw [List.flatten_cons, List.cons_append]
      exact .step (pre := []) iht

/-- No element is touched by two different tasks. -/
def DisjointTasks (ts : List (List (Act γ))) : Prop :=
  ts.Pairwise (fun t u => ∀ a ∈ t, ∀ b ∈ u, a.idx ≠ b.idx)

theorem interleave_filter {ts : List (List (Act γ))} {l : List (Act γ)} (h : Interleave ts l)
    (hd : DisjointTasks ts) (k : Nat) :
    l.filter (fun a => a.idx == k) = ts.flatten.filter (fun a => a.idx == k) := by
  induction h with
  | done h => rw [List.flatten_eq_nil_iff.2 h]
  | @step pre post a t l _ ih =>
    have hd' : DisjointTasks (pre ++ t :: post) := by
      unfold DisjointTasks at hd ⊢
      rw [List.pairwise_append, List.pairwise_cons] at hd ⊢
      obtain ⟨h1, ⟨h2, h3⟩, h4⟩ := hd
      refine ⟨h1, ⟨?_, h3⟩, ?_⟩
      · intro u hu x hx y hy
        exact h2 u hu x (List.mem_cons_of_mem _ hx) y hy
      · intro u hu v hv
        rw [List.mem_cons] at hv
        rcases hv with rfl | hv
        · intro x hx y hy
          exact h4 u hu (a :: v) (by simp) x hx y (List.mem_cons_of_mem _ hy)
        · exact h4 u hu v (by simp [hv])
    have ih := ih hd'
    simp only [List.flatten_append, List.flatten_cons, List.filter_append, List.cons_append,
      List.filter_cons] at ih ⊢
    by_cases hk : a.idx = k
    · have hpre : List.filter (fun a => a.idx == k) pre.flatten = [] := by
        rw [List.filter_eq_nil_iff]
        intro x hx hxk
        simp only [beq_iff_eq] at hxk
        rw [List.mem_flatten] at hx
        obtain ⟨u, hu, hxu⟩ := hx
        unfold DisjointTasks at hd
        rw [List.pairwise_append] at hd
        exact hd.2.2 u hu (a :: t) (by simp) x hxu a (by simp) (hxk.trans hk.symm)
      rw [hpre] at ih ⊢
      simp [hk, ih]
    · simp [hk, ih]

/-- Tasks that touch different elements give the same result in every interleaving. -/
theorem interleave_runActs {ts : List (List (Act γ))} {l : List (Act γ)} (h : Interleave ts l)
    (hd : DisjointTasks ts) (s : List γ) (hs : ∀ t ∈ ts, ∀ a ∈ t, a.idx < s.length) :
    runActs l s = runActs ts.flatten s := by
  have hf : ∀ a ∈ ts.flatten, a.idx < s.length := by
    intro a ha
    rw [List.mem_flatten] at ha
    obtain ⟨t, ht, hat⟩ := ha
    exact hs t ht a hat
  rw [runActs_eq _ _ hf, runActs_eq]
  · congr 2
    funext k c
    unfold actsOn
    rw [interleave_filter h hd]
  · intro a ha
    exact hf a (h.perm.mem_iff.1 ha)

/-- The actions of a task that handles the elements in `l` one by one, element `i` by the actions
`acts i`. -/
def elemActs (acts : Nat → List (γ → γ)) (l : List Nat) : List (Act γ) :=
  l.flatMap (fun i => (acts i).map (fun f => ⟨i, f⟩))

/-- The effect of the actions on an element. -/
def foldActs (fs : List (γ → γ)) (c : γ) : γ := fs.foldl (fun c f => f c) c

theorem runActs_elem (i : Nat) (fs : List (γ → γ)) (s : List γ) (h : i < s.length) :
    runActs (fs.map (fun f => ⟨i, f⟩)) s = some (s.modify i (foldActs fs)) := by
  rw [runActs_eq]
  · congr 1
    apply List.ext_getElem
    · simp
    · intro k h1 h2
      simp only [List.getElem_mapIdx, List.getElem_modify]
      unfold actsOn foldActs
      rw [List.filter_map, List.foldl_map]
      by_cases hk : i = k
      · simp [hk, Function.comp_def]
      · have : (i == k) = false := by simpa using hk
        simp [hk, Function.comp_def, this]
  · intro a ha
    simp only [List.mem_map] at ha
    obtain ⟨f, _, rfl⟩ := ha
    exact h

theorem runActs_elemActs {step : Nat → List γ → Option (List γ)} {acts : Nat → List (γ → γ)}
    {n : Nat} (h : Pointwise step (fun i => foldActs (acts i)) n) (l : List Nat)
    (hl : ∀ i ∈ l, i < n) (s : List γ) (hs : s.length = n) :
    runActs (elemActs acts l) s = forIn' l step s := by
  unfold runActs elemActs
  rw [forIn'_flatMap]
  induction l generalizing s with
  | nil => rfl
  | cons i l ih =>
    have hi := hl i (by simp)
    rw [forIn'_cons, forIn'_cons, h i s hi hs]
    have := runActs_elem i (acts i) s (by omega)
    unfold runActs at this
    rw [this]
    exact ih (fun j hj => hl j (by simp [hj])) _ (by simpa using hs)

theorem elemActs_idx {acts : Nat → List (γ → γ)} {l : List Nat} {a : Act γ}
    (h : a ∈ elemActs acts l) : a.idx ∈ l := by
  unfold elemActs at h
  simp only [List.mem_flatMap, List.mem_map] at h
  obtain ⟨i, hi, f, _, rfl⟩ := h
  exact hi

theorem elemActs_flatten (acts : Nat → List (γ → γ)) (blocks : List (List Nat)) :
    (blocks.map (elemActs acts)).flatten = elemActs acts blocks.flatten := by
  induction blocks with
  | nil => rfl
  | cons b bs ih =>
    rw [List.map_cons, List.flatten_cons, ih, List.flatten_cons]
    unfold elemActs
    rw [List.flatMap_append]

theorem disjointTasks_of_nodup {acts : Nat → List (γ → γ)} {blocks : List (List Nat)}
    (h : blocks.flatten.Nodup) : DisjointTasks (blocks.map (elemActs acts)) := by
  unfold DisjointTasks
  rw [List.pairwise_map]
  rw [List.nodup_flatten] at h
  refine h.2.imp ?_
  intro t u hd a ha b hb hab
  exact hd (elemActs_idx ha) (hab ▸ elemActs_idx hb)

/-- Main tool: blocks without common elements, each block handled by a task, any interleaving:
same as the sequential loop over the concatenated blocks. -/
theorem par_eq_seq {step : Nat → List γ → Option (List γ)} {acts : Nat → List (γ → γ)} {n : Nat}
    (h : Pointwise step (fun i => foldActs (acts i)) n) {blocks : List (List Nat)}
    (hn : blocks.flatten.Nodup) (hb : ∀ i ∈ blocks.flatten, i < n)
    {l : List (Act γ)} (hl : Interleave (blocks.map (elemActs acts)) l)
    (s : List γ) (hs : s.length = n) :
    runActs l s = forIn' blocks.flatten step s := by
  rw [interleave_runActs hl (disjointTasks_of_nodup hn), elemActs_flatten,
    runActs_elemActs h _ hb s hs]
  intro t ht a ha
  simp only [List.mem_map] at ht
  obtain ⟨bl, hbl, rfl⟩ := ht
  rw [hs]
  exact hb _ (List.mem_flatten.2 ⟨bl, hbl, elemActs_idx ha⟩)

/-! Parallel execution in blocks. -/

theorem taskActs_eq {acts : Nat → Option (List (γ → γ))} {acts' : Nat → List (γ → γ)} {l : List Nat}
    (h : ∀ i ∈ l, acts i = some (acts' i)) : taskActs acts l = some (elemActs acts' l) := by
  unfold taskActs
  have : l.mapM (fun i => (acts i).map (fun fs => fs.map (Act.mk i))) =
      some (l.map (fun i => (acts' i).map (fun f => ⟨i, f⟩))) := by
    induction l with
    | nil => rfl
    | cons i l ih =>
      rw [List.mapM_cons, h i (by simp), ih (fun j hj => h j (by simp [hj]))]
      rfl
  rw [this]
  rfl

theorem parTasks_eq {acts : Nat → Option (List (γ → γ))} {acts' : Nat → List (γ → γ)}
    {blocks : List (List Nat)} (h : ∀ i ∈ blocks.flatten, acts i = some (acts' i)) :
    parTasks acts blocks = some (blocks.map (elemActs acts')) := by
  unfold parTasks
  induction blocks with
  | nil => rfl
  | cons b bs ih =>
    rw [List.mapM_cons, taskActs_eq (fun i hi => h i (by simp [hi])),
      ih (fun i hi => h i (by simp only [List.flatten_cons, List.mem_append]; exact .inr hi))]
    rfl

theorem blocks1d_flatten {t n : Nat} {blocks : List (List Nat)} (h : blocks1d t n = some blocks) :
    blocks.flatten = List.range n := by
  unfold blocks1d at h
  cases hl : indexRanges t n with
  | none => simp [hl] at h
  | some l =>
    rw [hl] at h
    simp only [Option.map_some, Option.some.injEq] at h
    subst h
    rw [← List.flatMap_def, indexRanges_flatten hl]

theorem blocks2d_flatten {t n1 n2 : Nat} {blocks : List (List Nat)}
    (h : blocks2d t n1 n2 n2 = some blocks) : blocks.flatten = List.range (n1 * n2) := by
  unfold blocks2d at h
  cases hl : indexRanges2 t n1 n2 with
  | none => simp [hl] at h
  | some l =>
    rw [hl] at h
    simp only [Option.map_some, Option.some.injEq] at h
    subst h
    rw [← List.flatMap_def, indexRanges2_flatten hl]

theorem blocks1d_isSome {t : Nat} (ht : 1 ≤ t) (n : Nat) : ∃ blocks, blocks1d t n = some blocks := by
  obtain ⟨l, hl, _⟩ := indexRanges_consecutive ht n
  exact ⟨_, by rw [blocks1d, hl]; rfl⟩

theorem blocks2d_isSome {t : Nat} (ht : 1 ≤ t) (n1 n2 n : Nat) :
    ∃ blocks, blocks2d t n1 n2 n = some blocks := by
  obtain ⟨l, hl, _⟩ := indexRanges_consecutive ht n1
  exact ⟨_, by rw [blocks2d, indexRanges2_eq, hl]; rfl⟩

/-- Every outcome of a parallel pointwise operation over blocks that partition `0 .. n-1` is the
outcome of the sequential loop. -/
theorem parResult_eq {step : Nat → List γ → Option (List γ)} {acts : Nat → Option (List (γ → γ))}
    {acts' : Nat → List (γ → γ)} {n : Nat}
    (h : Pointwise step (fun i => foldActs (acts' i)) n)
    (ha : ∀ i < n, acts i = some (acts' i)) {blocks : List (List Nat)}
    (hb : blocks.flatten = List.range n) (s : List γ) (hs : s.length = n)
    (o : Option (List γ)) (ho : ParResult (parTasks acts blocks) s o) :
    o = forIn' (List.range n) step s := by
  rw [parTasks_eq (acts' := acts') (by intro i hi; exact ha i (by simpa [hb] using hi))] at ho
  obtain ⟨l, hl, rfl⟩ := ho
  rw [par_eq_seq h (by rw [hb]; exact List.nodup_range) (by simp [hb]) hl s hs, hb]

end Fern
