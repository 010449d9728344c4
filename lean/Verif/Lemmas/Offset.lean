import Verif.Lemmas.Copy
import Verif.Lemmas.Select
import Verif.Model.Offset
import Verif.Spec.Offset
namespace Fern

open Spec

variable {V : Type} {γ : Type}

theorem castOffset_eq {w n : Nat} (hw : 1 ≤ w) (h : n < 2 ^ (w - 1)) : castOffset w n = n := by
  unfold castOffset
  have e : 2 ^ w = 2 * 2 ^ (w - 1) := by
    rw [← Nat.pow_succ']; congr 1; omega
  rw [e, Int.bmod_eq_of_le] <;> omega

theorem pow_cast (k : Nat) : ((2 ^ k : Nat) : Int) = 2 ^ k := by simp

/-- What `range_to_copy` returns. -/
theorem rangeToCopy_spec {w n : Nat} {o : Int} {r : IndexRange} (hw : 1 ≤ w) (hn : n < 2 ^ (w - 1))
    (ho : OffsetOfType w o) (hr : r.b < r.e) (hrn : r.e ≤ n) :
    ∃ rc o', rangeToCopy w r n o = some (rc, o') ∧
      (∀ i, i ∈ rc.indices ↔ (r.b ≤ i ∧ i < r.e ∧ 0 ≤ (i : Int) + o ∧ (i : Int) + o < n)) ∧
      (∀ i ∈ rc.indices, o' = o) := by
  obtain ⟨ho1, ho2⟩ := ho
  rw [← pow_cast] at ho1 ho2
  have hc := castOffset_eq hw hn
  unfold rangeToCopy
  rw [hc]
  by_cases h0 : o ≤ 0
  · have e1 : negSigned w (n : Int) = some (-(n : Int)) := by
      unfold negSigned; rw [if_neg]; rw [← pow_cast]; omega
    have e2 : absSigned w (max o (-(n : Int))) = some (max o (-(n : Int))).natAbs := by
      unfold absSigned; rw [if_neg]; rw [← pow_cast]; omega
    simp only [if_pos h0, e1, e2, Option.bind_eq_bind, Option.bind_some]
    have a1 : r.b ≤ min (max (max o (-(n : Int))).natAbs r.b) r.e := by omega
    have a2 : min (max (max o (-(n : Int))).natAbs r.b) r.e ≤ r.e := by omega
    have a3 : r.b ≤ r.e := by omega
    have am : IndexRange.make (min (max (max o (-(n : Int))).natAbs r.b) r.e) r.e =
        some ⟨min (max (max o (-(n : Int))).natAbs r.b) r.e, r.e⟩ := by
      unfold IndexRange.make; rw [if_pos a2]
    simp only [a1, a2, a3, decide_true, assert'_true, Option.bind_some, am, le_refl]
    refine ⟨_, _, rfl, fun i => ?_, fun i => ?_⟩ <;>
    simp only [IndexRange.indices, List.mem_range'_1] <;>
    omega
  · have e2 : absSigned w (min o (n : Int)) = some (min o (n : Int)).natAbs := by
      unfold absSigned; rw [if_neg]; rw [← pow_cast]; omega
    simp only [if_neg h0, e2, Option.bind_eq_bind, Option.bind_some]
    have a0 : (min o (n : Int)).natAbs ≤ n := by omega
    have a3 : r.b ≤ max r.b (min r.e (n - (min o (n : Int)).natAbs)) := by omega
    have a4 : max r.b (min r.e (n - (min o (n : Int)).natAbs)) ≤ r.e := by omega
    have am : IndexRange.make r.b (max r.b (min r.e (n - (min o (n : Int)).natAbs))) =
        some ⟨r.b, max r.b (min r.e (n - (min o (n : Int)).natAbs))⟩ := by
      unfold IndexRange.make; rw [if_pos a3]
    simp only [a0, a3, a4, hr, decide_true, assert'_true, Option.bind_some, am, le_refl]
    refine ⟨_, _, rfl, fun i => ?_, fun i => ?_⟩ <;>
    simp only [IndexRange.indices, List.mem_range'_1] <;>
    omega

/-- What `range_to_initialize` returns. -/
theorem rangeToInitialize_spec {w n : Nat} {o : Int} (hw : 1 ≤ w) (hn : n < 2 ^ (w - 1)) :
    ∃ rc, rangeToInitialize w n o = some rc ∧ rc.b ≤ rc.e ∧ rc.e ≤ n ∧
      ∀ i, i ∈ rc.indices ↔ i < n ∧ ¬ (0 ≤ (i : Int) - o ∧ (i : Int) - o < n) := by
  have hc := castOffset_eq hw hn
  unfold rangeToInitialize
  rw [hc]
  by_cases h0 : o ≤ 0
  · have e1 : negSigned w (n : Int) = some (-(n : Int)) := by
      unfold negSigned; rw [if_neg]; rw [← pow_cast]; omega
    have e2 : toIndex (n + max o (-(n : Int))) = some (n + max o (-(n : Int))).toNat := by
      unfold toIndex; rw [if_pos]; omega
    have am : IndexRange.make (n + max o (-(n : Int))).toNat n =
        some ⟨(n + max o (-(n : Int))).toNat, n⟩ := by
      unfold IndexRange.make; rw [if_pos]; omega
    simp only [if_pos h0, e1, e2, am, Option.bind_eq_bind, Option.bind_some]
    refine ⟨_, rfl, by simp only; omega, by simp only; omega, fun i => ?_⟩
    simp only [IndexRange.indices, List.mem_range'_1]
    omega
  · have e2 : toIndex (min o (n : Int)) = some (min o (n : Int)).toNat := by
      unfold toIndex; rw [if_pos]; omega
    have am : IndexRange.make 0 (min o (n : Int)).toNat = some ⟨0, (min o (n : Int)).toNat⟩ := by
      unfold IndexRange.make; rw [if_pos]; omega
    simp only [if_neg h0, e2, am, Option.bind_eq_bind, Option.bind_some]
    refine ⟨_, rfl, by simp only; omega, by simp only; omega, fun i => ?_⟩
    simp only [IndexRange.indices, List.mem_range'_1]
    omega

theorem mapM_some_of {α β : Type} {f : α → Option β} {g : α → β} {l : List α}
    (h : ∀ a ∈ l, f a = some (g a)) : l.mapM f = some (l.map g) := by
  induction l with
  | nil => rfl
  | cons a l ih =>
    rw [List.mapM_cons, h a (by simp), ih (fun b hb => h b (by simp [hb]))]
    rfl

theorem mapM_exists {α β : Type} {f : α → Option β} {P : α → β → Prop} {l : List α}
    (h : ∀ a ∈ l, ∃ b, f a = some b ∧ P a b) :
    ∃ bs, l.mapM f = some bs ∧ List.Forall₂ P l bs := by
  induction l with
  | nil => exact ⟨[], rfl, .nil⟩
  | cons a l ih =>
    obtain ⟨b, hb, hp⟩ := h a (by simp)
    obtain ⟨bs, hbs, hps⟩ := ih (fun x hx => h x (by simp [hx]))
    exact ⟨b :: bs, by rw [List.mapM_cons, hb, hbs]; rfl, .cons hp hps⟩

theorem forall₂_right {α β : Type} {P : α → β → Prop} {l : List α} {m : List β}
    (h : List.Forall₂ P l m) {b : β} (hb : b ∈ m) : ∃ a ∈ l, P a b := by
  obtain ⟨k, hk, rfl⟩ := List.getElem_of_mem hb
  have hk' : k < l.length := by rw [h.length_eq]; exact hk
  exact ⟨l[k], List.getElem_mem hk', h.get hk' hk⟩

theorem forall₂_left {α β : Type} {P : α → β → Prop} {l : List α} {m : List β}
    (h : List.Forall₂ P l m) {a : α} (ha : a ∈ l) : ∃ b ∈ m, P a b := by
  obtain ⟨k, hk, rfl⟩ := List.getElem_of_mem ha
  have hk' : k < m.length := by rw [← h.length_eq]; exact hk
  exact ⟨m[k], List.getElem_mem hk', h.get hk hk'⟩

/-- Idempotent element functions `G`, each element's function applied at least once: whatever the
order. -/
theorem runActs_idem {G : Nat → γ → γ} {l : List (Act γ)} {s : List γ}
    (hidem : ∀ d c, G d (G d c) = G d c) (hG : ∀ a ∈ l, a.fn = G a.idx ∧ a.idx < s.length)
    (hcov : ∀ d < s.length, ∃ a ∈ l, a.idx = d) : runActs l s = some (s.mapIdx G) := by
  rw [runActs_eq l s (fun a ha => (hG a ha).2)]
  have key : ∀ (l : List (Act γ)) (d : Nat) (c : γ), (∀ a ∈ l, a.fn = G a.idx) →
      actsOn l d (G d c) = G d c ∧ ((∃ a ∈ l, a.idx = d) → actsOn l d c = G d c) := by
    intro l
    induction l with
    | nil => intro d c _; simp [actsOn]
    | cons a l ih =>
      intro d c h
      have ha := h a (by simp)
      have ih' := ih d c (fun b hb => h b (by simp [hb]))
      by_cases hd : a.idx = d
      · subst hd
        have e : ∀ c, actsOn (a :: l) a.idx c = actsOn l a.idx (G a.idx c) := by
          intro c; simp [actsOn, ha]
        refine ⟨?_, fun _ => ?_⟩
        · rw [e, hidem]; exact ih'.1
        · rw [e]; exact ih'.1
      · have e : ∀ c, actsOn (a :: l) d c = actsOn l d c := by
          intro c; simp [actsOn, hd]
        refine ⟨by rw [e]; exact ih'.1, ?_⟩
        rintro ⟨b, hb, hbd⟩
        rw [e]
        refine ih'.2 ⟨b, ?_, hbd⟩
        rcases List.mem_cons.mp hb with rfl | hb
        · exact absurd hbd hd
        · exact hb
  congr 1
  apply List.ext_getElem
  · simp
  · intro d h1 h2
    simp only [List.getElem_mapIdx]
    exact (key l d _ (fun a ha => (hG a ha).1)).2 (hcov d (by simpa using h1))

/-- The function for destination element `d`, given which source element is moved to it. -/
noncomputable def shiftFn (inp : InPolicy V) (outp : OutPolicy V) (fill : Option V)
    (value : List V) (src : Nat → Nat → Prop) (d : Nat) : Cell V → Cell V :=
  open Classical in
  if h : ∃ s, src d s then (copyAct inp outp value h.choose).getD id else offsetInitAct outp fill

theorem mark_idem (outp : OutPolicy V) (c : Cell V) : outp.mark (outp.mark c) = outp.mark c := by
  cases outp <;> rfl

theorem copyAct_idem {inp : InPolicy V} {outp : OutPolicy V} {value : List V} {s : Nat}
    {f : Cell V → Cell V} (h : copyAct inp outp value s = some f) (c : Cell V) : f (f c) = f c := by
  unfold copyAct at h
  cases hb : inp.isNoData value s with
  | none => simp [hb] at h
  | some b =>
    cases b with
    | true =>
      simp only [hb, Option.bind_eq_bind, Option.bind_some, if_true, Option.some.injEq] at h
      subst h; exact mark_idem outp c
    | false =>
      cases hv : value[s]? with
      | none => simp [hb, hv] at h
      | some v =>
        simp [hb, hv] at h
        subst h; rfl

theorem shiftFn_idem (inp : InPolicy V) (outp : OutPolicy V) (fill : Option V) (value : List V)
    (src : Nat → Nat → Prop) (d : Nat) (c : Cell V) :
    shiftFn inp outp fill value src d (shiftFn inp outp fill value src d c) =
      shiftFn inp outp fill value src d c := by
  unfold shiftFn
  split
  · next h =>
    cases hf : copyAct inp outp value h.choose with
    | none => rfl
    | some f => exact copyAct_idem hf c
  · cases fill
    · exact mark_idem outp c
    · rfl

/-- At most one source element per destination element. -/
def SrcUnique (src : Nat → Nat → Prop) : Prop := ∀ d s s', src d s → src d s' → s = s'

theorem shiftFn_src {inp : InPolicy V} {outp : OutPolicy V} {fill : Option V} {value : List V}
    {src : Nat → Nat → Prop} (hu : SrcUnique src) {d s : Nat} (h : src d s) :
    shiftFn inp outp fill value src d = (copyAct inp outp value s).getD id := by
  have hex : ∃ s, src d s := ⟨s, h⟩
  unfold shiftFn
  rw [dif_pos hex, hu d _ _ hex.choose_spec h]

theorem shiftFn_noSrc {inp : InPolicy V} {outp : OutPolicy V} {fill : Option V} {value : List V}
    {src : Nat → Nat → Prop} {d : Nat} (h : ∀ s, ¬ src d s) :
    shiftFn inp outp fill value src d = offsetInitAct outp fill := by
  unfold shiftFn
  rw [dif_neg]
  rintro ⟨s, hs⟩
  exact h s hs

theorem shiftFn_cell {inp : InPolicy V} {outp : OutPolicy V} {fill : Option V} {value : List V}
    {src : Nat → Nat → Prop} (hu : SrcUnique src) (hp : PolicyFor inp value.length) {d : Nat}
    (hb : ∀ s, src d s → s < value.length) (c : Cell V) :
    OffsetCell inp outp fill value (src d) c (shiftFn inp outp fill value src d c) := by
  constructor
  · intro s hs
    rw [shiftFn_src hu hs]
    obtain ⟨f, hf, hspec⟩ := copyAct_spec (outp := outp) rfl hp (hb s hs)
    rw [hf]
    obtain ⟨h1, h2⟩ := hspec c
    refine ⟨h1, fun h => ?_⟩
    obtain ⟨v, hv, hfc⟩ := h2 h
    refine ⟨v, hv, ?_⟩
    show Becomes v c (f c)
    rw [hfc]
    exact ⟨rfl, rfl⟩
  · intro hs
    rw [shiftFn_noSrc hs]
    cases fill with
    | none => exact mark_spec _ _
    | some f => exact become_store f c

/-- A task that copies: its actions, given by source element. -/
structure CopyTask (inp : InPolicy V) (outp : OutPolicy V) (value : List V)
    (src : Nat → Nat → Prop) (block : Nat → Prop) (l : List (Act (Cell V))) : Prop where
  sound : ∀ a ∈ l, ∃ s, block s ∧ src a.idx s ∧ copyAct inp outp value s = some a.fn
  complete : ∀ d s, block s → src d s → ∃ a ∈ l, a.idx = d

/-- The task that initialises the other elements. -/
structure InitTask (outp : OutPolicy V) (fill : Option V) (src : Nat → Nat → Prop) (N : Nat)
    (l : List (Act (Cell V))) : Prop where
  sound : ∀ a ∈ l, a.idx < N ∧ (∀ s, ¬ src a.idx s) ∧ a.fn = offsetInitAct outp fill
  complete : ∀ d < N, (∀ s, ¬ src d s) → ∃ a ∈ l, a.idx = d

theorem run_tasks {inp : InPolicy V} {outp : OutPolicy V} {fill : Option V} {value : List V}
    {src : Nat → Nat → Prop} (hu : SrcUnique src) {res : List (Cell V)}
    (hd : ∀ d s, src d s → d < res.length) {blocks : List (Nat → Prop)}
    {copies : List (List (Act (Cell V)))}
    (hc : List.Forall₂ (CopyTask inp outp value src) blocks copies)
    (hcov : ∀ d s, src d s → ∃ b ∈ blocks, b s) {i : List (Act (Cell V))}
    (hi : InitTask outp fill src res.length i) {l : List (Act (Cell V))}
    (hl : l.Perm (copies ++ [i]).flatten) :
    runActs l res = some (res.mapIdx (shiftFn inp outp fill value src)) := by
  have hmem : ∀ a, a ∈ l ↔ (∃ c ∈ copies, a ∈ c) ∨ a ∈ i := by
    intro a
    rw [hl.mem_iff]
    simp [List.mem_flatten]
  apply runActs_idem (shiftFn_idem inp outp fill value src)
  · intro a ha
    rcases (hmem a).mp ha with ⟨c, hcm, hac⟩ | hai
    · obtain ⟨k, hk, rfl⟩ := List.getElem_of_mem hcm
      have hct := hc.get (by rw [hc.length_eq]; exact hk) hk
      obtain ⟨s, _, hs, hf⟩ := hct.sound a hac
      exact ⟨by rw [shiftFn_src hu hs, hf]; rfl, hd _ _ hs⟩
    · obtain ⟨h1, h2, h3⟩ := hi.sound a hai
      exact ⟨by rw [shiftFn_noSrc h2, h3], h1⟩
  · intro d hdl
    by_cases hs : ∃ s, src d s
    · obtain ⟨s, hs⟩ := hs
      obtain ⟨b, hb, hbs⟩ := hcov d s hs
      obtain ⟨k, hk, rfl⟩ := List.getElem_of_mem hb
      have hk' : k < copies.length := by rw [← hc.length_eq]; exact hk
      obtain ⟨a, ha, had⟩ := (hc.get hk hk').complete d s hbs hs
      exact ⟨a, (hmem a).mpr (.inl ⟨copies[k], List.getElem_mem hk', ha⟩), had⟩
    · obtain ⟨a, ha, had⟩ := hi.complete d hdl (fun s h => hs ⟨s, h⟩)
      exact ⟨a, (hmem a).mpr (.inr ha), had⟩

/-- Together, the tasks write all elements. -/
theorem tasks_cover {inp : InPolicy V} {outp : OutPolicy V} {fill : Option V} {value : List V}
    {src : Nat → Nat → Prop} {N : Nat} {blocks : List (Nat → Prop)}
    {copies : List (List (Act (Cell V)))}
    (hc : List.Forall₂ (CopyTask inp outp value src) blocks copies)
    (hcov : ∀ d s, src d s → ∃ b ∈ blocks, b s) {i : List (Act (Cell V))}
    (hi : InitTask outp fill src N i) :
    ∀ d < N, ∃ task ∈ copies ++ [i], ∃ a ∈ task, a.idx = d := by
  intro d hd
  by_cases hs : ∃ s, src d s
  · obtain ⟨s, hs⟩ := hs
    obtain ⟨b, hb, hbs⟩ := hcov d s hs
    obtain ⟨c, hcm, hct⟩ := forall₂_left hc hb
    obtain ⟨a, ha, had⟩ := hct.complete d s hbs hs
    exact ⟨c, by simp [hcm], a, ha, had⟩
  · obtain ⟨a, ha, had⟩ := hi.complete d hd (fun s h => hs ⟨s, h⟩)
    exact ⟨i, by simp, a, ha, had⟩

/-- The tasks write disjoint elements. -/
theorem disjoint_tasks {inp : InPolicy V} {outp : OutPolicy V} {fill : Option V} {value : List V}
    {src : Nat → Nat → Prop} (hu : SrcUnique src) {N : Nat} {blocks : List (Nat → Prop)}
    {copies : List (List (Act (Cell V)))}
    (hc : List.Forall₂ (CopyTask inp outp value src) blocks copies)
    (hdis : ∀ p q (hp : p < blocks.length) (hq : q < blocks.length), p ≠ q → ∀ s, blocks[p] s →
      ¬ blocks[q] s) {i : List (Act (Cell V))} (hi : InitTask outp fill src N i) :
    ∀ p q (hp : p < (copies ++ [i]).length) (hq : q < (copies ++ [i]).length), p ≠ q →
      ∀ a ∈ (copies ++ [i])[p], ∀ b ∈ (copies ++ [i])[q], a.idx ≠ b.idx := by
  have hlen := hc.length_eq
  have hinit : ∀ k (hk : k < copies.length), ∀ a ∈ copies[k], ∀ b ∈ i, a.idx ≠ b.idx := by
    intro k hk a ha b hb hab
    obtain ⟨s, _, hs, _⟩ := (hc.get (by rw [hlen]; exact hk) hk).sound a ha
    exact (hi.sound b hb).2.1 s (hab ▸ hs)
  intro p q hp hq hpq a ha b hb hab
  simp only [List.length_append, List.length_singleton] at hp hq
  by_cases hp' : p < copies.length
  · rw [List.getElem_append_left hp'] at ha
    by_cases hq' : q < copies.length
    · rw [List.getElem_append_left hq'] at hb
      obtain ⟨s, hs1, hs, _⟩ := (hc.get (by rw [hlen]; exact hp') hp').sound a ha
      obtain ⟨s', hs1', hs', _⟩ := (hc.get (by rw [hlen]; exact hq') hq').sound b hb
      have : s = s' := hu _ _ _ hs (hab ▸ hs')
      subst this
      exact hdis p q _ _ hpq s hs1 hs1'
    · rw [List.getElem_append_right (by omega)] at hb
      simp only [List.getElem_singleton] at hb
      exact hinit p hp' a ha b hb hab
  · rw [List.getElem_append_right (by omega)] at ha
    simp only [List.getElem_singleton] at ha
    by_cases hq' : q < copies.length
    · rw [List.getElem_append_left hq'] at hb
      exact hinit q hq' b hb a ha hab.symm
    · omega

/-! ### 1D -/

theorem shifted1_unique (n : Nat) (o : Int) : SrcUnique (Shifted1 n o) := by
  intro d s s' h h'
  have := h.2
  have := h'.2
  omega

theorem offsetCopy1d_task {w : Nat} {inp : InPolicy V} (outp : OutPolicy V) {value : List V} {o : Int}
    {r : IndexRange} (hw : 1 ≤ w) (hn : value.length < 2 ^ (w - 1)) (ho : OffsetOfType w o)
    (hp : PolicyFor inp value.length) (hr : r.b < r.e) (hrn : r.e ≤ value.length) :
    ∃ l, offsetCopy1d w inp outp value o r = some l ∧
      CopyTask inp outp value (fun d s => Shifted1 value.length o d s ∧ d < value.length)
        (fun s => r.b ≤ s ∧ s < r.e) l := by
  obtain ⟨rc, o', hrc, hmem, heq⟩ := rangeToCopy_spec hw hn ho hr hrn
  have hact : ∀ i ∈ rc.indices, ∃ a : Act (Cell V), (do
      let f ← copyAct inp outp value i
      some (Act.mk (← toIndex (i + o')) f)) = some a ∧
      ((i : Int) + o = a.idx ∧ copyAct inp outp value i = some a.fn) := by
    intro i hi
    obtain ⟨h1, h2, h3, h4⟩ := (hmem i).mp hi
    have h5 := heq i hi
    subst h5
    obtain ⟨f, hf, _⟩ := copyAct_spec (outp := outp) rfl hp (i := i) (by omega)
    refine ⟨⟨((i : Int) + o').toNat, f⟩, ?_, ?_, hf⟩
    · simp [hf, toIndex, h3]
    · simp only; omega
  obtain ⟨l, hl, hf2⟩ := mapM_exists hact
  refine ⟨l, by simp only [offsetCopy1d, hrc, Option.bind_eq_bind, Option.bind_some]; exact hl, ?_, ?_⟩
  · intro a ha
    obtain ⟨i, hi, h1, h2⟩ := forall₂_right hf2 ha
    obtain ⟨g1, g2, g3, g4⟩ := (hmem i).mp hi
    exact ⟨i, ⟨g1, g2⟩, ⟨⟨by omega, h1⟩, by omega⟩, h2⟩
  · intro d s hb hs
    obtain ⟨⟨h1, h2⟩, h3⟩ := hs
    have hm : s ∈ rc.indices := by
      rw [hmem]
      exact ⟨hb.1, hb.2, by omega, by omega⟩
    obtain ⟨a, ha, g1, g2⟩ := forall₂_left hf2 hm
    exact ⟨a, ha, by omega⟩

theorem offsetInit1d_task {w n : Nat} (outp : OutPolicy V) (fill : Option V) (o : Int) (hw : 1 ≤ w)
    (hn : n < 2 ^ (w - 1)) :
    ∃ l, offsetInit1d w outp fill n o = some l ∧
      InitTask outp fill (fun d s => Shifted1 n o d s ∧ d < n) n l := by
  obtain ⟨rc, hrc, _, _, hmem⟩ := rangeToInitialize_spec (o := o) hw hn
  refine ⟨_, by simp only [offsetInit1d, hrc, Option.bind_eq_bind, Option.bind_some]; rfl, ?_, ?_⟩
  · intro a ha
    simp only [List.mem_map] at ha
    obtain ⟨i, hi, rfl⟩ := ha
    rw [hmem] at hi
    refine ⟨hi.1, ?_, rfl⟩
    rintro s ⟨⟨h1, h2⟩, h3⟩
    simp only at h2 h3
    omega
  · intro d hd hs
    refine ⟨⟨d, offsetInitAct outp fill⟩, List.mem_map.mpr ⟨d, ?_, rfl⟩, rfl⟩
    rw [hmem]
    refine ⟨hd, fun h => ?_⟩
    exact hs ((d : Int) - o).toNat ⟨⟨by omega, by omega⟩, hd⟩

/-! ### 2D -/

theorem rowMajor_inj {n r c r' c' : Nat} (h : c < n) (h' : c' < n)
    (e : r * n + c = r' * n + c') : r = r' ∧ c = c' := by
  have hr : r = r' := by
    have h1 : (r * n + c) / n = r := by
      rw [Nat.mul_comm, Nat.mul_add_div (by omega), Nat.div_eq_of_lt h]; rfl
    have h2 : (r' * n + c') / n = r' := by
      rw [Nat.mul_comm, Nat.mul_add_div (by omega), Nat.div_eq_of_lt h']; rfl
    rw [← h1, ← h2, e]
  subst hr
  exact ⟨rfl, by omega⟩

theorem rowMajor_lt {n1 n2 r c : Nat} (h1 : r < n1) (h2 : c < n2) : r * n2 + c < n1 * n2 := by
  have : (r + 1) * n2 ≤ n1 * n2 := Nat.mul_le_mul_right _ h1
  rw [Nat.add_mul, Nat.one_mul] at this
  omega

theorem rowMajor_lt_row {n1 n2 r c : Nat} (h : r * n2 + c < n1 * n2) : r < n1 := by
  by_contra hr
  have : n1 * n2 ≤ r * n2 := Nat.mul_le_mul_right _ (by omega)
  omega

theorem rowMajor_exists {n1 n2 d : Nat} (h : d < n1 * n2) :
    ∃ r c, r < n1 ∧ c < n2 ∧ d = r * n2 + c := by
  have hn2 : 0 < n2 := by
    rcases Nat.eq_zero_or_pos n2 with h0 | h0
    · rw [h0] at h; omega
    · exact h0
  refine ⟨d / n2, d % n2, ?_, Nat.mod_lt _ hn2, ?_⟩
  · rw [Nat.div_lt_iff_lt_mul hn2]; exact h
  · rw [Nat.mul_comm]; exact (Nat.div_add_mod d n2).symm

/-- The sources within the array. -/
def src2 (n1 n2 : Nat) (o1 o2 : Int) (d s : Nat) : Prop := Shifted2 n1 n2 o1 o2 d s ∧ d < n1 * n2

theorem src2_unique (n1 n2 : Nat) (o1 o2 : Int) : SrcUnique (src2 n1 n2 o1 o2) := by
  rintro d s s' ⟨⟨r, c, r', c', hc, hd, hc', hs, h1, h2⟩, _⟩
    ⟨⟨q, e, q', e', he, hd', he', hs', g1, g2⟩, _⟩
  obtain ⟨rfl, rfl⟩ := rowMajor_inj hc he (hd.symm.trans hd')
  have := shifted1_unique _ _ _ _ _ h1 g1
  have := shifted1_unique _ _ _ _ _ h2 g2
  subst_vars
  rfl

theorem offsetCopy2d_task {w : Nat} {inp : InPolicy V} (outp : OutPolicy V) {n1 n2 : Nat}
    {value : List V} {o1 o2 : Int} {r : IndexRange} (hw : 1 ≤ w) (hv : value.length = n1 * n2)
    (hn1 : n1 < 2 ^ (w - 1)) (hn2 : n2 < 2 ^ (w - 1)) (ho1 : OffsetOfType w o1)
    (ho2 : OffsetOfType w o2) (hp : PolicyFor inp value.length) (hr : r.b < r.e) (hrn : r.e ≤ n1)
    (hpos : 0 < n2) :
    ∃ l, offsetCopy2d w inp outp n1 n2 value o1 o2 ⟨r, ⟨0, n2⟩⟩ = some l ∧
      CopyTask inp outp value (src2 n1 n2 o1 o2)
        (fun s => ∃ i c, c < n2 ∧ s = i * n2 + c ∧ r.b ≤ i ∧ i < r.e) l := by
  obtain ⟨rc1, o1', hrc1, hmem1, heq1⟩ := rangeToCopy_spec hw hn1 ho1 hr hrn
  obtain ⟨rc2, o2', hrc2, hmem2, heq2⟩ := rangeToCopy_spec (r := ⟨0, n2⟩) hw hn2 ho2 hpos (le_refl _)
  have hrow : ∀ i ∈ rc1.indices, ∃ row : List (Act (Cell V)),
      (List.range (rc2.e - rc2.b)).mapM (fun (k : Nat) => (do
        let f ← copyAct inp outp value (linearIndex n2 i rc2.b + k)
        some (Act.mk (← toIndex ((i + o1') * n2 + (rc2.b + o2') + k)) f))) = some row ∧
      List.Forall₂ (fun (k : Nat) (a : Act (Cell V)) =>
        (((i : Int) + o1) * n2 + (((rc2.b + k : Nat) : Int) + o2) = a.idx) ∧
        copyAct inp outp value (i * n2 + (rc2.b + k)) = some a.fn)
        (List.range (rc2.e - rc2.b)) row := by
    intro i hi
    apply mapM_exists
    intro k hk
    have hk2 : rc2.b + k ∈ rc2.indices := by
      simp only [IndexRange.indices, List.mem_range'_1]
      rw [List.mem_range] at hk
      omega
    obtain ⟨g1, g2, g3, g4⟩ := (hmem1 i).mp hi
    obtain ⟨f1, f2, f3, f4⟩ := (hmem2 _).mp hk2
    have h5 := heq1 i hi
    have h6 := heq2 _ hk2
    subst h5 h6
    simp only at f2
    have hlt : i * n2 + (rc2.b + k) < value.length := by
      rw [hv]; exact rowMajor_lt (by omega) f2
    obtain ⟨f, hf, _⟩ := copyAct_spec (outp := outp) rfl hp hlt
    have e1 : linearIndex n2 i rc2.b + k = i * n2 + (rc2.b + k) := by
      unfold linearIndex; omega
    have hnn : 0 ≤ ((i : Int) + o1') * n2 + (rc2.b + o2') + k := by
      have : 0 ≤ ((i : Int) + o1') * n2 := Int.mul_nonneg g3 (by omega)
      push_cast at f3
      omega
    refine ⟨⟨(((i : Int) + o1') * n2 + (rc2.b + o2') + k).toNat, f⟩, ?_, ?_, hf⟩
    · simp [e1, hf, toIndex, hnn]
    · simp only
      rw [Int.toNat_of_nonneg hnn]
      push_cast
      ring
  obtain ⟨rows, hrows, hf2⟩ := mapM_exists hrow
  refine ⟨rows.flatten, by
    simp only [Option.bind_eq_bind] at hrows
    simp only [offsetCopy2d, hrc1, hrc2, Option.bind_eq_bind, Option.bind_some, hrows], ?_, ?_⟩
  · intro a ha
    rw [List.mem_flatten] at ha
    obtain ⟨row, hrow, ha⟩ := ha
    obtain ⟨i, hi, hfr⟩ := forall₂_right hf2 hrow
    obtain ⟨k, hk, h1, h2⟩ := forall₂_right hfr ha
    have hk2 : rc2.b + k ∈ rc2.indices := by
      simp only [IndexRange.indices, List.mem_range'_1]
      rw [List.mem_range] at hk
      omega
    obtain ⟨g1, g2, g3, g4⟩ := (hmem1 i).mp hi
    obtain ⟨f1, f2, f3, f4⟩ := (hmem2 _).mp hk2
    simp only at f2
    obtain ⟨x, hx⟩ := Int.eq_ofNat_of_zero_le g3
    obtain ⟨y, hy⟩ := Int.eq_ofNat_of_zero_le f3
    have hidx : a.idx = x * n2 + y := by
      rw [hx, hy] at h1
      exact_mod_cast h1.symm
    refine ⟨i * n2 + (rc2.b + k), ⟨i, rc2.b + k, f2, rfl, g1, g2⟩,
      ⟨⟨x, y, i, rc2.b + k, by omega, hidx, f2, rfl, ⟨by omega, hx⟩, ⟨f2, hy⟩⟩, ?_⟩, h2⟩
    rw [hidx]
    exact rowMajor_lt (by omega) (by omega)
  · rintro d s ⟨i, c, hc, hs, hi1, hi2⟩ ⟨⟨x, y, x', y', hy, hd, hy', hs', h1, h2⟩, hdl⟩
    obtain ⟨rfl, rfl⟩ := rowMajor_inj hc hy' (hs.symm.trans hs')
    have hxn : x < n1 := by rw [hd] at hdl; exact rowMajor_lt_row hdl
    obtain ⟨h11, h12⟩ := h1
    obtain ⟨h21, h22⟩ := h2
    have hm1 : i ∈ rc1.indices := (hmem1 i).mpr ⟨hi1, hi2, by omega, by omega⟩
    have hm2 : c ∈ rc2.indices := (hmem2 c).mpr ⟨by simp only; omega, hc, by omega, by omega⟩
    obtain ⟨row, hrow, hfr⟩ := forall₂_left hf2 hm1
    simp only [IndexRange.indices, List.mem_range'_1] at hm2
    obtain ⟨a, ha, g1, g2⟩ := forall₂_left hfr
      (a := c - rc2.b) (List.mem_range.mpr (by omega))
    refine ⟨a, List.mem_flatten.mpr ⟨row, hrow, ha⟩, ?_⟩
    have e : rc2.b + (c - rc2.b) = c := by omega
    rw [e, h12, h22] at g1
    rw [hd]
    exact_mod_cast g1.symm

theorem mem_cells2d {n2 : Nat} {rows cols : IndexRange} {d : Nat} :
    d ∈ cells2d n2 ⟨rows, cols⟩ ↔ ∃ i ∈ rows.indices, ∃ j ∈ cols.indices, d = i * n2 + j := by
  simp only [cells2d, List.mem_flatMap, IndexRange.indices, linearIndex, List.mem_range'_1]
  constructor
  · rintro ⟨i, hi, h1, h2⟩
    exact ⟨i, hi, d - i * n2, by omega, by omega⟩
  · rintro ⟨i, hi, j, hj, rfl⟩
    exact ⟨i, hi, by omega, by omega⟩

theorem mem_indices {r : IndexRange} {i : Nat} : i ∈ r.indices ↔ r.b ≤ i ∧ i < r.e := by
  simp only [IndexRange.indices, List.mem_range'_1]
  omega

theorem offsetInit2d_task {w n1 n2 : Nat} (outp : OutPolicy V) (fill : Option V) (o1 o2 : Int)
    (hw : 1 ≤ w) (hn1 : n1 < 2 ^ (w - 1)) (hn2 : n2 < 2 ^ (w - 1)) :
    ∃ l, offsetInit2d w outp fill n1 n2 o1 o2 = some l ∧
      InitTask outp fill (src2 n1 n2 o1 o2) (n1 * n2) l := by
  obtain ⟨rc1, hrc1, _, _, hmem1⟩ := rangeToInitialize_spec (o := o1) hw hn1
  obtain ⟨rc2, hrc2, _, _, hmem2⟩ := rangeToInitialize_spec (o := o2) hw hn2
  refine ⟨_, by simp only [offsetInit2d, hrc1, hrc2, Option.bind_eq_bind, Option.bind_some]; rfl,
    ?_, ?_⟩
  · intro a ha
    simp only [List.mem_map, List.mem_append] at ha
    obtain ⟨d, hd, rfl⟩ := ha
    have : ∃ i j, i < n1 ∧ j < n2 ∧ d = i * n2 + j ∧ (i ∈ rc1.indices ∨ j ∈ rc2.indices) := by
      rcases hd with hd | hd
      · obtain ⟨i, hi, j, hj, rfl⟩ := mem_cells2d.mp hd
        exact ⟨i, j, ((hmem1 i).mp hi).1, (mem_indices.mp hj).2, rfl, .inl hi⟩
      · obtain ⟨i, hi, j, hj, rfl⟩ := mem_cells2d.mp hd
        exact ⟨i, j, (mem_indices.mp hi).2, ((hmem2 j).mp hj).1, rfl, .inr hj⟩
    obtain ⟨i, j, hi, hj, rfl, hij⟩ := this
    refine ⟨rowMajor_lt hi hj, ?_, rfl⟩
    rintro s ⟨⟨x, y, x', y', hy, hd, hy', hs', ⟨h11, h12⟩, ⟨h21, h22⟩⟩, hdl⟩
    obtain ⟨rfl, rfl⟩ := rowMajor_inj hj hy hd
    rcases hij with h | h
    · have := (hmem1 i).mp h
      omega
    · have := (hmem2 j).mp h
      omega
  · intro d hd hs
    obtain ⟨i, j, hi, hj, rfl⟩ := rowMajor_exists hd
    refine ⟨⟨i * n2 + j, offsetInitAct outp fill⟩, List.mem_map.mpr ⟨i * n2 + j, ?_, rfl⟩, rfl⟩
    rw [List.mem_append, mem_cells2d, mem_cells2d]
    by_cases h1 : 0 ≤ (i : Int) - o1 ∧ (i : Int) - o1 < n1
    · by_cases h2 : 0 ≤ (j : Int) - o2 ∧ (j : Int) - o2 < n2
      · exact absurd ⟨⟨i, j, ((i : Int) - o1).toNat, ((j : Int) - o2).toNat, hj, rfl, by omega, rfl,
          ⟨by omega, by omega⟩, ⟨by omega, by omega⟩⟩, hd⟩
          (hs (((i : Int) - o1).toNat * n2 + ((j : Int) - o2).toNat))
      · exact .inr ⟨i, mem_indices.mpr ⟨by simp only; omega, hi⟩, j, (hmem2 j).mpr ⟨hj, h2⟩, rfl⟩
    · exact .inl ⟨i, (hmem1 i).mpr ⟨hi, h1⟩, j, mem_indices.mpr ⟨by simp only; omega, hj⟩, rfl⟩

end Fern
