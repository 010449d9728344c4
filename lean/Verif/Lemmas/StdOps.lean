import Verif.Spec.StdOps
import Mathlib.Tactic.Linarith
import Mathlib.Algebra.Order.Ring.Rat

namespace Fern.StdOps

open Fern Fern.StdOps.Spec Fern.Domains

variable {G V α : Type}

/-- The attribute with these geometries and values, numbered. -/
def numbered (l : List (G × V)) : Attribute G V :=
  ⟨l.mapIdx fun i p => (i, p.1), l.mapIdx fun i p => (i, p.2)⟩

theorem any_mapIdx_length (l : List α) (f : Nat → α → Nat × V) (hf : ∀ i x, (f i x).1 = i) :
    (l.mapIdx f).any (fun p => p.1 == l.length) = false := by
  rw [List.any_eq_false]
  intro p hp
  obtain ⟨i, h, rfl⟩ := List.mem_mapIdx.1 hp
  simp only [hf, beq_iff_eq]
  omega

theorem add_numbered (l : List (G × V)) (g : G) (v : V) :
    (numbered l).add g v = some (numbered (l ++ [(g, v)]), l.length) := by
  have h : ((numbered l).domain.isEmpty = (numbered l).values.isEmpty ∨ (numbered l).values.isEmpty) := by
    left
    cases l <;> simp [numbered]
  unfold Attribute.add
  rw [if_pos h]
  simp only [Domain.add, numbered, List.length_mapIdx, setValue]
  rw [any_mapIdx_length l _ (by intros; rfl), any_mapIdx_length l _ (by intros; rfl)]
  simp [List.mapIdx_append]

theorem addAll_numbered (k : List (G × V)) : ∀ l : List (G × V),
    addAll (numbered l) k = some (numbered (l ++ k), List.range' l.length k.length) := by
  induction k with
  | nil => intro l; simp [addAll]
  | cons p k ih =>
    intro l
    obtain ⟨g, v⟩ := p
    simp only [addAll, add_numbered, ih]
    simp [List.range'_succ]

theorem addAll_empty (l : List (G × V)) :
    addAll (.empty : Attribute G V) l = some (numbered l, List.range l.length) := by
  have := addAll_numbered l ([] : List (G × V))
  simpa [numbered, Attribute.empty, List.range_eq_range'] using this

theorem built_iff (l : List (G × V)) (a : Attribute G V) : Built l a ↔ a = numbered l := by
  unfold Built
  rw [addAll_empty]
  simp only [Option.some.injEq, Prod.mk.injEq, exists_and_left, exists_eq', and_true]
  exact eq_comm

theorem lookup_mapIdx (f : α → V) : ∀ (l : List α) (k i : Nat),
    (l.mapIdx fun i x => (k + i, f x)).lookup (k + i) = (l[i]?).map f := by
  intro l
  induction l with
  | nil => intro k i; simp
  | cons x l ih =>
    intro k i
    rw [List.mapIdx_cons]
    cases i with
    | zero => simp [List.lookup]
    | succ i =>
      have h : (k + (i + 1) == k + 0) = false := by simp
      rw [List.lookup, h]
      have := ih (k + 1) i
      simp only [List.getElem?_cons_succ]
      rw [← this]
      have e : k + 1 + i = k + (i + 1) := by omega
      rw [e]
      congr 1
      apply List.ext_getElem <;> simp
      intro n _; omega

theorem numbered_geometry (l : List (G × V)) (i : Nat) :
    (numbered l).domain.geometry i = (l[i]?).map (·.1) := by
  have := lookup_mapIdx (fun p : G × V => p.1) l 0 i
  simpa [numbered, Domain.geometry] using this

theorem numbered_value (l : List (G × V)) (i : Nat) :
    (numbered l).value i = (l[i]?).map (·.2) := by
  have := lookup_mapIdx (fun p : G × V => p.2) l 0 i
  simpa [numbered, Attribute.value] using this

/-! ## Loops over cells -/

theorem absRow_spec (f : α → Option α) (src : Field α) (row : Nat) (dst : Nat → Nat → α × Bool) : ∀ n,
    (∀ c, c < n → (src.cell row c).2 = false → (f (src.cell row c).1).isSome) →
    ∃ d, (List.range n).foldlM (fun dst col => absCell f src dst row col) dst = some d ∧
      (∀ r, r ≠ row → d r = dst r) ∧ (∀ c, n ≤ c → d row c = dst row c) ∧
      (∀ c, (d row c).2 = (dst row c).2) ∧
      (∀ c, c < n → (src.cell row c).2 = false → f (src.cell row c).1 = some (d row c).1) ∧
      (∀ c, (src.cell row c).2 = true → (d row c).1 = (dst row c).1) := by
  intro n
  induction n with
  | zero => intro _; exact ⟨dst, by simp, by simp, by simp, by simp, by simp, by simp⟩
  | succ n ih =>
    intro h
    obtain ⟨d, hd, h1, h2, h3, h4, h5⟩ := ih fun c hc => h c (by omega)
    rw [List.range_succ, List.foldlM_append, hd]
    simp only [List.foldlM_cons, List.foldlM_nil, Option.bind_eq_bind, Option.bind_some]
    by_cases hm : (src.cell row n).2 = true
    · refine ⟨d, by simp [absCell, hm], h1, fun c hc => h2 c (by omega), h3, fun c hc hf => ?_, h5⟩
      rcases Nat.lt_succ_iff_lt_or_eq.1 hc with hc | rfl
      · exact h4 c hc hf
      · simp [hm] at hf
    · have hm' : (src.cell row n).2 = false := by simpa using hm
      obtain ⟨v, hv⟩ := Option.isSome_iff_exists.1 (h n (by omega) hm')
      refine ⟨Function.update d row (Function.update (d row) n (v, (d row n).2)),
        by simp [absCell, hm', hv], fun r hr => by simp [hr, h1 r hr], fun c hc => ?_, fun c => ?_, fun c hc hf => ?_,
        fun c hc => ?_⟩
      · have : c ≠ n := by omega
        simp [this, h2 c (by omega)]
      · by_cases hcn : c = n
        · subst hcn; simp [h3]
        · simp [hcn, h3]
      · by_cases hcn : c = n
        · subst hcn; simp [hv]
        · simp [hcn, h4 c (by omega) hf]
      · by_cases hcn : c = n
        · subst hcn; rw [hm'] at hc; simp at hc
        · simp [hcn, h5 c hc]

theorem absRows_spec (f : α → Option α) (src : Field α) (dst : Nat → Nat → α × Bool) : ∀ n,
    (∀ r c, r < n → c < src.cols → (src.cell r c).2 = false → (f (src.cell r c).1).isSome) →
    ∃ d, (List.range n).foldlM (absRow f src) dst = some d ∧
      (∀ r, n ≤ r → d r = dst r) ∧ (∀ r c, (d r c).2 = (dst r c).2) ∧
      (∀ r c, r < n → c < src.cols → (src.cell r c).2 = false → f (src.cell r c).1 = some (d r c).1) ∧
      (∀ r c, (src.cell r c).2 = true → (d r c).1 = (dst r c).1) := by
  intro n
  induction n with
  | zero => intro _; exact ⟨dst, by simp, by simp, by simp, by simp, by simp⟩
  | succ n ih =>
    intro h
    obtain ⟨d, hd, h1, h2, h3, h4⟩ := ih fun r c hr => h r c (by omega)
    obtain ⟨e, he, e1, -, e3, e4, e5⟩ := absRow_spec f src n d src.cols (h n · (by omega))
    rw [List.range_succ, List.foldlM_append, hd]
    refine ⟨e, by simpa [absRow] using he, fun r hr => ?_, fun r c => ?_, fun r c hr hc hf => ?_, fun r c hc => ?_⟩
    · rw [e1 r (by omega), h1 r (by omega)]
    · by_cases hr : r = n
      · subst hr; rw [e3, h2]
      · rw [e1 r hr, h2]
    · by_cases hrn : r = n
      · subst hrn; exact e4 c hc hf
      · rw [e1 r hrn]; exact h3 r c (by omega) hc hf
    · by_cases hr : r = n
      · subst hr; rw [e5 c hc, h4 r c hc]
      · rw [e1 r hr, h4 r c hc]

theorem absRow_none (f : α → Option α) (src : Field α) (row : Nat) : ∀ (l : List Nat) (dst : Nat → Nat → α × Bool),
    (∃ c ∈ l, (src.cell row c).2 = false ∧ f (src.cell row c).1 = none) →
    l.foldlM (fun dst col => absCell f src dst row col) dst = none := by
  intro l
  induction l with
  | nil => rintro dst ⟨c, hc, -⟩; simp at hc
  | cons c l ih =>
    rintro dst ⟨k, hk, h1, h2⟩
    rw [List.foldlM_cons]
    rcases List.mem_cons.1 hk with rfl | hk
    · simp [absCell, h1, h2]
    · cases h : absCell f src dst row c with
      | none => rfl
      | some d => exact ih d ⟨k, hk, h1, h2⟩

theorem absRows_none (f : α → Option α) (src : Field α) : ∀ (l : List Nat) (dst : Nat → Nat → α × Bool),
    (∃ r ∈ l, ∃ c, c < src.cols ∧ (src.cell r c).2 = false ∧ f (src.cell r c).1 = none) →
    l.foldlM (absRow f src) dst = none := by
  intro l
  induction l with
  | nil => rintro dst ⟨c, hc, -⟩; simp at hc
  | cons c l ih =>
    rintro dst ⟨k, hk, col, hc, h1, h2⟩
    rw [List.foldlM_cons]
    rcases List.mem_cons.1 hk with rfl | hk
    · rw [show absRow f src dst k = none from
        absRow_none f src k _ dst ⟨col, List.mem_range.2 hc, h1, h2⟩]
      rfl
    · cases h : absRow f src dst c with
      | none => rfl
      | some d => exact ih d ⟨k, hk, col, hc, h1, h2⟩

theorem absField_ok (zero : α) (f : α → Option α) (src : Field α) (hrows : 0 < src.rows)
    (h : ∀ r c, r < src.rows → c < src.cols → (src.cell r c).2 = false → (f (src.cell r c).1).isSome) :
    ∃ dst, absField zero f src = .ok dst ∧ Cells f zero src dst := by
  obtain ⟨d, hd, -, h2, h3, h4⟩ := absRows_spec f src (fun r c => (zero, (src.cell r c).2)) src.rows h
  refine ⟨⟨src.rows, src.cols, d⟩, by simp [absField, hrows, hd], rfl, rfl, fun r c _ _ => h2 r c, fun r c hr hc hf => h3 r c hr hc hf,
    fun r c _ _ hm => h4 r c hm⟩

theorem absBoxes_ok (zero : α) (f : α → Option α) (l : List (G × Field α)) (hrows : ∀ p ∈ l, 0 < p.2.rows)
    (h : ∀ p ∈ l, ∀ r c, r < p.2.rows → c < p.2.cols → (p.2.cell r c).2 = false → (f (p.2.cell r c).1).isSome) :
    ∀ (m : List (G × Field α)) (n : List (G × Field α)) (done : List (G × Field α)), l = n ++ m → done.length = n.length →
    ∃ k, absBoxes zero f (numbered l) (numbered done) (m.mapIdx fun i p => (n.length + i, p.1)) =
      .ok (numbered (done ++ k)) ∧ List.Forall₂ (fun p q => q.1 = p.1 ∧ Cells f zero p.2 q.2) m k := by
  intro m
  induction m with
  | nil => intro n done _ _; exact ⟨[], by simp [absBoxes], .nil⟩
  | cons p m ih =>
    intro n done hl hn
    obtain ⟨g, src⟩ := p
    have hp : (g, src) ∈ l := by simp [hl]
    obtain ⟨dst, hd, hc⟩ := absField_ok zero f src (hrows _ hp) (h _ hp)
    rw [List.mapIdx_cons]
    simp only [absBoxes, numbered_value]
    have hv : (l[n.length + 0]?).map (fun p : G × Field α => p.2) = some src := by simp [hl]
    rw [hv]
    simp only [hd, Outcome.andThen, add_numbered]
    obtain ⟨k, hk, hf⟩ := ih (n ++ [(g, src)]) (done ++ [(g, dst)]) (by simp [hl]) (by simp [hn])
    refine ⟨(g, dst) :: k, ?_, .cons ⟨rfl, hc⟩ hf⟩
    rw [List.append_assoc, List.singleton_append] at hk
    rw [← hk]
    congr 1
    apply List.ext_getElem <;> simp
    intro i _; omega

theorem absBoxes_numbered (zero : α) (f : α → Option α) (l : List (G × Field α)) (hrows : ∀ p ∈ l, 0 < p.2.rows)
    (h : ∀ p ∈ l, ∀ r c, r < p.2.rows → c < p.2.cols → (p.2.cell r c).2 = false → (f (p.2.cell r c).1).isSome) :
    ∃ k, absBoxes zero f (numbered l) .empty (numbered l).domain = .ok (numbered k) ∧
      List.Forall₂ (fun p q => q.1 = p.1 ∧ Cells f zero p.2 q.2) l k := by
  obtain ⟨k, hk, hf⟩ := absBoxes_ok zero f l hrows h l [] [] (by simp) rfl
  refine ⟨k, ?_, hf⟩
  simpa [numbered, Attribute.empty] using hk

theorem absBoxes_not_ok (zero : α) (f : α → Option α) (l : List (G × Field α)) (p : G × Field α)
    (hp : ¬∃ dst, absField zero f p.2 = .ok dst) :
    ∀ (m n : List (G × Field α)) (res : Attribute G (Field α)), l = n ++ m → p ∈ m →
    ¬∃ r, absBoxes zero f (numbered l) res (m.mapIdx fun i p => (n.length + i, p.1)) = .ok r := by
  intro m
  induction m with
  | nil => intro n res _ h; simp at h
  | cons q m ih =>
    rintro n res hl hm ⟨r, hr⟩
    obtain ⟨g, src⟩ := q
    rw [List.mapIdx_cons] at hr
    simp only [absBoxes, numbered_value] at hr
    have hv : (l[n.length + 0]?).map (fun p : G × Field α => p.2) = some src := by simp [hl]
    rw [hv] at hr
    simp only at hr
    cases hd : absField zero f src with
    | fails => rw [hd] at hr; simp [Outcome.andThen] at hr
    | undefined => rw [hd] at hr; simp [Outcome.andThen] at hr
    | ok dst =>
      rw [hd] at hr
      simp only [Outcome.andThen] at hr
      cases ha : res.add g dst with
      | none => rw [ha] at hr; simp at hr
      | some x =>
        rw [ha] at hr
        obtain ⟨res', i⟩ := x
        simp only at hr
        rcases List.mem_cons.1 hm with rfl | hm
        · exact hp ⟨dst, hd⟩
        · refine ih (n ++ [(g, src)]) res' (by simp [hl]) hm ⟨r, ?_⟩
          rw [← hr]
          congr 1
          apply List.ext_getElem <;> simp
          intro i _; omega

theorem forall₂_mem_right {A B : Type} {R : A → B → Prop} {l : List A} {k : List B} (h : List.Forall₂ R l k) :
    ∀ {b : B}, b ∈ k → ∃ a, a ∈ l ∧ R a b := by
  induction h with
  | nil => intro b hb; cases hb
  | cons h1 _ ih =>
    intro b hb
    rcases List.mem_cons.1 hb with rfl | hb
    · exact ⟨_, by simp, h1⟩
    · obtain ⟨a, ha, hr⟩ := ih hb
      exact ⟨a, by simp [ha], hr⟩

theorem forall₂_imp_mem {A B : Type} {R S : A → B → Prop} : ∀ {l : List A} {k : List B},
    (∀ p q, p ∈ l → R p q → S p q) → List.Forall₂ R l k → List.Forall₂ S l k := by
  intro l
  induction l with
  | nil => intro k _ h; cases h; exact .nil
  | cons a l ih =>
    intro k hi h
    cases h with
    | cons h1 h2 => exact .cons (hi _ _ (by simp) h1) (ih (fun p q hp => hi p q (by simp [hp])) h2)

/-! ## Absolute values -/

theorem absInt_nonneg (t : IntTy) (i : Int) (h : 0 ≤ i) : absInt t i = some i := by
  simp [absInt, show ¬i < 0 by omega]

theorem absInt_of (t : IntTy) (i : Int) (h0 : t.min < i) (h1 : i ≤ t.max) : absInt t i = some |i| := by
  by_cases hi : i < 0
  · rw [abs_of_neg hi]
    unfold absInt
    rw [if_pos hi]
    cases t <;> simp [IntTy.min, IntTy.max, IntTy.signed, IntTy.bits] at h0 h1 <;>
      first
      | omega
      | (simp [IntTy.promote, IntTy.arith, IntTy.signed, IntTy.min, IntTy.max, IntTy.bits, IntTy.wrap]; omega)
  · rw [abs_of_nonneg (by omega), absInt_nonneg t i (by omega)]

theorem absInt_min (t : IntTy) (hs : t.signed = true) :
    absInt t t.min = if t.bits < 32 then some t.min else none := by
  cases t <;> first | (exact absurd hs (by decide)) | decide +kernel

theorem absFlt_eq (x : Flt) : absFlt x = magnitude x := by
  cases x with
  | fin q =>
    simp only [absFlt, magnitude]
    split
    · rw [abs_of_neg ‹_›]
    · rw [abs_of_nonneg (not_lt.1 ‹_›)]
  | _ => rfl

end Fern.StdOps
