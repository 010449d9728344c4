import Verif.Lemmas.FloatArith
import Verif.Lemmas.AggregateSum

/-! Sums of floating point numbers, one after the other or in blocks. -/

namespace Fern.FloatArith

open Fern Fern.Domains Fern.Spec Fern.Casts Fern.Casts.Spec Fern.FloatArith.Spec

/-- Whether the policy accepts a sum. -/
def inRange (q : SumPolicy) (x : Flt) : Bool :=
  match q with
  | .discard => true
  | .detect => x.isFinite

/-- An accumulator that adds numbers. `Rel s x n`: in state `s` the sum is `x`, and `n` numbers were added. -/
structure Sums {S : Type} (A : Accumulator S Flt Flt) (q : SumPolicy) (t : FltTy) (Rel : S → Flt → Nat → Prop) : Prop where
  init : Rel A.init (.fin 0) 0
  add : ∀ s x n v, Rel s x n → ∃ s', A.add s v = some (s', inRange q (plus t x v)) ∧ Rel s' (plus t x v) (n + 1)
  merge : ∀ s x n s' x' n', Rel s x n → Rel s' x' n' →
    ∃ s'', A.merge s s' = some (s'', inRange q (plus t x x')) ∧ Rel s'' (plus t x x') (n + n')

theorem sumFlt_sums (q : SumPolicy) (t : FltTy) : Sums (sumFlt q t) q t (fun s x _ => s = x) where
  init := rfl
  add := by
    rintro s x n v rfl
    refine ⟨_, ?_, rfl⟩
    cases q <;> cases t <;> rfl
  merge := by
    rintro s x n s' x' n' rfl rfl
    refine ⟨_, ?_, rfl⟩
    cases q <;> cases t <;> rfl

theorem meanFlt_sums (q : SumPolicy) (t : FltTy) : Sums (meanFlt q t) q t (fun s x n => s = (x, n)) where
  init := rfl
  add := by
    rintro s x n v rfl
    refine ⟨_, ?_, rfl⟩
    cases q <;> cases t <;> rfl
  merge := by
    rintro s x n s' x' n' rfl rfl
    refine ⟨_, ?_, rfl⟩
    cases q <;> cases t <;> rfl

/-- What is known about the sum of values in any order of adding, and when this is sure not to become too large. -/
structure SumInv (t : FltTy) (Inv : List Flt → Rat → Prop) (Ok : List Flt → Prop) : Prop where
  nil : Inv [] 0
  one : ∀ q, Represents t.num q → Inv [.fin q] q
  join : ∀ a x b y r, Inv a x → Inv b y → t.round (x + y) = .fin r → Inv (a ++ b) r
  safe : ∀ a x b y, Inv a x → Inv b y → Ok (a ++ b) → ¬ TooLarge t (x + y)
  part : ∀ a b c, Ok (a ++ b ++ c) → Ok b

section

variable {S : Type} {A : Accumulator S Flt Flt} {q : SumPolicy} {t : FltTy} {Rel : S → Flt → Nat → Prop}
  {Inv : List Flt → Rat → Prop} {Ok : List Flt → Prop}

/-- The sum of the values is as it should be. -/
def Good (q : SumPolicy) (Inv : List Flt → Rat → Prop) (Ok : List Flt → Prop) (a : List Flt) (x : Flt) : Prop :=
  (∀ r, x = .fin r → Inv a r) ∧ (Ok a → x.isFinite = true) ∧ (q = .detect → x.isFinite = true)

theorem plus_finite {t : FltTy} {x y : Flt} (h : (plus t x y).isFinite = true) :
    ∃ a b, x = .fin a ∧ y = .fin b ∧ plus t x y = t.round (a + b) := by
  cases x <;> cases y <;> first | exact ⟨_, _, rfl, rfl, rfl⟩ | cases h

theorem good_join (hI : SumInv t Inv Ok) {a b : List Flt} {x y : Flt} (hx : Good q Inv Ok a x) (hy : Good q Inv Ok b y)
    (hr : inRange q (plus t x y) = true) : Good q Inv Ok (a ++ b) (plus t x y) := by
  refine ⟨fun r h => ?_, fun h => ?_, fun h => ?_⟩
  · obtain ⟨u, v, rfl, rfl, hp⟩ := plus_finite (t := t) (x := x) (y := y) (by rw [h]; rfl)
    exact hI.join a u b v r (hx.1 u rfl) (hy.1 v rfl) (by rw [← hp, h])
  · have ha : Ok a := hI.part [] a b (by simpa using h)
    have hb : Ok b := hI.part a b [] (by simpa using h)
    have h1 := hx.2.1 ha
    have h2 := hy.2.1 hb
    cases x with
    | fin u =>
      cases y with
      | fin v => exact (round_finite t _).2 (hI.safe a u b v (hx.1 u rfl) (hy.1 v rfl) h)
      | _ => cases h2
    | _ => cases h1
  · subst h
    exact hr

theorem bad_join (hI : SumInv t Inv Ok) {a b : List Flt} {x y : Flt} (hx : Good q Inv Ok a x) (hy : Good q Inv Ok b y)
    (hr : inRange q (plus t x y) = false) : q = .detect ∧ ¬ Ok (a ++ b) := by
  have hq : q = .detect := by
    cases q with
    | discard => cases hr
    | detect => rfl
  refine ⟨hq, fun h => ?_⟩
  subst hq
  have h1 := hx.2.2 rfl
  have h2 := hy.2.2 rfl
  cases x with
  | fin u =>
    cases y with
    | fin v =>
      have := (round_finite t _).2 (hI.safe a u b v (hx.1 u rfl) (hy.1 v rfl) h)
      simp only [inRange, plus] at hr
      rw [this] at hr
      cases hr
    | _ => cases h2
  | _ => cases h1

theorem good_nil (hI : SumInv t Inv Ok) : Good q Inv Ok [] (.fin 0) :=
  ⟨fun r h => by cases h; exact hI.nil, fun _ => rfl, fun _ => rfl⟩

theorem good_one (hI : SumInv t Inv Ok) {v : Flt} (hv : ∃ q, v = .fin q ∧ Represents t.num q) : Good q Inv Ok [v] v := by
  obtain ⟨u, rfl, hu⟩ := hv
  exact ⟨fun r h => by cases h; exact hI.one u hu, fun _ => rfl, fun _ => rfl⟩

theorem addAll_sums (hA : Sums A q t Rel) (hI : SumInv t Inv Ok) (vs : List Flt) (hv : FiniteValues t vs)
    (a : List Flt) (s : S) (x : Flt) (n : Nat) (hs : Rel s x n) (hx : Good q Inv Ok a x) :
    ∃ ok s', addAll A vs s = some (ok, s') ∧
      (ok = true → ∃ x', Rel s' x' (n + vs.length) ∧ Good q Inv Ok (a ++ vs) x') ∧
      (ok = false → q = .detect ∧ ¬ Ok (a ++ vs)) := by
  induction vs generalizing a s x n with
  | nil => exact ⟨true, s, rfl, fun _ => ⟨x, hs, by simpa using hx⟩, fun h => by cases h⟩
  | cons v vs ih =>
    obtain ⟨s1, h1, h2⟩ := hA.add s x n v hs
    have hg := good_one (q := q) hI (hv v (by simp))
    rw [addAll, h1, Option.bind_some]
    cases hr : inRange q (plus t x v) with
    | true =>
      obtain ⟨ok, s', e1, e2, e3⟩ := ih (fun w hw => hv w (by simp [hw])) (a ++ [v]) s1 _ (n + 1) h2 (good_join hI hx hg hr)
      refine ⟨ok, s', by simpa using e1, fun h => ?_, fun h => by simpa using e3 h⟩
      obtain ⟨x', r1, r2⟩ := e2 h
      refine ⟨x', ?_, by simpa using r2⟩
      rw [List.length_cons, show n + (vs.length + 1) = n + 1 + vs.length by omega]
      exact r1
    | false =>
      obtain ⟨b1, b2⟩ := bad_join hI hx hg hr
      refine ⟨false, s1, rfl, fun h => (by cases h), fun _ => ⟨b1, fun h => b2 ?_⟩⟩
      exact hI.part [] (a ++ [v]) vs (by simpa using h)

/-- What a block returns. -/
def BlockGood (q : SumPolicy) (Rel : S → Flt → Nat → Prop) (Inv : List Flt → Rat → Prop) (Ok : List Flt → Prop)
    (vs : List Flt) (b : Aggregated S) : Prop :=
  (vs = [] → b.initialized = false) ∧
  (vs ≠ [] → b.initialized = true ∧
    (b.withinRange = true → ∃ x, Rel b.acc x vs.length ∧ Good q Inv Ok vs x) ∧
    (b.withinRange = false → q = .detect ∧ ¬ Ok vs))

theorem aggregated_sums (hA : Sums A q t Rel) (hI : SumInv t Inv Ok) (vs : List Flt) (hv : FiniteValues t vs) :
    ∃ b, aggregated A vs = some b ∧ BlockGood q Rel Inv Ok vs b := by
  cases vs with
  | nil => exact ⟨_, rfl, fun _ => rfl, fun h => absurd rfl h⟩
  | cons v vs =>
    obtain ⟨ok, s', e1, e2, e3⟩ := addAll_sums hA hI (v :: vs) hv [] A.init (.fin 0) 0 hA.init (good_nil hI)
    refine ⟨⟨true, ok, s'⟩, by simp [aggregated, e1], fun h => (by cases h), fun _ => ⟨rfl, fun h => ?_, fun h => ?_⟩⟩
    · obtain ⟨x, r1, r2⟩ := e2 h
      exact ⟨x, by simpa using r1, by simpa using r2⟩
    · simpa using e3 h

/-- What is stored in the end. -/
def FinalGood (q : SumPolicy) (Rel : S → Flt → Nat → Prop) (Inv : List Flt → Rat → Prop) (Ok : List Flt → Prop)
    (vs : List Flt) (b : Aggregated S) : Prop :=
  (vs = [] → (b.initialized && b.withinRange) = false) ∧
  (vs ≠ [] → ((b.initialized && b.withinRange) = true ∧ ∃ x, Rel b.acc x vs.length ∧ Good q Inv Ok vs x) ∨
    ((b.initialized && b.withinRange) = false ∧ q = .detect ∧ ¬ Ok vs))

theorem BlockGood.final {vs : List Flt} {b : Aggregated S} (h : BlockGood q Rel Inv Ok vs b) :
    FinalGood q Rel Inv Ok vs b := by
  refine ⟨fun e => by rw [h.1 e]; rfl, fun e => ?_⟩
  obtain ⟨h1, h2, h3⟩ := h.2 e
  cases hw : b.withinRange with
  | true => exact Or.inl ⟨by rw [h1]; rfl, h2 hw⟩
  | false => exact Or.inr ⟨by rw [h1]; rfl, h3 hw⟩

theorem mapM_sums (hA : Sums A q t Rel) (hI : SumInv t Inv Ok) (vss : List (List Flt))
    (hv : ∀ vs ∈ vss, FiniteValues t vs) :
    ∃ bs, vss.mapM (aggregated A) = some bs ∧ List.Forall₂ (BlockGood q Rel Inv Ok) vss bs := by
  induction vss with
  | nil => exact ⟨[], rfl, List.Forall₂.nil⟩
  | cons vs vss ih =>
    obtain ⟨b, hb, hg⟩ := aggregated_sums hA hI vs (hv vs (by simp))
    obtain ⟨bs, hbs, hgs⟩ := ih fun l hl => hv l (by simp [hl])
    exact ⟨b :: bs, by simp [List.mapM_cons, hb, hbs], List.Forall₂.cons hg hgs⟩

theorem mergeBlocks_sums (hA : Sums A q t Rel) (hI : SumInv t Inv Ok) (vss : List (List Flt)) (bs : List (Aggregated S))
    (h : List.Forall₂ (BlockGood q Rel Inv Ok) vss bs) (pre : List Flt) (a : Aggregated S) (x : Flt)
    (hs : Rel a.acc x pre.length) (hx : Good q Inv Ok pre x) (h0 : pre = [] → a.initialized = false)
    (h1 : pre ≠ [] → a.initialized = true ∧ a.withinRange = true) :
    ∃ b, mergeBlocks A bs a = some b ∧ FinalGood q Rel Inv Ok (pre ++ vss.flatten) b := by
  induction h generalizing pre a x with
  | nil =>
    refine ⟨a, rfl, fun e => ?_, fun e => ?_⟩
    · rw [h0 (by simpa using e)]; rfl
    · obtain ⟨i, w⟩ := h1 (by simpa using e)
      exact Or.inl ⟨by rw [i, w]; rfl, x, by simpa using hs, by simpa using hx⟩
  | @cons vs b vss bs hb hbs ih =>
    by_cases he : vs = []
    · subst he
      obtain ⟨c, e1, e2⟩ := ih pre a x hs hx h0 h1
      exact ⟨c, by rw [mergeBlocks, hb.1 rfl]; exact e1, by simpa using e2⟩
    · obtain ⟨i, w1, w2⟩ := hb.2 he
      rw [mergeBlocks, i, if_pos rfl]
      cases hw : b.withinRange with
      | true =>
        rw [if_pos rfl]
        obtain ⟨y, r1, r2⟩ := w1 hw
        obtain ⟨s'', m1, m2⟩ := hA.merge _ _ _ _ _ _ hs r1
        rw [m1, Option.bind_eq_bind, Option.bind_some]
        cases hr : inRange q (plus t x y) with
        | true =>
          obtain ⟨c, e1, e2⟩ := ih (pre ++ vs) ⟨true, true, s''⟩ _ (by rw [List.length_append]; exact m2)
            (good_join hI hx r2 hr) (fun e => by simp [he] at e) (fun _ => ⟨rfl, rfl⟩)
          exact ⟨c, by simpa using e1, by simpa using e2⟩
        | false =>
          obtain ⟨b1, b2⟩ := bad_join hI hx r2 hr
          refine ⟨⟨true, false, s''⟩, by simp, fun e => by simp [he] at e, fun _ => Or.inr ⟨rfl, b1, fun h => b2 ?_⟩⟩
          exact hI.part [] (pre ++ vs) vss.flatten (by simpa using h)
      | false =>
        obtain ⟨b1, b2⟩ := w2 hw
        refine ⟨{ a with withinRange := false }, by simp, fun e => by simp [he] at e,
          fun _ => Or.inr ⟨by simp, b1, fun h => b2 ?_⟩⟩
        exact hI.part pre vs vss.flatten (by simpa using h)

theorem parallel_sums (hA : Sums A q t Rel) (hI : SumInv t Inv Ok) (vss : List (List Flt))
    (hv : FiniteValues t vss.flatten) :
    ∃ b, ((vss.mapM (aggregated A)).bind fun bs => mergeBlocks A bs ⟨false, false, A.init⟩) = some b ∧
      FinalGood q Rel Inv Ok vss.flatten b := by
  obtain ⟨bs, e1, e2⟩ := mapM_sums hA hI vss fun vs hvs v hm => hv v (List.mem_flatten.2 ⟨vs, hvs, hm⟩)
  obtain ⟨b, e3, e4⟩ := mergeBlocks_sums hA hI vss bs e2 [] ⟨false, false, A.init⟩ (.fin 0) hA.init (good_nil hI)
    (fun _ => rfl) (fun h => absurd rfl h)
  exact ⟨b, by rw [e1, Option.bind_some, e3], by simpa using e4⟩

theorem sums_firstInRange (hA : Sums A q t Rel) (vs : List Flt) (hv : FiniteValues t vs) : FirstInRange A vs := by
  intro v hm s ok h
  obtain ⟨s', e, -⟩ := hA.add _ _ _ v hA.init
  rw [e] at h
  cases h
  obtain ⟨u, rfl, hu⟩ := hv v hm
  cases q
  · rfl
  · simp [inRange, plus, round_exact t hu, Flt.isFinite]

end

/-! ### Errors -/

theorem total_append (a b : List Flt) : total (a ++ b) = total a + total b := by simp [total]

theorem magnitude_append (a b : List Flt) : magnitude (a ++ b) = magnitude a + magnitude b := by simp [magnitude]

theorem magnitude_nonneg (a : List Flt) : 0 ≤ magnitude a := by
  refine List.sum_nonneg ?_
  simp only [List.mem_map]
  rintro x ⟨v, -, rfl⟩
  exact abs_nonneg _

theorem total_le (a : List Flt) : |total a| ≤ magnitude a := by
  induction a with
  | nil => simp [total, magnitude]
  | cons v a ih =>
    have : total (v :: a) = number v + total a := rfl
    have h2 : magnitude (v :: a) = |number v| + magnitude a := rfl
    rw [this, h2]
    exact (abs_add_le _ _).trans (by linarith)

/-- How near the sum is. -/
def Near (t : FltTy) (a : List Flt) (r : Rat) : Prop :=
  Represents t.num r ∧ |r - total a| ≤ sumError t a.length (magnitude a)

/-- The magnitude is far enough from the limit. -/
def Bounded (t : FltTy) (a : List Flt) : Prop := (1 + unit t) ^ (a.length - 1) * magnitude a < limit t

theorem factor_mono (t : FltTy) {m n : Nat} (h : m ≤ n) : (1 + unit t) ^ m ≤ (1 + unit t) ^ n :=
  pow_le_pow_right₀ (by have := unit_pos t; linarith) h

theorem one_le_factor (t : FltTy) (n : Nat) : 1 ≤ (1 + unit t) ^ n :=
  one_le_pow₀ (by have := unit_pos t; linarith)

theorem Near.le {t : FltTy} {a : List Flt} {r : Rat} (h : Near t a r) :
    |r| ≤ (1 + unit t) ^ (a.length - 1) * magnitude a := by
  have h1 := h.2
  have h2 := total_le a
  rw [sumError] at h1
  have : |r| ≤ |r - total a| + |total a| := by
    calc |r| = |(r - total a) + total a| := by ring_nf
      _ ≤ _ := abs_add_le _ _
  linarith

theorem near_empty {t : FltTy} {a : List Flt} {r : Rat} (h : Near t a r) (ha : a = []) : r = 0 := by
  subst ha
  have := h.2
  simp [sumError, total, magnitude] at this
  exact this

/-- The factor for a part of the values is not larger than the one for all. -/
theorem part_le (t : FltTy) (a b : List Flt) : (1 + unit t) ^ (a.length - 1) * magnitude a +
    (1 + unit t) ^ (b.length - 1) * magnitude b ≤ (1 + unit t) ^ ((a ++ b).length - 1) * magnitude (a ++ b) := by
  rw [magnitude_append, mul_add, List.length_append]
  exact add_le_add (mul_le_mul_of_nonneg_right (factor_mono t (by omega)) (magnitude_nonneg a))
    (mul_le_mul_of_nonneg_right (factor_mono t (by omega)) (magnitude_nonneg b))

theorem near_inv (t : FltTy) : SumInv t (Near t) (Bounded t) where
  nil := by
    refine ⟨?_, by simp [sumError, total, magnitude]⟩
    have := represents_small t (i := 0) (by cases t <;> decide)
    simpa using this
  one q hq := ⟨hq, by simp [sumError, total, number]⟩
  join a x b y r hx hy hr := by
    have hrep : Represents t.num r := (represents_num t r).2
      (C91_round_nearest t.bits_pos t.lo_le_hi _ _ hr).1
    refine ⟨hrep, ?_⟩
    by_cases ha : a = []
    · have hx0 := near_empty hx ha
      subst ha hx0
      rw [zero_add, round_exact t hy.1] at hr
      cases hr
      simpa using hy.2
    · by_cases hb : b = []
      · have hy0 := near_empty hy hb
        subst hb hy0
        rw [add_zero, round_exact t hx.1] at hr
        cases hr
        simpa using hx.2
      · have e := sum_error hx.1 hy.1 hr
        have h1 := hx.2
        have h2 := hy.2
        have l1 := hx.le
        have l2 := hy.le
        rw [sumError] at h1 h2
        have la : 1 ≤ a.length := by
          cases a
          · exact absurd rfl ha
          · simp
        have lb : 1 ≤ b.length := by
          cases b
          · exact absurd rfl hb
          · simp
        have hu := unit_pos t
        have f1 : (1 + unit t) ^ (a.length - 1) * (1 + unit t) ≤ (1 + unit t) ^ (a.length + b.length - 1) := by
          rw [← pow_succ]
          exact factor_mono t (by omega)
        have f2 : (1 + unit t) ^ (b.length - 1) * (1 + unit t) ≤ (1 + unit t) ^ (a.length + b.length - 1) := by
          rw [← pow_succ]
          exact factor_mono t (by omega)
        have g1 := mul_le_mul_of_nonneg_right f1 (magnitude_nonneg a)
        have g2 := mul_le_mul_of_nonneg_right f2 (magnitude_nonneg b)
        rw [sumError, total_append, magnitude_append, List.length_append]
        have s1 : |r - (total a + total b)| ≤ |x + y - r| + |x - total a| + |y - total b| := by
          have : r - (total a + total b) = -(x + y - r) + (x - total a) + (y - total b) := by ring
          rw [this]
          refine (abs_add_le _ _).trans (add_le_add ((abs_add_le _ _).trans (add_le_add ?_ le_rfl)) le_rfl)
          rw [abs_neg]
        have s2 : unit t * |x + y| ≤ unit t * ((1 + unit t) ^ (a.length - 1) * magnitude a +
            (1 + unit t) ^ (b.length - 1) * magnitude b) := by
          refine mul_le_mul_of_nonneg_left ((abs_add_le x y).trans (add_le_add l1 l2)) hu.le
        nlinarith
  safe a x b y hx hy h := by
    rw [Bounded] at h
    rw [TooLarge, not_le]
    calc |x + y| ≤ |x| + |y| := abs_add_le x y
      _ ≤ _ := add_le_add hx.le hy.le
      _ ≤ _ := part_le t a b
      _ < limit t := h
  part a b c h := by
    rw [Bounded] at h ⊢
    refine lt_of_le_of_lt ?_ h
    have h1 := part_le t (a ++ b) c
    have h2 := part_le t a b
    have f : ∀ l : List Flt, 0 ≤ (1 + unit t) ^ (l.length - 1) * magnitude l := fun l =>
      mul_nonneg (by have := one_le_factor t (l.length - 1); linarith) (magnitude_nonneg l)
    have f1 := f a
    have f2 := f c
    linarith

/-! ### Exact sums -/

/-- The values are multiples of `2 ^ e`. -/
def Multiples (e : Int) (a : List Flt) : Prop := ∀ v ∈ a, ∃ k : Int, v = .fin (k * 2 ^ e)

/-- The sum is exact, provided that the values are multiples of `2 ^ e` and small. -/
def Exact (t : FltTy) (e : Int) (a : List Flt) (r : Rat) : Prop :=
  Represents t.num r ∧ (Multiples e a → magnitude a ≤ 2 ^ t.bits * 2 ^ e → r = total a)

theorem total_multiple {e : Int} {a : List Flt} (h : Multiples e a) : ∃ k : Int, total a = k * 2 ^ e := by
  induction a with
  | nil => exact ⟨0, by simp [total]⟩
  | cons v a ih =>
    obtain ⟨k, hk⟩ := ih fun w hw => h w (by simp [hw])
    obtain ⟨j, rfl⟩ := h v (by simp)
    refine ⟨j + k, ?_⟩
    have : total (.fin (j * 2 ^ e) :: a) = j * 2 ^ e + total a := rfl
    rw [this, hk]
    push_cast
    ring

theorem represents_multiple {t : FltTy} {e k : Int} (h1 : t.lo ≤ e) (h2 : e < t.hi) (h : |(k : Rat) * 2 ^ e| ≤ 2 ^ t.bits * 2 ^ e) :
    Represents t.num (k * 2 ^ e) := by
  rw [abs_mul, abs_of_pos (two_zpow_pos e)] at h
  have h := le_of_mul_le_mul_right h (two_zpow_pos e)
  have h : |k| ≤ 2 ^ t.bits := by exact_mod_cast h
  rw [represents_num, floatValue_iff]
  rcases h.lt_or_eq with h | h
  · exact ⟨k, e, h, h1, h2.le, rfl⟩
  · have hb := t.bits_pos
    have hp : (2 : Int) ^ t.bits = 2 ^ (t.bits - 1) * 2 := by
      rw [← pow_succ]; congr 1; omega
    have hlt : (2 : Int) ^ (t.bits - 1) < 2 ^ t.bits := pow_lt_pow_right₀ (by norm_num) (by omega)
    rcases (abs_eq (by positivity)).1 h with rfl | rfl
    · refine ⟨2 ^ (t.bits - 1), e + 1, ?_, by omega, by omega, ?_⟩
      · rw [abs_of_pos (by positivity)]; exact hlt
      · rw [hp, zpow_add₀ (by norm_num)]; push_cast; ring
    · refine ⟨-2 ^ (t.bits - 1), e + 1, ?_, by omega, by omega, ?_⟩
      · rw [abs_neg, abs_of_pos (by positivity)]; exact hlt
      · rw [hp, zpow_add₀ (by norm_num)]; push_cast; ring

theorem not_large_of_represents {t : FltTy} {q : Rat} (h : Represents t.num q) : ¬ TooLarge t q :=
  (round_finite t q).1 (by rw [round_exact t h]; rfl)

theorem exact_inv (t : FltTy) (e : Int) (h1 : t.lo ≤ e) (h2 : e < t.hi) :
    SumInv t (Exact t e) (fun a => Multiples e a ∧ magnitude a ≤ 2 ^ t.bits * 2 ^ e) := by
  have parts : ∀ a b c : List Flt, Multiples e (a ++ b ++ c) → magnitude (a ++ b ++ c) ≤ 2 ^ t.bits * 2 ^ e →
      Multiples e b ∧ magnitude b ≤ 2 ^ t.bits * 2 ^ e := fun a b c h1 h2 => by
    refine ⟨fun v hv => h1 v (by simp [hv]), ?_⟩
    rw [magnitude_append, magnitude_append] at h2
    have := magnitude_nonneg a
    have := magnitude_nonneg c
    linarith
  have rep : ∀ a b : List Flt, Multiples e (a ++ b) → magnitude (a ++ b) ≤ 2 ^ t.bits * 2 ^ e →
      Represents t.num (total a + total b) := fun a b hm hl => by
    rw [← total_append]
    obtain ⟨k, hk⟩ := total_multiple hm
    rw [hk]
    refine represents_multiple h1 h2 ?_
    rw [← hk]
    exact (total_le _).trans hl
  refine ⟨?_, fun q hq => ⟨hq, fun _ _ => by simp [total, number]⟩, ?_, ?_, ?_⟩
  · refine ⟨?_, fun _ _ => rfl⟩
    have := represents_small t (i := 0) (by cases t <;> decide)
    simpa using this
  · intro a x b y r hx hy hr
    refine ⟨(represents_num t r).2 (C91_round_nearest t.bits_pos t.lo_le_hi _ _ hr).1, fun hm hl => ?_⟩
    obtain ⟨a1, a2⟩ := parts [] a b (by simpa using hm) (by simpa using hl)
    obtain ⟨b1, b2⟩ := parts a b [] (by simpa using hm) (by simpa using hl)
    rw [hx.2 a1 a2, hy.2 b1 b2, round_exact t (rep a b hm hl)] at hr
    cases hr
    rw [total_append]
  · rintro a x b y hx hy ⟨hm, hl⟩
    obtain ⟨a1, a2⟩ := parts [] a b (by simpa using hm) (by simpa using hl)
    obtain ⟨b1, b2⟩ := parts a b [] (by simpa using hm) (by simpa using hl)
    rw [hx.2 a1 a2, hy.2 b1 b2]
    exact not_large_of_represents (rep a b hm hl)
  · rintro a b c ⟨hm, hl⟩
    exact parts a b c hm hl

end Fern.FloatArith
