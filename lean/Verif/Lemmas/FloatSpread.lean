import Verif.Lemmas.FloatSum
import Verif.Lemmas.FloatVector
import Verif.Model.FloatSpread
import Verif.Spec.FloatSpread

/-! # Variances of floating point numbers -/

namespace Fern.FloatSpread

open Fern Fern.Domains Fern.Spec Fern.Casts Fern.FloatArith Fern.FloatArith.Spec
open Fern.FloatVector (round_represents round_some)
open _root_.Fern.FloatSpread.Spec

variable {t : FltTy}

/-! ### Signs -/

theorem round_not_negative (t : FltTy) {q : Rat} (h : 0 ≤ q) : NotNegative (t.round q) := by
  obtain ⟨h1, h2⟩ := round_rounded t q
  by_cases hl : TooLarge t q
  · rw [h1 hl]
    by_cases h0 : 0 < q
    · simp [h0, NotNegative]
    · have : q = 0 := le_antisymm (not_lt.1 h0) h
      subst this
      exfalso
      have h3 : limit t ≤ |0| := hl
      rw [abs_zero] at h3
      have : 0 < limit t := by cases t <;> simp only [limit] <;> positivity
      linarith
  · obtain ⟨r, hr, hn, -⟩ := h2 hl
    refine .inr (.inr ⟨r, hr, ?_⟩)
    have h0 : t.round 0 = .fin 0 := round_exact t (by
      have := represents_small t (i := 0) (by cases t <;> decide)
      simpa using this)
    have := round_mono t h
    rw [h0, hr] at this
    simpa [Flt.le] using this

theorem round_not_nan (t : FltTy) (q : Rat) : t.round q ≠ .nan := by
  obtain ⟨h1, h2⟩ := round_rounded t q
  by_cases hl : TooLarge t q
  · rw [h1 hl]
    split <;> simp
  · obtain ⟨r, hr, -⟩ := h2 hl
    rw [hr]
    simp

theorem plus_not_negative {a b : Flt} (ha : NotNegative a) (hb : NotNegative b) : NotNegative (plus t a b) := by
  rcases ha with rfl | rfl | ⟨x, rfl, hx⟩ <;> rcases hb with rfl | rfl | ⟨y, rfl, hy⟩ <;>
    first
      | exact round_not_negative t (add_nonneg hx hy)
      | simp [plus, NotNegative]

theorem square_not_negative (d : Flt) : NotNegative (times t d d) := by
  cases d with
  | fin x => exact round_not_negative t (mul_self_nonneg x)
  | _ => simp [times, NotNegative]

theorem quotient_not_negative {a : Flt} (ha : NotNegative a) {q : Rat} (hq : 0 < q) :
    ∃ f, over t a (.fin q) = some f ∧ NotNegative f := by
  rcases ha with rfl | rfl | ⟨x, rfl, hx⟩
  · exact ⟨.nan, rfl, .inl rfl⟩
  · exact ⟨.inf, by simp [over, hq.ne', infinite, hq], .inr (.inl rfl)⟩
  · exact ⟨_, by simp [over, hq.ne'], round_not_negative t (div_nonneg hx hq.le)⟩

/-! ### Counts -/

theorem count_positive (t : FltTy) {n : Nat} (h : 0 < n) : (∃ q : Rat, t.round n = .fin q ∧ 1 ≤ q) ∨ t.round n = .inf := by
  have h1 : (1 : Rat) ≤ n := by exact_mod_cast h
  have e1 : t.round 1 = .fin 1 := round_exact t (by
    have := represents_small t (i := 1) (by cases t <;> decide)
    simpa using this)
  have := round_mono t h1
  rw [e1] at this
  cases hc : t.round (n : Rat) with
  | fin q => rw [hc] at this; exact .inl ⟨q, rfl, by simpa [Flt.le] using this⟩
  | inf => exact .inr rfl
  | negInf => rw [hc] at this; simp [Flt.le] at this
  | nan => rw [hc] at this; simp [Flt.le] at this

theorem divideBy_exact {n : Nat} (hn : (n : Int) ≤ small t) (h : 0 < n) (x : Rat) :
    divideBy t (.fin x) n = some (t.round (x / n)) := by
  have e : t.round (n : Rat) = .fin n := round_exact t (by
    have := represents_small t (i := (n : Int)) (by rw [Nat.abs_cast]; exact hn)
    simpa using this)
  have h0 : (n : Rat) ≠ 0 := by exact_mod_cast h.ne'
  simp [divideBy, e, over, h0]

/-! ### States -/

/-- What the state is. -/
theorem accumulated_state {vs : List Flt} {s : SpreadState Flt} (h : Accumulated (varianceAcc (fltSpreadOps t)) vs s) :
    s.count = vs.length ∧ s.values = vs := by
  induction h with
  | init => exact ⟨rfl, rfl⟩
  | add vs s s' v ok _ hadd ih =>
    cases hadd
    exact ⟨by simp [ih.1], by simp [ih.2]⟩
  | merge vs vs' s s' s'' ok _ _ hm ih ih' =>
    cases hm
    exact ⟨by simp [ih.1, ih'.1], by simp [ih.2, ih'.2]⟩

/-- What the sum is. -/
theorem accumulated_sum {Inv : List Flt → Rat → Prop} {Ok : List Flt → Prop} (hI : SumInv t Inv Ok) {vs : List Flt}
    {s : SpreadState Flt} (h : Accumulated (varianceAcc (fltSpreadOps t)) vs s) (hv : FiniteValues t vs) :
    Good .discard Inv Ok vs s.sum := by
  induction h with
  | init => exact good_nil hI
  | add vs s s' v ok _ hadd ih =>
    cases hadd
    exact good_join hI (ih fun u hu => hv u (List.mem_append_left _ hu)) (good_one hI (hv v (by simp))) rfl
  | merge vs vs' s s' s'' ok _ _ hm ih ih' =>
    cases hm
    exact good_join hI (ih fun u hu => hv u (List.mem_append_left _ hu)) (ih' fun u hu => hv u (List.mem_append_right _ hu)) rfl

/-- The loop. -/
theorem squaresLoop_eq (m r : Flt) (vs : List Flt) :
    squaresLoop (fltSpreadOps t) m r vs =
      some ((vs.map fun v => times t (minus t m v) (minus t m v)).foldl (plus t) r) := by
  induction vs generalizing r with
  | nil => rfl
  | cons v vs ih =>
    show squaresLoop (fltSpreadOps t) m (plus t r (times t (minus t m v) (minus t m v))) vs = _
    rw [ih]
    rfl

theorem fold_not_negative (ps : List Flt) (hp : ∀ p ∈ ps, NotNegative p) {r : Flt} (hr : NotNegative r) :
    NotNegative (ps.foldl (plus t) r) := by
  induction ps generalizing r with
  | nil => exact hr
  | cons p ps ih =>
    exact ih (fun q hq => hp q (List.mem_cons_of_mem _ hq)) (plus_not_negative hr (hp p (by simp)))

/-! ### Squares -/

theorem limit_one (t : FltTy) : 1 ≤ limit t := by
  cases t with
  | single => simp only [limit]; norm_num
  | double =>
    have h : (1 : Rat) ≤ 2 ^ 971 := one_le_pow₀ (by norm_num)
    simp only [limit]
    generalize (2 : Rat) ^ 971 = x at h
    norm_num
    linarith

theorem square_error {m x : Rat} (hm : Represents t.num m) (hx : Represents t.num x)
    (hl : (1 + unit t) ^ 2 * (x - m) ^ 2 < limit t) :
    ∃ p, times t (minus t (.fin m) (.fin x)) (minus t (.fin m) (.fin x)) = .fin p ∧ Represents t.num p ∧
      |p - (x - m) ^ 2| ≤ ((1 + unit t) ^ 3 - 1) * (x - m) ^ 2 + tiny t := by
  have hu := unit_pos t
  have h1 : |m + -x| < limit t := by
    by_contra hc
    rw [not_lt] at hc
    have h2 := limit_one t
    have h3 : limit t * 1 ≤ |m + -x| * |m + -x| := mul_le_mul hc (h2.trans hc) (by norm_num) (abs_nonneg _)
    rw [abs_mul_abs_self] at h3
    have h4 : (m + -x) * (m + -x) = (x - m) ^ 2 := by ring
    rw [h4] at h3
    have h5 : (x - m) ^ 2 ≤ (1 + unit t) ^ 2 * (x - m) ^ 2 := by
      refine le_mul_of_one_le_left (sq_nonneg _) ?_
      nlinarith
    linarith
  obtain ⟨d, hd⟩ := round_some (t := t) h1
  have e1 := sum_error hm (represents_neg hx) hd
  have hmin : minus t (.fin m) (.fin x) = .fin d := hd
  have hda : |d| ≤ (1 + unit t) * |x - m| := by
    have : d = (m + -x) - (m + -x - d) := by ring
    have h2 : |m + -x| = |x - m| := by rw [abs_sub_comm, sub_eq_add_neg]
    rw [h2] at e1
    calc |d| = |(m + -x) - (m + -x - d)| := by rw [← this]
      _ ≤ |m + -x| + |m + -x - d| := abs_sub _ _
      _ ≤ _ := by rw [h2]; linarith
  have hdb : (1 - unit t) * |x - m| ≤ |d| := by
    have h2 : |m + -x| = |x - m| := by rw [abs_sub_comm, sub_eq_add_neg]
    rw [h2] at e1
    have : |m + -x| ≤ |m + -x - d| + |d| := by
      have := abs_add_le (m + -x - d) d
      rwa [sub_add_cancel] at this
    rw [h2] at this
    linarith
  have hsq : |x - m| * |x - m| = (x - m) ^ 2 := by rw [abs_mul_abs_self]; ring
  have hu1 := unit_lt_one t
  have hd1 : d * d ≤ (1 + unit t) ^ 2 * (x - m) ^ 2 := by
    rw [← abs_mul_abs_self d, ← hsq]
    have := mul_le_mul hda hda (abs_nonneg _) (mul_nonneg (by linarith) (abs_nonneg _))
    linarith
  have hd2 : (1 - unit t) ^ 2 * (x - m) ^ 2 ≤ d * d := by
    rw [← abs_mul_abs_self d, ← hsq]
    have := mul_le_mul hdb hdb (mul_nonneg (by linarith) (abs_nonneg _)) (abs_nonneg _)
    linarith
  obtain ⟨p, hp⟩ := round_some (t := t) (x := d * d) (by
    rw [abs_of_nonneg (mul_self_nonneg d)]
    exact hd1.trans_lt hl)
  refine ⟨p, by rw [hmin]; exact hp, round_represents hp, ?_⟩
  have e2 : |d * d - p| ≤ unit t * (d * d) + tiny t := by
    have := round_error hp
    rw [abs_of_nonneg (mul_self_nonneg d)] at this
    refine this.trans (max_le ?_ ?_)
    · have := (tiny_pos t).le
      linarith
    · have := mul_nonneg hu.le (mul_self_nonneg d)
      linarith
  have hy := sq_nonneg (x - m)
  have e3 : |d * d - (x - m) ^ 2| ≤ ((1 + unit t) ^ 2 - 1) * (x - m) ^ 2 := by
    rw [abs_le]
    constructor
    · have : (1 - unit t) ^ 2 * (x - m) ^ 2 + ((1 + unit t) ^ 2 - 1) * (x - m) ^ 2 ≥ (x - m) ^ 2 := by
        have : (1 - unit t) ^ 2 * (x - m) ^ 2 + ((1 + unit t) ^ 2 - 1) * (x - m) ^ 2 =
            (x - m) ^ 2 + 2 * unit t ^ 2 * (x - m) ^ 2 := by ring
        have h3 : 0 ≤ 2 * unit t ^ 2 * (x - m) ^ 2 := by positivity
        linarith
      linarith
    · linarith
  have : p - (x - m) ^ 2 = -(d * d - p) + (d * d - (x - m) ^ 2) := by ring
  rw [this]
  refine (abs_add_le _ _).trans ?_
  rw [abs_neg]
  have h6 := mul_le_mul_of_nonneg_left hd1 hu.le
  have h7 : ((1 + unit t) ^ 3 - 1) * (x - m) ^ 2 =
      unit t * ((1 + unit t) ^ 2 * (x - m) ^ 2) + ((1 + unit t) ^ 2 - 1) * (x - m) ^ 2 := by ring
  linarith

/-! ### Sums -/

/-- Numbers that are near to others, and their sums. -/
theorem sums_close {α : Type} (l : List α) (f g : α → Rat) (u τ : Rat)
    (h : ∀ a ∈ l, |f a - g a| ≤ u * |g a| + τ) :
    |(l.map f).sum - (l.map g).sum| ≤ u * (l.map fun a => |g a|).sum + l.length * τ ∧
    (l.map fun a => |f a|).sum ≤ (l.map fun a => |g a|).sum + (u * (l.map fun a => |g a|).sum + l.length * τ) := by
  induction l with
  | nil => simp
  | cons a l ih =>
    obtain ⟨h1, h2⟩ := ih fun b hb => h b (List.mem_cons_of_mem _ hb)
    have h3 := h a (by simp)
    simp only [List.map_cons, List.sum_cons, List.length_cons]
    push_cast
    constructor
    · have : f a + (l.map f).sum - (g a + (l.map g).sum) = (f a - g a) + ((l.map f).sum - (l.map g).sum) := by ring
      rw [this]
      refine (abs_add_le _ _).trans ?_
      linarith
    · have : |f a| ≤ |f a - g a| + |g a| := by
        have : f a = (f a - g a) + g a := by ring
        calc |f a| = |(f a - g a) + g a| := by rw [← this]
          _ ≤ _ := abs_add_le _ _
      linarith

theorem fold_good {Inv : List Flt → Rat → Prop} {Ok : List Flt → Prop} (hI : SumInv t Inv Ok) (ps : List Flt)
    (hp : FiniteValues t ps) {a : List Flt} {x : Flt} (hx : Good .discard Inv Ok a x) :
    Good .discard Inv Ok (a ++ ps) (ps.foldl (plus t) x) := by
  induction ps generalizing a x with
  | nil => simpa using hx
  | cons p ps ih =>
    have := ih (fun q hq => hp q (List.mem_cons_of_mem _ hq)) (good_join hI hx (good_one hI (hp p (by simp))) rfl)
    rw [List.append_assoc] at this
    exact this

theorem good_number {Inv : List Flt → Rat → Prop} {Ok : List Flt → Prop} {a : List Flt} {x : Flt}
    (h : Good .discard Inv Ok a x) (hok : Ok a) : ∃ r, x = .fin r ∧ Inv a r := by
  have := h.2.1 hok
  cases x with
  | fin r => exact ⟨r, rfl, h.1 r rfl⟩
  | _ => cases this

theorem squaresAbout_expand (c : Rat) (xs : List Rat) :
    squaresAbout c xs = (xs.map fun x => x ^ 2).sum - 2 * c * xs.sum + xs.length * c ^ 2 := by
  induction xs with
  | nil => simp [squaresAbout]
  | cons x xs ih =>
    rw [squaresAbout] at ih ⊢
    simp only [List.map_cons, List.sum_cons, List.length_cons, ih]
    push_cast
    ring

/-- The squared distances to another number than the mean. -/
theorem squaresAbout_near (c : Rat) {xs : List Rat} (h : xs ≠ []) :
    squaresAbout c xs = xs.length * (exactVariance xs + (c - exactMean xs) ^ 2) := by
  have h0 : (xs.length : Rat) ≠ 0 := by
    have := List.length_pos_iff.2 h
    exact_mod_cast this.ne'
  rw [exactVariance, squaresAbout_expand, squaresAbout_expand, exactMean]
  field_simp
  ring

end Fern.FloatSpread
