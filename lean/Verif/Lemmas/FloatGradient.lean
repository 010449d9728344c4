import Verif.Spec.FloatGradient
import Verif.Lemmas.FloatConvolve
import Verif.Props.Gradient

/-! Gradients of floating point numbers. -/

namespace Fern.FloatGradient

open Fern Fern.Domains Fern.Spec Fern.Casts Fern.Casts.Spec Fern.FloatArith Fern.FloatArith.Spec
open Fern.FloatConvolve (quotient store store_fin quotient_divided round_zero)
open Fern.FloatVector (round_some)
open _root_.Fern.FloatGradient.Spec

/-- Twice a number. -/
theorem double_represents {t : FltTy} {s : Rat} (h : Represents t.num s) (h2 : ¬ TooLarge t (2 * s)) : Represents t.num (2 * s) := by
  rw [represents_num, floatValue_iff] at *
  obtain ⟨m, e, h1, h3, h4, rfl⟩ := h
  rcases lt_or_eq_of_le h4 with h5 | rfl
  · exact ⟨m, e + 1, h1, by omega, by omega, by rw [zpow_add₀ (by norm_num)]; ring⟩
  · refine ⟨2 * m, t.hi, ?_, h3, le_refl _, by push_cast; ring⟩
    by_contra hc
    refine h2 ?_
    rw [TooLarge, limit_eq, ← mul_assoc, abs_mul, abs_of_pos (two_zpow_pos t.hi)]
    refine mul_le_mul_of_nonneg_right ?_ (two_zpow_pos t.hi).le
    have : ((2 ^ t.bits : Int) : Rat) ≤ ((|2 * m| : Int) : Rat) := by exact_mod_cast not_lt.1 hc
    push_cast at this
    linarith

theorem twice_eq {s : Rat} (h : Represents .f64 s) (h2 : ¬ TooLarge .double (2 * s)) :
    plus .double (.fin s) (.fin s) = .fin (2 * s) := by
  have : Represents FltTy.double.num s := h
  show FltTy.double.round (s + s) = _
  rw [← two_mul, round_exact .double (double_represents this h2)]

/-- What is stored in a valid cell. -/
def stored (t : FltTy) (s : Rat) (prev : Option Rat) (c : Rat) (next : Option Rat) : Flt :=
  store t (quotient (t.round (difference prev c next)) (.fin (steps prev next * s)))

theorem minus_round (t : FltTy) (x y : Rat) : minus t (.fin y) (.fin x) = t.round (y - x) := by
  show t.round (y + -x) = _
  rw [sub_eq_add_neg]

theorem cell_value {t : FltTy} {s : Rat} (hs : s ≠ 0) (hrep : Represents .f64 s) (hs2 : ¬ TooLarge .double (2 * s))
    {outp : OutPolicy Flt} {prev center next : Option Flt} {d d' : Cell Flt}
    (h : GradientCell (fltGradientOps t (.fin s)) outp prev center next d d')
    (hp : ∀ v, prev = some v → ∃ q, v = .fin q) (hc : ∀ v, center = some v → ∃ q, v = .fin q)
    (hn : ∀ v, next = some v → ∃ q, v = .fin q) {c : Rat} (e : center.map number = some c) :
    d' = ⟨stored t s (prev.map number) c (next.map number), d.masked⟩ := by
  obtain ⟨v, rfl, rfl⟩ := Option.map_eq_some_iff.1 e
  obtain ⟨c, rfl⟩ := hc v rfl
  cases hp' : prev with
  | none =>
    cases hn' : next with
    | none =>
      rw [h.alone _ hp' rfl hn']
      simp [stored, fltGradientOps, difference, steps, number, round_zero, quotient, over, hs, store_fin]
    | some n =>
      obtain ⟨n, rfl⟩ := hn n hn'
      rw [h.nextOnly _ _ hp' rfl hn']
      simp [stored, fltGradientOps, difference, steps, number, minus_round]
  | some p =>
    obtain ⟨p, rfl⟩ := hp p hp'
    cases hn' : next with
    | none =>
      rw [h.prevOnly _ _ hp' rfl hn']
      simp [stored, fltGradientOps, difference, steps, number, minus_round]
    | some n =>
      obtain ⟨n, rfl⟩ := hn n hn'
      rw [h.both _ _ _ hp' rfl hn']
      simp only [stored, fltGradientOps, difference, steps, number, minus_round, twice_eq hrep hs2, Option.map_some,
        Option.getD_some, Option.isSome_some, and_self, if_true]

/-- Dividing a number by one that isn't zero. -/
theorem quotient_fin {x y : Rat} (hy : y ≠ 0) : quotient (.fin x) (.fin y) = FltTy.double.round (x / y) := by
  simp [quotient, over, hy]

theorem limit_le_double (t : FltTy) : limit t ≤ limit .double := by
  cases t
  · rw [limit, limit]
    have : (2 : Rat) ^ 104 ≤ 2 ^ 971 := pow_le_pow_right₀ (by norm_num) (by norm_num)
    generalize (2 : Rat) ^ 971 = z at *
    have h2 : (0 : Rat) < 2 ^ 104 := by positivity
    generalize (2 : Rat) ^ 104 = y at *
    nlinarith
  · exact le_refl _

theorem tiny_double_le : tiny .double ≤ tiny .single / 2 := by
  rw [tiny, tiny, show (1 : Rat) / 2 ^ 150 / 2 = 1 / 2 ^ 151 by norm_num]
  exact one_div_le_one_div_of_le (by positivity) (pow_le_pow_right₀ (by norm_num) (by norm_num))

theorem stored_error {t : FltTy} {x y S : Rat} (hx : Represents t.num x) (hy : Represents t.num y) (hS : S ≠ 0)
    (hd : ¬ TooLarge t (y - x)) (hg : |(y - x) / S| ≤ limit t / 2) :
    ∃ r, store t (quotient (t.round (y - x)) (.fin S)) = .fin r ∧ |r - (y - x) / S| ≤ gradientError t ((y - x) / S) := by
  rw [TooLarge, not_le] at hd
  obtain ⟨D, hD⟩ := round_some hd
  have h1 : |y - x - D| ≤ unit t * |y - x| := by
    have hD' : t.round (y + -x) = .fin D := by rw [← hD, sub_eq_add_neg]
    have := sum_error hy (represents_neg hx) hD'
    rwa [← sub_eq_add_neg] at this
  rw [hD, quotient_fin hS]
  generalize hq : (y - x) / S = q at *
  have h2 : |q - D / S| ≤ unit t * |q| := by
    rw [← hq, ← sub_div, abs_div, abs_div, ← mul_div_assoc]
    exact div_le_div_of_nonneg_right h1 (abs_nonneg S)
  generalize D / S = p at *
  have hu := unit_pos t
  have hu1 : unit t ≤ 1 / 2 ^ 24 := by cases t <;> norm_num [unit]
  have hτ := tiny_pos t
  have hl := limit_pos t
  have hqn := abs_nonneg q
  have h3 : |p| ≤ (1 + unit t) * |q| := by
    have := abs_sub_abs_le_abs_sub p q
    rw [abs_sub_comm] at this
    linarith
  have h3' : |p| ≤ limit t * (5 / 8) := by nlinarith
  have h4 : |p| < limit .double := lt_of_lt_of_le (by linarith) (limit_le_double t)
  obtain ⟨d, hd'⟩ := round_some h4
  have h5 : |p - d| ≤ unit .double * |p| + tiny .double := by
    have := round_error hd'
    have h6 : 0 ≤ unit .double * |p| := mul_nonneg (unit_pos _).le (abs_nonneg _)
    have h7 := (tiny_pos .double).le
    exact this.trans (max_le (by linarith) (by linarith))
  have h8 : |q - d| ≤ unit t * |q| + (unit .double * |p| + tiny .double) := by
    have := abs_sub_le q p d
    linarith
  rw [hd', store_fin]
  have hpn := abs_nonneg p
  cases t with
  | double =>
    refine ⟨d, round_exact .double (FloatVector.round_represents hd'), ?_⟩
    rw [abs_sub_comm, gradientError]
    generalize tiny .double = τ at *
    generalize unit .double = u at *
    have e1 : u * |p| ≤ u * ((1 + u) * |q|) := mul_le_mul_of_nonneg_left h3 hu.le
    have e2 : u * (u * |q|) ≤ u * |q| := mul_le_mul_of_nonneg_left (by nlinarith) hu.le
    nlinarith
  | single =>
    have hτd := tiny_double_le
    have hτd0 := tiny_pos .double
    have hlt : tiny .single ≤ limit .single / 8 := by norm_num [tiny, limit]
    have hv0 := unit_pos .double
    have hv : unit .double ≤ unit .single / 1024 := by norm_num [unit]
    have h9 : |d| ≤ |p| + (unit .double * |p| + tiny .double) := by
      have := abs_sub_abs_le_abs_sub d p
      rw [abs_sub_comm] at this
      linarith
    have h10 : |d| < limit .single := by
      have : unit .double * |p| ≤ 1 / 8 * |p| := mul_le_mul_of_nonneg_right (by linarith) hpn
      linarith
    obtain ⟨r, hr⟩ := round_some h10
    refine ⟨r, hr, ?_⟩
    have h11 : |d - r| ≤ unit .single * |d| + tiny .single := by
      have := round_error hr
      have h6 : 0 ≤ unit .single * |d| := mul_nonneg (unit_pos _).le (abs_nonneg _)
      have h7 := (tiny_pos .single).le
      exact this.trans (max_le (by linarith) (by linarith))
    have h12 : |q - r| ≤ |q - d| + |d - r| := abs_sub_le q d r
    rw [abs_sub_comm, gradientError]
    clear h10 hlt h4 h3' hg hl hd hD hd' hr h1 hx hy
    generalize tiny .double = τ at *
    generalize tiny .single = σ at *
    generalize unit .double = v at *
    generalize unit .single = u at *
    generalize |q| = Q at *
    generalize |p| = P at *
    generalize |d| = E at *
    have f1 : v * P ≤ u / 1024 * P := mul_le_mul_of_nonneg_right hv hpn
    have f2 : u * P ≤ u * ((1 + u) * Q) := mul_le_mul_of_nonneg_left h3 hu.le
    have f3 : u * (u * Q) ≤ 1 / 2 ^ 24 * (u * Q) := mul_le_mul_of_nonneg_right hu1 (by positivity)
    have f4 : u * E ≤ u * (P + (u / 1024 * P + τ)) := mul_le_mul_of_nonneg_left (by linarith) hu.le
    have f5 : u * (u * P) ≤ 1 / 2 ^ 24 * (u * P) := mul_le_mul_of_nonneg_right hu1 (by positivity)
    have f6 : u * τ ≤ 1 / 2 ^ 24 * τ := mul_le_mul_of_nonneg_right hu1 hτd0.le
    have f7 : 0 ≤ u * Q := by positivity
    have f8 : 0 ≤ u * P := by positivity
    have f9 : u * P ≤ 33 / 32 * (u * Q) := by nlinarith
    have f10 : u * (P + (u / 1024 * P + τ)) = u * P + u * (u * P) / 1024 + u * τ := by ring
    have f11 : u / 1024 * P = u * P / 1024 := by ring
    norm_num at f3 f5 f6
    linarith

end Fern.FloatGradient
