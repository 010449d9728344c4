import Verif.Model.FloatArith
import Verif.Spec.FloatArith
import Verif.Lemmas.Cast
import Verif.Props.Cast

/-! Rounding the results of arithmetic. -/

namespace Fern.FloatArith

open Fern Fern.Domains Fern.Spec Fern.Casts Fern.Casts.Spec Fern.FloatArith.Spec

theorem FltTy.bits_pos (t : FltTy) : 0 < t.bits := by cases t <;> decide

theorem FltTy.lo_le_hi (t : FltTy) : t.lo ≤ t.hi := by cases t <;> decide

theorem represents_num (t : FltTy) (q : Rat) : Represents t.num q ↔ FloatValue t.bits t.lo t.hi q := by
  cases t <;> rfl

theorem limit_eq (t : FltTy) : limit t = ((2 : Rat) ^ t.bits - 1 / 2) * 2 ^ t.hi := by
  cases t
  · rfl
  · exact congrArg _ (zpow_natCast (2 : Rat) 971).symm

theorem limit_pos (t : FltTy) : 0 < limit t := by
  rw [limit_eq]
  have h1 : (1 : Rat) ≤ 2 ^ t.bits := one_le_pow₀ (by norm_num)
  have h2 : (0 : Rat) < 2 ^ t.hi := two_zpow_pos _
  apply mul_pos _ h2
  linarith

theorem round_not_nan (t : FltTy) (q : Rat) : t.round q ≠ .nan := by
  rw [FltTy.round, roundTo_eq]
  split
  · split <;> exact fun h => by cases h
  · exact fun h => by cases h

theorem opposite_inj {a b : Flt} (h : opposite a = opposite b) : a = b := by
  cases a <;> cases b <;> simp_all [opposite]

/-- Rounding is rounding. -/
theorem round_rounded (t : FltTy) (q : Rat) : Rounded t q (t.round q) := by
  have hp := t.bits_pos
  have hlh := t.lo_le_hi
  have ho := C91_round_overflow hp hlh
  have hneg := C91_round_neg hp hlh q
  rw [← limit_eq] at ho
  have hL := limit_pos t
  constructor
  · intro h
    rw [TooLarge] at h
    rcases le_or_gt q 0 with hq | hq
    · rw [if_neg (not_lt.2 hq)]
      rw [abs_of_nonpos hq] at h
      have := (ho (-q)).2 h
      rw [hneg] at this
      exact opposite_inj (by rw [FltTy.round, this]; rfl)
    · rw [if_pos hq]
      rw [abs_of_pos hq] at h
      exact (ho q).2 h
  · intro h
    have h := abs_lt.1 (not_le.1 h)
    have n1 : t.round q ≠ .inf := fun e => by
      have := (ho q).1 e
      linarith
    have n2 : t.round q ≠ .negInf := fun e => by
      rw [FltTy.round] at e
      rw [e] at hneg
      have := (ho (-q)).1 hneg
      linarith
    cases hr : t.round q with
    | fin r =>
      have hv : ∀ m, Represents t.num m ↔ FloatValue t.bits t.lo t.hi m := represents_num t
      obtain ⟨a, b⟩ := C91_round_nearest hp hlh q r hr
      refine ⟨r, rfl, ⟨(hv r).2 a, fun m hm => b m ((hv m).1 hm)⟩, fun m hm hne ht => ?_⟩
      obtain ⟨n, e, ⟨h1, h2⟩ | ⟨h1, h2⟩⟩ := C91_round_even hp hlh q r m hr ((hv m).1 hm) hne ht
      · exact ⟨n, e, h1, Or.inl h2⟩
      · exact ⟨n, e, h1, Or.inr h2⟩
    | inf => exact absurd hr n1
    | negInf => exact absurd hr n2
    | nan => exact absurd hr (round_not_nan t q)

theorem round_finite (t : FltTy) (q : Rat) : (t.round q).isFinite = true ↔ ¬ TooLarge t q := by
  obtain ⟨h1, h2⟩ := round_rounded t q
  by_cases h : TooLarge t q
  · rw [h1 h]
    split <;> simp [Flt.isFinite, h]
  · obtain ⟨r, hr, -⟩ := h2 h
    simp [hr, Flt.isFinite, h]

theorem round_exact (t : FltTy) {q : Rat} (h : Represents t.num q) : t.round q = .fin q :=
  C91_round_exact t.bits_pos t.lo_le_hi q ((represents_num t q).1 h)

/-! ### Errors -/

theorem rounded_error (p : Nat) (lo : Int) (x : Rat) : |x - rounded p lo x| ≤ 2 ^ lastBit p lo x / 2 := by
  rw [rounded, scaled]
  have h := (C85_nearest_even (x / 2 ^ lastBit p lo x)).1
  have := mul_le_mul_of_nonneg_right h (two_zpow_pos (lastBit p lo x)).le
  linarith

/-- With more than the smallest exponent, the error is relatively small. -/
theorem rounded_relative {p : Nat} {lo : Int} {x : Rat} (hx : x ≠ 0) (h : lo < lastBit p lo x) :
    |x - rounded p lo x| ≤ |x| / 2 ^ p := by
  refine (rounded_error p lo x).trans ?_
  have h1 := le_lastBit hx h
  rw [le_div_iff₀ (by positivity)]
  refine le_trans (le_of_eq ?_) h1
  rw [zpow_sub₀ (by norm_num), zpow_add₀ (by norm_num), zpow_natCast, zpow_one]
  ring

/-- Multiples of the smallest value. -/
theorem rounded_multiple {p : Nat} {lo : Int} {n : Int} (h : lastBit p lo ((n : Rat) * 2 ^ lo) = lo) :
    rounded p lo ((n : Rat) * 2 ^ lo) = n * 2 ^ lo := by
  rw [rounded, h, mul_div_cancel_right₀ _ (two_zpow_pos lo).ne', nearestEven_int]

theorem rounded_multiple_relative {p : Nat} {lo : Int} (n : Int) :
    |(n : Rat) * 2 ^ lo - rounded p lo ((n : Rat) * 2 ^ lo)| ≤ |(n : Rat) * 2 ^ lo| / 2 ^ p := by
  by_cases h : lastBit p lo ((n : Rat) * 2 ^ lo) = lo
  · rw [rounded_multiple h, sub_self, abs_zero]
    positivity
  · have hlo := lo_le_lastBit p lo ((n : Rat) * 2 ^ lo)
    by_cases hx : (n : Rat) * 2 ^ lo = 0
    · rw [hx, rounded, zero_div, show nearestEven 0 = 0 from nearestEven_int 0]
      simp
    · exact rounded_relative hx (by omega)

theorem floatValue_multiple {p : Nat} {lo hi : Int} {x : Rat} (h : FloatValue p lo hi x) : ∃ n : Int, x = n * 2 ^ lo := by
  obtain ⟨m, e, -, hl, -, rfl⟩ := (floatValue_iff p lo hi x).1 h
  exact multiple_of_le hl

theorem round_eq_fin {t : FltTy} {q r : Rat} (h : t.round q = .fin r) : r = rounded t.bits t.lo q := by
  rw [FltTy.round, roundTo_eq] at h
  split at h
  · split at h <;> cases h
  · cases h; rfl

theorem unit_eq (t : FltTy) : unit t = 1 / 2 ^ t.bits := by cases t <;> rfl

theorem tiny_eq (t : FltTy) : tiny t = 2 ^ t.lo / 2 := by
  cases t
  · simp only [tiny, FltTy.lo]
    norm_num
  · have : (2 : Rat) ^ (-1074 : Int) = 1 / 2 ^ (1074 : Nat) := by
      rw [zpow_neg, one_div]
      exact congrArg _ (zpow_natCast (2 : Rat) 1074)
    simp only [tiny, FltTy.lo, this]
    rw [div_div, ← pow_succ]

theorem unit_pos (t : FltTy) : 0 < unit t := by cases t <;> simp only [unit] <;> positivity

theorem unit_lt_one (t : FltTy) : unit t < 1 := by cases t <;> simp only [unit] <;> norm_num

theorem tiny_pos (t : FltTy) : 0 < tiny t := by rw [tiny_eq]; have := two_zpow_pos t.lo; linarith

/-- Sums and differences of values are multiples of the smallest value. -/
theorem sum_multiple {t : FltTy} {x y : Rat} (hx : Represents t.num x) (hy : Represents t.num y) :
    ∃ n : Int, x + y = n * 2 ^ t.lo := by
  obtain ⟨m, rfl⟩ := floatValue_multiple ((represents_num t x).1 hx)
  obtain ⟨n, rfl⟩ := floatValue_multiple ((represents_num t y).1 hy)
  exact ⟨m + n, by push_cast; ring⟩

theorem represents_neg {t : FltTy} {x : Rat} (h : Represents t.num x) : Represents t.num (-x) := by
  rw [represents_num, floatValue_iff] at *
  obtain ⟨m, e, h1, h2, h3, rfl⟩ := h
  exact ⟨-m, e, by rwa [abs_neg], h2, h3, by push_cast; ring⟩

theorem sum_error {t : FltTy} {x y r : Rat} (hx : Represents t.num x) (hy : Represents t.num y)
    (h : t.round (x + y) = .fin r) : |x + y - r| ≤ unit t * |x + y| := by
  obtain ⟨n, hn⟩ := sum_multiple hx hy
  rw [hn] at h ⊢
  have := rounded_multiple_relative (p := t.bits) (lo := t.lo) n
  rw [round_eq_fin h, unit_eq]
  exact this.trans (le_of_eq (by ring))

theorem round_error {t : FltTy} {q r : Rat} (h : t.round q = .fin r) : |q - r| ≤ max (unit t * |q|) (tiny t) := by
  rw [round_eq_fin h]
  by_cases hx : q = 0
  · rw [hx, rounded, zero_div, show nearestEven 0 = 0 from nearestEven_int 0]
    simp [(tiny_pos t).le]
  · by_cases hl : t.lo < lastBit t.bits t.lo q
    · refine (rounded_relative hx hl).trans (le_trans (le_of_eq ?_) (le_max_left _ _))
      rw [unit_eq]; ring
    · have he : lastBit t.bits t.lo q = t.lo := le_antisymm (not_lt.1 hl) (lo_le_lastBit _ _ _)
      refine (rounded_error _ _ _).trans (le_trans (le_of_eq ?_) (le_max_right _ _))
      rw [he, tiny_eq]

/-- No number other than zero is rounded to zero, if it is a multiple of the smallest value. -/
theorem sum_zero {t : FltTy} {x y : Rat} (hx : Represents t.num x) (hy : Represents t.num y) :
    t.round (x + y) = .fin 0 ↔ x + y = 0 := by
  constructor
  · intro h
    have := sum_error hx hy h
    rw [sub_zero] at this
    have hu := unit_lt_one t
    by_contra hne
    have := abs_pos.2 hne
    nlinarith
  · intro h
    rw [h]
    exact round_exact t ((represents_num t 0).2 ((floatValue_iff _ _ _ _).2
      ⟨0, t.lo, by simp, le_refl _, t.lo_le_hi, by simp⟩))

/-- Order. -/
theorem round_mono (t : FltTy) {x y : Rat} (h : x ≤ y) : Flt.le (t.round x) (t.round y) = true := by
  have ho := C91_round_overflow t.bits_pos t.lo_le_hi
  have hn := C91_round_neg t.bits_pos t.lo_le_hi
  have hinf : t.round x = .inf → t.round y = .inf := fun e => (ho y).2 (le_trans ((ho x).1 e) h)
  have hninf : t.round y = .negInf → t.round x = .negInf := fun e => by
    have h1 := hn y
    rw [show roundTo t.bits t.lo t.hi y = .negInf from e] at h1
    have h2 := (ho (-x)).2 (le_trans ((ho (-y)).1 h1) (by linarith))
    rw [hn x] at h2
    exact opposite_inj (by rw [FltTy.round, h2]; rfl)
  have nx := round_not_nan t x
  have ny := round_not_nan t y
  cases hx : t.round x <;> cases hy : t.round y <;> simp_all [Flt.le]
  exact C91_round_mono t.bits_pos t.lo_le_hi x y _ _ h hx hy

/-- Values near to each other: the difference is a value. -/
theorem difference_value {t : FltTy} {x y : Rat} (hx : Represents t.num x) (hy : Represents t.num y)
    (h1 : y / 2 ≤ x) (h2 : x ≤ 2 * y) : Represents t.num (x - y) := by
  rw [represents_num, floatValue_iff] at *
  obtain ⟨m, e, hm, he, he', rfl⟩ := hx
  obtain ⟨n, f, hn, hf, hf', rfl⟩ := hy
  have he0 := two_zpow_pos e
  have hf0 := two_zpow_pos f
  have aux : ∀ (m n e f : Int), e ≤ f → |m| < 2 ^ t.bits → |(m : Rat) * 2 ^ e - n * 2 ^ f| ≤ |(m : Rat)| * 2 ^ e →
      ∃ k : Int, |k| < 2 ^ t.bits ∧ (m : Rat) * 2 ^ e - n * 2 ^ f = k * 2 ^ e := by
    intro m n e f hef hm h
    obtain ⟨j, hj⟩ := multiple_of_le (m := n) hef
    refine ⟨m - j, ?_, by rw [hj]; push_cast; ring⟩
    rw [hj, ← sub_mul, abs_mul, abs_of_pos (two_zpow_pos e)] at h
    have h := le_of_mul_le_mul_right h (two_zpow_pos e)
    have h : |m - j| ≤ |m| := by exact_mod_cast h
    omega
  rcases le_total e f with h | h
  · obtain ⟨k, hk, hk'⟩ := aux m n e f h hm (by
      have hpos : 0 ≤ (m : Rat) * 2 ^ e := by linarith
      rw [show |(m : Rat)| * 2 ^ e = |(m : Rat) * 2 ^ e| by rw [abs_mul, abs_of_pos he0], abs_of_nonneg hpos]
      exact abs_le.2 ⟨by linarith, by linarith⟩)
    exact ⟨k, e, hk, he, he', hk'⟩
  · obtain ⟨k, hk, hk'⟩ := aux n m f e h hn (by
      have hpos : 0 ≤ (n : Rat) * 2 ^ f := by linarith
      rw [show |(n : Rat)| * 2 ^ f = |(n : Rat) * 2 ^ f| by rw [abs_mul, abs_of_pos hf0], abs_of_nonneg hpos]
      exact abs_le.2 ⟨by linarith, by linarith⟩)
    refine ⟨-k, f, by rwa [abs_neg], hf, hf', ?_⟩
    push_cast
    linarith

theorem represents_small (t : FltTy) {i : Int} (h : |i| ≤ small t) : Represents t.num (i : Rat) := by
  cases t
  · exact (C91_small i).1 h
  · exact (C91_small i).2 h

end Fern.FloatArith
