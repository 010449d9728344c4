import Verif.Model.Cast
import Verif.Spec.CInt
import Verif.Props.Domains
import Mathlib.Tactic.Linarith
import Mathlib.Tactic.Ring
import Mathlib.Tactic.FieldSimp
import Mathlib.Tactic.Positivity

/-! Rounding to floating point values. -/

namespace Fern.Casts

open Fern Fern.Domains Fern.Spec

theorem floatValue_iff (p : Nat) (lo hi : Int) (v : Rat) :
    FloatValue p lo hi v ↔ ∃ (m e : Int), |m| < 2 ^ p ∧ lo ≤ e ∧ e ≤ hi ∧ v = m * 2 ^ e := by
  constructor
  · rintro ⟨m, e, h1, h2, h3, h4, k, ⟨rfl, rfl⟩ | ⟨rfl, h⟩⟩
    · exact ⟨m, k, abs_lt.2 ⟨h1, h2⟩, h3, h4, by rw [zpow_natCast]⟩
    · refine ⟨m, -k, abs_lt.2 ⟨h1, h2⟩, h3, h4, ?_⟩
      rw [zpow_neg, zpow_natCast, ← h]
      field_simp
  · rintro ⟨m, e, h1, h3, h4, rfl⟩
    refine ⟨m, e, (abs_lt.1 h1).1, (abs_lt.1 h1).2, h3, h4, ?_⟩
    rcases Int.eq_nat_or_neg e with ⟨k, rfl | rfl⟩
    · exact ⟨k, Or.inl ⟨rfl, by rw [zpow_natCast]⟩⟩
    · refine ⟨k, Or.inr ⟨rfl, ?_⟩⟩
      rw [zpow_neg, zpow_natCast]
      field_simp

theorem two_zpow_pos (e : Int) : (0 : Rat) < 2 ^ e := by positivity

/-- The magnitude is less than `2 ^ p` last bits. -/
theorem lt_lastBit (p : Nat) (lo : Int) (x : Rat) : |x| < 2 ^ (lastBit p lo x + p) := by
  have h := Int.lt_zpow_succ_log_self (b := 2) (by norm_num) |x|
  refine lt_of_lt_of_le h ?_
  have : Int.log 2 |x| + 1 ≤ lastBit p lo x + p := by
    have := le_max_right lo (Int.log 2 |x| + 1 - p)
    rw [lastBit]
    omega
  exact_mod_cast zpow_le_zpow_right₀ (by norm_num : (1 : Rat) ≤ 2) this

theorem lo_le_lastBit (p : Nat) (lo : Int) (x : Rat) : lo ≤ lastBit p lo x := le_max_left _ _

/-- Above the smallest exponent, the magnitude is at least half of that. -/
theorem le_lastBit {p : Nat} {lo : Int} {x : Rat} (hx : x ≠ 0) (h : lo < lastBit p lo x) :
    2 ^ (lastBit p lo x + p - 1) ≤ |x| := by
  have h' : lastBit p lo x = Int.log 2 |x| + 1 - p := by
    rw [lastBit] at h ⊢
    omega
  have := Int.zpow_log_le_self (b := 2) (by norm_num) (abs_pos.2 hx)
  rw [h']
  have e : Int.log 2 |x| + 1 - ↑p + ↑p - 1 = Int.log 2 |x| := by ring
  rw [e]
  exact_mod_cast this

theorem nearestEven_le (y : Rat) (n : Int) : |y - nearestEven y| ≤ |y - n| := by
  by_cases h : n = nearestEven y
  · rw [h]
  · have h1 := (C85_nearest_even y).1
    have h2 : (1 : Rat) ≤ |(n : Rat) - nearestEven y| := by
      have : 1 ≤ |n - nearestEven y| := Int.one_le_abs (sub_ne_zero.2 h)
      exact_mod_cast this
    have h3 : |(n : Rat) - nearestEven y| ≤ |y - nearestEven y| + |y - n| := by
      have : (n : Rat) - nearestEven y = (y - nearestEven y) - (y - n) := by ring
      rw [this]
      exact abs_sub _ _
    linarith

theorem nearestEven_tie (y : Rat) (n : Int) (h : n ≠ nearestEven y) (he : |y - n| = |y - nearestEven y|) :
    nearestEven y % 2 = 0 := by
  refine (C85_nearest_even y).2 ?_
  have h1 := (C85_nearest_even y).1
  have h2 : (1 : Rat) ≤ |(n : Rat) - nearestEven y| := by
    have : 1 ≤ |n - nearestEven y| := Int.one_le_abs (sub_ne_zero.2 h)
    exact_mod_cast this
  have h3 : |(n : Rat) - nearestEven y| ≤ |y - nearestEven y| + |y - n| := by
    have : (n : Rat) - nearestEven y = (y - nearestEven y) - (y - n) := by ring
    rw [this]
    exact abs_sub _ _
  linarith

/-- The rounded number before the exponent is looked at. -/
def rounded (p : Nat) (lo : Int) (x : Rat) : Rat := (nearestEven (x / 2 ^ lastBit p lo x) : Rat) * 2 ^ lastBit p lo x

theorem roundTo_eq (p : Nat) (lo hi : Int) (x : Rat) : roundTo p lo hi x =
    if 2 ^ (hi + p) ≤ |rounded p lo x| then (if 0 < x then .inf else .negInf) else .fin (rounded p lo x) := rfl

theorem scaled (x : Rat) (e n : Int) : |x - n * 2 ^ e| = |x / 2 ^ e - n| * 2 ^ e := by
  have h := two_zpow_pos e
  rw [← abs_of_pos h, ← abs_mul, abs_of_pos h]
  congr 1
  field_simp

/-- No multiple of the last bit is nearer. -/
theorem rounded_le_multiple (p : Nat) (lo : Int) (x : Rat) (n : Int) :
    |x - rounded p lo x| ≤ |x - n * 2 ^ lastBit p lo x| := by
  rw [rounded, scaled, scaled]
  exact mul_le_mul_of_nonneg_right (nearestEven_le _ _) (two_zpow_pos _).le

theorem multiple_of_le {m e e' : Int} (h : e' ≤ e) : ∃ n : Int, (m : Rat) * 2 ^ e = n * 2 ^ e' := by
  obtain ⟨k, hk⟩ := Int.eq_ofNat_of_zero_le (sub_nonneg.2 h)
  refine ⟨m * 2 ^ k, ?_⟩
  have : e = (k : Int) + e' := by omega
  rw [this, zpow_add₀ (by norm_num), zpow_natCast]
  push_cast
  ring

/-- A value with less exponent than the last bit is not larger than a power of two below the number. -/
theorem below {p : Nat} {lo m e : Int} {x : Rat} (hm : |m| < 2 ^ p) (he : e < lastBit p lo x) :
    |(m : Rat) * 2 ^ e| ≤ 2 ^ (lastBit p lo x + p - 1) := by
  rw [abs_mul, abs_of_pos (two_zpow_pos e)]
  have h1 : |(m : Rat)| ≤ 2 ^ p := by exact_mod_cast hm.le
  have h2 : (2 : Rat) ^ e ≤ 2 ^ (lastBit p lo x - 1) := zpow_le_zpow_right₀ (by norm_num) (by omega)
  calc |(m : Rat)| * 2 ^ e ≤ 2 ^ p * 2 ^ (lastBit p lo x - 1) :=
        mul_le_mul h1 h2 (two_zpow_pos e).le (by positivity)
    _ = 2 ^ (lastBit p lo x + p - 1) := by
        rw [← zpow_natCast, ← zpow_add₀ (by norm_num)]
        congr 1
        ring

/-- The nearest value of any exponent, and ties. -/
theorem rounded_nearest {p : Nat} (hp : 0 < p) {lo m e : Int} (x : Rat) (hm : |m| < 2 ^ p) (he : lo ≤ e) :
    |x - rounded p lo x| ≤ |x - m * 2 ^ e| ∧
      (|x - m * 2 ^ e| = |x - rounded p lo x| → ∃ n : Int, (m : Rat) * 2 ^ e = n * 2 ^ lastBit p lo x) := by
  by_cases h : lastBit p lo x ≤ e
  · obtain ⟨n, hn⟩ := multiple_of_le (m := m) h
    rw [hn]
    exact ⟨rounded_le_multiple p lo x n, fun _ => ⟨n, rfl⟩⟩
  · have hlt : e < lastBit p lo x := not_le.1 h
    have hlo : lo < lastBit p lo x := lt_of_le_of_lt he hlt
    have hx : x ≠ 0 ∨ x = 0 := (em (x = 0)).symm
    rcases hx with hx | rfl
    · have h1 := le_lastBit hx hlo
      have h2 := below hm hlt
      set P : Rat := 2 ^ (lastBit p lo x + p - 1) with hP
      obtain ⟨k, hk⟩ := multiple_of_le (m := 1) (e := lastBit p lo x + p - 1) (e' := lastBit p lo x) (by omega)
      have hPk : P = k * 2 ^ lastBit p lo x := by rw [hP, ← hk]; simp
      -- the power of two with the sign of `x`
      have key : ∃ s : Int, |x - (s * k : Int) * 2 ^ lastBit p lo x| = |x| - P ∧
          (|x - m * 2 ^ e| = |x| - P → (m : Rat) * 2 ^ e = (s * k : Int) * 2 ^ lastBit p lo x) := by
        rcases lt_or_gt_of_ne hx with hneg | hpos
        · refine ⟨-1, ?_, ?_⟩
          · push_cast
            rw [abs_of_neg hneg] at h1 ⊢
            have : (-1 * (k : Rat)) * 2 ^ lastBit p lo x = -P := by rw [hPk]; ring
            rw [this, abs_of_nonpos (by linarith)]
            ring
          · intro h3
            push_cast
            have : (-1 * (k : Rat)) * 2 ^ lastBit p lo x = -P := by rw [hPk]; ring
            rw [this]
            rw [abs_of_neg hneg] at h1 h3
            have h4 := (abs_le.1 h2).1
            have h5 := neg_abs_le (x - (m : Rat) * 2 ^ e)
            have h6 := abs_le.1 (le_of_eq h3)
            linarith
        · refine ⟨1, ?_, ?_⟩
          · push_cast
            rw [abs_of_pos hpos] at h1 ⊢
            have : (1 * (k : Rat)) * 2 ^ lastBit p lo x = P := by rw [hPk]; ring
            rw [this, abs_of_nonneg (by linarith)]
          · intro h3
            push_cast
            have : (1 * (k : Rat)) * 2 ^ lastBit p lo x = P := by rw [hPk]; ring
            rw [this]
            rw [abs_of_pos hpos] at h1 h3
            have h4 := (abs_le.1 h2).2
            have h6 := abs_le.1 (le_of_eq h3)
            linarith
      obtain ⟨s, hs, ht⟩ := key
      have h3 := rounded_le_multiple p lo x (s * k)
      rw [hs] at h3
      have h4 : |x| - P ≤ |x - m * 2 ^ e| := by
        have := abs_sub_abs_le_abs_sub x ((m : Rat) * 2 ^ e)
        linarith
      refine ⟨h3.trans h4, fun h5 => ⟨s * k, ht ?_⟩⟩
      exact le_antisymm (h5 ▸ h3) h4
    · have : rounded p lo 0 = 0 := by
        have := nearestEven_int 0
        rw [rounded, zero_div, show nearestEven 0 = 0 from this]
        simp
      rw [this]
      refine ⟨by rw [sub_zero, abs_zero]; exact abs_nonneg _, fun h => ?_⟩
      have h0 : (m : Rat) * 2 ^ e = 0 := by simpa using h
      exact ⟨0, by rw [h0]; simp⟩

/-- The number of last bits. -/
theorem nearestEven_abs_le {y : Rat} {n : Nat} (h : |y| ≤ n) : |nearestEven y| ≤ n := by
  have h1 := (C85_nearest_even y).1
  have h2 : |(nearestEven y : Rat)| < n + 1 := by
    have : |(nearestEven y : Rat)| ≤ |y| + |y - nearestEven y| := by
      have e : (nearestEven y : Rat) = y - (y - nearestEven y) := by ring
      calc |(nearestEven y : Rat)| = |y - (y - nearestEven y)| := by rw [← e]
        _ ≤ _ := abs_sub _ _
    linarith
  have h3 : |nearestEven y| < n + 1 := by exact_mod_cast h2
  omega

theorem scaled_le (p : Nat) (lo : Int) (x : Rat) : |nearestEven (x / 2 ^ lastBit p lo x)| ≤ 2 ^ p := by
  have h := lt_lastBit p lo x
  have : |x / 2 ^ lastBit p lo x| ≤ ((2 ^ p : Nat) : Rat) := by
    rw [abs_div, abs_of_pos (two_zpow_pos _), div_le_iff₀ (two_zpow_pos _)]
    rw [zpow_add₀ (by norm_num), zpow_natCast] at h
    push_cast
    linarith
  exact_mod_cast nearestEven_abs_le this

/-- The rounded number is a value of the type, unless it is too large. -/
theorem rounded_value {p : Nat} (hp : 0 < p) {lo hi : Int} (hlh : lo ≤ hi) (x : Rat) (h : |rounded p lo x| < 2 ^ (hi + p)) :
    FloatValue p lo hi (rounded p lo x) := by
  rw [floatValue_iff]
  have hn := scaled_le p lo x
  have hlo := lo_le_lastBit p lo x
  rcases hn.lt_or_eq with hn | hn
  · by_cases he : lastBit p lo x ≤ hi
    · exact ⟨_, _, hn, hlo, he, rfl⟩
    · -- a larger exponent: then the magnitude is too large, unless it is zero
      by_cases hz : nearestEven (x / 2 ^ lastBit p lo x) = 0
      · exact ⟨0, lo, by simp, le_refl _, hlh, by rw [rounded, hz]; simp⟩
      · exfalso
        have hx : x ≠ 0 := by
          rintro rfl
          exact hz (by rw [zero_div]; exact nearestEven_int 0)
        have h1 := le_lastBit hx (by omega : lo < lastBit p lo x)
        -- the power of two is not above the rounded number
        have h2 : 2 ^ (lastBit p lo x + p - 1) ≤ |rounded p lo x| := by
          have hy : (2 : Rat) ^ (p - 1) ≤ |x / 2 ^ lastBit p lo x| := by
            rw [abs_div, abs_of_pos (two_zpow_pos _), le_div_iff₀ (two_zpow_pos _), ← zpow_natCast,
              ← zpow_add₀ (by norm_num)]
            refine le_trans (le_of_eq ?_) h1
            congr 1
            push_cast [hp]
            ring
          have hy' : (2 : Int) ^ (p - 1) ≤ |nearestEven (x / 2 ^ lastBit p lo x)| := by
            generalize x / 2 ^ lastBit p lo x = y at hy
            by_contra hc
            have hc' : |nearestEven y| < 2 ^ (p - 1) := not_le.1 hc
            have ha := (C85_nearest_even y).1
            -- the power of two would be nearer
            rcases le_or_gt 0 y with h0 | h0
            · have hb := nearestEven_le y (2 ^ (p - 1))
              rw [abs_of_nonneg h0] at hy
              have hq := (abs_lt.1 hc').2
              have hq' : (nearestEven y : Rat) + 1 ≤ 2 ^ (p - 1) := by exact_mod_cast hq
              push_cast at hb
              rw [abs_of_nonneg (by linarith : (0 : Rat) ≤ y - 2 ^ (p - 1)),
                abs_of_nonneg (by linarith)] at hb
              linarith
            · have hb := nearestEven_le y (-2 ^ (p - 1))
              rw [abs_of_neg h0] at hy
              have hq := (abs_lt.1 hc').1
              have hq' : -(2 : Rat) ^ (p - 1) + 1 ≤ nearestEven y := by exact_mod_cast hq
              push_cast at hb
              rw [abs_of_nonpos (by linarith : y - -(2 : Rat) ^ (p - 1) ≤ 0),
                abs_of_nonpos (by linarith)] at hb
              linarith
          have hy'' : (2 : Rat) ^ (p - 1) ≤ |(nearestEven (x / 2 ^ lastBit p lo x) : Rat)| := by exact_mod_cast hy'
          rw [rounded, abs_mul, abs_of_pos (two_zpow_pos _)]
          calc (2 : Rat) ^ (lastBit p lo x + p - 1) = 2 ^ (p - 1) * 2 ^ lastBit p lo x := by
                rw [← zpow_natCast, ← zpow_add₀ (by norm_num)]
                congr 1
                push_cast [hp]
                ring
            _ ≤ _ := mul_le_mul_of_nonneg_right hy'' (two_zpow_pos _).le
        have h3 : (2 : Rat) ^ (hi + p) ≤ 2 ^ (lastBit p lo x + p - 1) :=
          zpow_le_zpow_right₀ (by norm_num) (by omega)
        linarith
  · -- rounded up to the next power of two
    have hr : |rounded p lo x| = 2 ^ (lastBit p lo x + p) := by
      have : |(nearestEven (x / 2 ^ lastBit p lo x) : Rat)| = 2 ^ p := by exact_mod_cast hn
      rw [rounded, abs_mul, abs_of_pos (two_zpow_pos _), this, zpow_add₀ (by norm_num), zpow_natCast]
      ring
    have he : lastBit p lo x + 1 ≤ hi := by
      rw [hr] at h
      have := (zpow_lt_zpow_iff_right₀ (by norm_num : (1 : Rat) < 2)).1 h
      omega
    have hp2 : (2 : Int) ^ (p - 1) < 2 ^ p := by
      apply pow_lt_pow_right₀ (by norm_num); omega
    have h2p : (2 : Rat) ^ p = 2 * 2 ^ (p - 1) := by
      rw [← pow_succ']
      congr 1
      omega
    rcases (abs_eq (by positivity)).1 hn with hn | hn
    · refine ⟨2 ^ (p - 1), lastBit p lo x + 1, ?_, by omega, he, ?_⟩
      · rw [abs_of_pos (by positivity)]; exact hp2
      · rw [rounded, hn, zpow_add₀ (by norm_num)]
        push_cast
        rw [h2p]
        ring
    · refine ⟨-2 ^ (p - 1), lastBit p lo x + 1, ?_, by omega, he, ?_⟩
      · rw [abs_neg, abs_of_pos (by positivity)]; exact hp2
      · rw [rounded, hn, zpow_add₀ (by norm_num)]
        push_cast
        rw [h2p]
        ring

/-- A value of the type is not changed. -/
theorem rounded_exact {p : Nat} (hp : 0 < p) {lo hi : Int} {x : Rat} (h : FloatValue p lo hi x) :
    rounded p lo x = x ∧ |x| < 2 ^ (hi + p) := by
  obtain ⟨m, e, hm, hl, hh, rfl⟩ := (floatValue_iff p lo hi x).1 h
  constructor
  · have := (rounded_nearest hp ((m : Rat) * 2 ^ e) hm hl).1
    rw [sub_self, abs_zero] at this
    have := abs_eq_zero.1 (le_antisymm this (abs_nonneg _))
    linarith
  · rw [abs_mul, abs_of_pos (two_zpow_pos e)]
    have h1 : |(m : Rat)| < 2 ^ p := by exact_mod_cast hm
    calc |(m : Rat)| * 2 ^ e < 2 ^ p * 2 ^ e := mul_lt_mul_of_pos_right h1 (two_zpow_pos e)
      _ ≤ 2 ^ p * 2 ^ hi := mul_le_mul_of_nonneg_left (zpow_le_zpow_right₀ (by norm_num) hh) (by positivity)
      _ = 2 ^ (hi + p) := by
        rw [zpow_add₀ (by norm_num), zpow_natCast]
        ring

end Fern.Casts
