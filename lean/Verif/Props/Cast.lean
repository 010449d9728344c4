import Verif.Model.Cast
import Verif.Spec.Cast
import Verif.Lemmas.Cast
import Verif.Lemmas.CInt
import Verif.Props.LocalOps

/-!
# C91: casting between types; C92: signs and elementwise extremes
-/

namespace Fern.Casts

open Fern Fern.Domains Fern.Spec Fern.Casts.Spec

/-! ### Rounding to floating point values -/

section

variable {p : Nat} (hp : 0 < p) {lo hi : Int} (hlh : lo ≤ hi)

include hp hlh

/-- A number is rounded to a value of the type that is nearest to it. -/
theorem C91_round_nearest (x r : Rat) (h : roundTo p lo hi x = .fin r) : Nearest (FloatValue p lo hi) x r := by
  rw [roundTo_eq] at h
  split at h
  · split at h <;> cases h
  · next hn =>
    cases h
    refine ⟨rounded_value hp hlh x (not_le.1 hn), fun m hm => ?_⟩
    obtain ⟨k, e, hk, hl, -, rfl⟩ := (floatValue_iff p lo hi m).1 hm
    exact (rounded_nearest hp x hk hl).1

/-- Of two nearest values, the one with an even last bit. -/
theorem C91_round_even (x r m : Rat) (h : roundTo p lo hi x = .fin r) (hm : FloatValue p lo hi m) (hne : m ≠ r)
    (ht : |x - m| = |x - r|) : ∃ (n e : Int), r = (2 * n : Int) * 2 ^ e ∧ m = (2 * n - 1 : Int) * 2 ^ e ∨
      r = (2 * n : Int) * 2 ^ e ∧ m = (2 * n + 1 : Int) * 2 ^ e := by
  rw [roundTo_eq] at h
  split at h
  · split at h <;> cases h
  · cases h
    obtain ⟨k, e, hk, hl, -, rfl⟩ := (floatValue_iff p lo hi m).1 hm
    obtain ⟨n, hn⟩ := (rounded_nearest hp x hk hl).2 ht
    rw [hn] at ht hne ⊢
    rw [rounded] at hne ht ⊢
    rw [scaled, scaled] at ht
    have ht := mul_right_cancel₀ (two_zpow_pos _).ne' ht
    set y := x / 2 ^ lastBit p lo x
    have hne' : n ≠ nearestEven y := fun e => hne (by rw [e])
    have he := nearestEven_tie y n hne' ht
    have h1 := (C85_nearest_even y).1
    have h3 : |n - nearestEven y| ≤ 1 := by
      have : |(n : Rat) - nearestEven y| ≤ 1 := by
        have e : (n : Rat) - nearestEven y = (y - nearestEven y) - (y - n) := by ring
        rw [e]
        refine (abs_sub _ _).trans ?_
        linarith
      exact_mod_cast this
    have h4 := abs_le.1 h3
    obtain ⟨q, hq⟩ : ∃ q, nearestEven y = 2 * q := ⟨nearestEven y / 2, by omega⟩
    refine ⟨q, lastBit p lo x, ?_⟩
    rw [hq]
    have : n = 2 * q - 1 ∨ n = 2 * q + 1 := by omega
    rcases this with h | h
    · exact Or.inl ⟨rfl, by rw [h]⟩
    · exact Or.inr ⟨rfl, by rw [h]⟩

/-- Values of the type are not changed. -/
theorem C91_round_exact (x : Rat) (h : FloatValue p lo hi x) : roundTo p lo hi x = .fin x := by
  obtain ⟨h1, h2⟩ := rounded_exact hp h
  rw [roundTo_eq, h1, if_neg (not_le.2 h2)]

/-- Negation. -/
theorem C91_round_neg (x : Rat) : roundTo p lo hi (-x) = opposite (roundTo p lo hi x) := by
  have hl : lastBit p lo (-x) = lastBit p lo x := by rw [lastBit, abs_neg, lastBit]
  have hn : ∀ y : Rat, nearestEven (-y) = -nearestEven y := by
    intro y
    by_contra hc
    obtain ⟨h1, h2⟩ := C85_nearest_even (-y)
    obtain ⟨h3, h4⟩ := C85_nearest_even y
    have e1 : |-y - nearestEven (-y)| = |y - (-nearestEven (-y) : Int)| := by
      rw [← abs_neg]; congr 1; push_cast; ring
    rw [e1] at h1 h2
    generalize nearestEven (-y) = a at *
    generalize nearestEven y = b at *
    have h5 : |(-a : Int) - b| ≤ 1 := by
      have : |((-a : Int) : Rat) - b| ≤ 1 := by
        have e : ((-a : Int) : Rat) - b = (y - b) - (y - (-a : Int)) := by ring
        rw [e]
        refine (abs_sub _ _).trans ?_
        linarith
      exact_mod_cast this
    have h6 := abs_le.1 h5
    have h7 : (1 : Rat) ≤ |y - b| + |y - (-a : Int)| := by
      have : (1 : Rat) ≤ |((-a : Int) : Rat) - b| := by
        have : 1 ≤ |(-a : Int) - b| := Int.one_le_abs (by omega)
        exact_mod_cast this
      refine this.trans ?_
      have e : ((-a : Int) : Rat) - b = (y - b) - (y - (-a : Int)) := by ring
      rw [e]
      exact abs_sub _ _
    have h8 := h2 (by linarith)
    have h9 := h4 (by linarith)
    omega
  have hr : rounded p lo (-x) = -rounded p lo x := by
    rw [rounded, hl, neg_div, hn, rounded]
    push_cast
    ring
  rw [roundTo_eq, roundTo_eq, hr, abs_neg]
  split
  · next h =>
    have hx : x ≠ 0 := by
      rintro rfl
      have : rounded p lo 0 = 0 := by
        rw [rounded, zero_div, show nearestEven 0 = 0 from nearestEven_int 0]
        simp
      rw [this, abs_zero] at h
      exact absurd h (not_le.2 (two_zpow_pos _))
    rcases lt_or_gt_of_ne hx with h | h
    · rw [if_pos (by linarith), if_neg (by linarith)]; rfl
    · rw [if_neg (by linarith), if_pos h]; rfl
  · rfl

/-- A number becomes infinity if it is at least half a last bit above the largest value. -/
theorem C91_round_overflow (x : Rat) :
    roundTo p lo hi x = .inf ↔ ((2 : Rat) ^ p - 1 / 2) * 2 ^ hi ≤ x := by
  have hP : (0 : Rat) < 2 ^ hi := two_zpow_pos hi
  have h1p : (1 : Rat) ≤ 2 ^ p := one_le_pow₀ (by norm_num)
  have hT : (2 : Rat) ^ (hi + p) = 2 ^ p * 2 ^ hi := by
    rw [zpow_add₀ (by norm_num), zpow_natCast]; ring
  -- the largest value
  have hmax : FloatValue p lo hi ((2 ^ p - 1) * 2 ^ hi) := by
    rw [floatValue_iff]
    refine ⟨2 ^ p - 1, hi, ?_, hlh, le_refl _, by push_cast; ring⟩
    have : (1 : Int) ≤ 2 ^ p := one_le_pow₀ (by norm_num)
    rw [abs_of_nonneg (by omega)]
    omega
  obtain ⟨K, E, hK, hKl, -, hKE⟩ := (floatValue_iff _ _ _ _).1 hmax
  have near1 := (rounded_nearest hp x hK hKl).1
  rw [← hKE] at near1
  -- the power of two above it
  have hk2 : |(2 : Int) ^ (p - 1)| < 2 ^ p := by
    rw [abs_of_pos (by positivity)]
    apply pow_lt_pow_right₀ (by norm_num); omega
  have hpow : ((2 ^ (p - 1) : Int) : Rat) * 2 ^ (hi + 1) = 2 ^ p * 2 ^ hi := by
    have : (2 : Rat) ^ p = 2 ^ (p - 1) * 2 := by
      rw [← pow_succ]; congr 1; omega
    rw [zpow_add₀ (by norm_num), this]
    push_cast
    ring
  obtain ⟨near2, tie2⟩ := rounded_nearest hp x hk2 (by omega : lo ≤ hi + 1)
  rw [hpow] at near2 tie2
  rw [roundTo_eq, hT]
  constructor
  · intro h
    split at h
    · next hbig =>
      split at h
      · next hpos =>
        -- the rounded number is positive
        by_contra hlt
        have hlt : x < ((2 : Rat) ^ p - 1 / 2) * 2 ^ hi := not_le.1 hlt
        have hr0 : 0 ≤ rounded p lo x := by
          have := (rounded_nearest hp x (m := 0) (by simp) (le_refl lo)).1
          simp only [Int.cast_zero, zero_mul, sub_zero] at this
          rw [abs_of_pos hpos] at this
          have := (abs_le.1 this).2
          linarith
        rw [abs_of_nonneg hr0] at hbig
        rcases le_total x ((2 ^ p - 1) * 2 ^ hi) with hc | hc
        · rw [abs_of_nonpos (by nlinarith : x - rounded p lo x ≤ 0),
            abs_of_nonpos (by linarith : x - (2 ^ p - 1) * 2 ^ hi ≤ 0)] at near1
          nlinarith
        · rw [abs_of_nonneg (by linarith : (0 : Rat) ≤ x - (2 ^ p - 1) * 2 ^ hi)] at near1
          have := (abs_le.1 near1).1
          nlinarith
      · cases h
    · cases h
  · intro hx
    have hxpos : 0 < x := lt_of_lt_of_le (by nlinarith) hx
    rw [if_pos hxpos]
    rw [if_pos]
    by_contra hc
    have hc : |rounded p lo x| < 2 ^ p * 2 ^ hi := not_le.1 hc
    have hv := rounded_value hp hlh x (by rw [hT]; exact hc)
    have hle : rounded p lo x ≤ (2 ^ p - 1) * 2 ^ hi := by
      obtain ⟨m, e, hm, -, he, hme⟩ := (floatValue_iff _ _ _ _).1 hv
      rw [hme]
      have h1 : (m : Rat) ≤ 2 ^ p - 1 := by
        have := (abs_lt.1 hm).2
        have : m ≤ 2 ^ p - 1 := by omega
        exact_mod_cast this
      calc (m : Rat) * 2 ^ e ≤ (2 ^ p - 1) * 2 ^ e := mul_le_mul_of_nonneg_right h1 (two_zpow_pos e).le
        _ ≤ (2 ^ p - 1) * 2 ^ hi :=
          mul_le_mul_of_nonneg_left (zpow_le_zpow_right₀ (by norm_num) he) (by linarith)
    have hrx : rounded p lo x ≤ x := by nlinarith
    rw [abs_of_nonneg (by linarith : (0 : Rat) ≤ x - rounded p lo x)] at near2 tie2
    rcases le_total x (2 ^ p * 2 ^ hi) with hd | hd
    · rw [abs_of_nonpos (by linarith)] at near2 tie2
      -- a tie between the largest value and the power of two
      have hx' : x = ((2 : Rat) ^ p - 1 / 2) * 2 ^ hi := by nlinarith
      have hr' : rounded p lo x = (2 ^ p - 1) * 2 ^ hi := by nlinarith
      obtain ⟨n, hn⟩ := tie2 (by rw [hr', hx']; ring)
      have hbit : hi ≤ lastBit p lo x := by
        have h1 := lt_lastBit p lo x
        rw [abs_of_pos hxpos] at h1
        have h2 : (2 : Rat) ^ (hi + p - 1) ≤ x := by
          rw [hx']
          have : (2 : Rat) ^ (hi + p - 1) = 2 ^ (p - 1) * 2 ^ hi := by
            rw [← zpow_natCast, ← zpow_add₀ (by norm_num)]
            congr 1
            push_cast [hp]
            ring
          rw [this]
          refine mul_le_mul_of_nonneg_right ?_ hP.le
          have : (2 : Rat) ^ p = 2 ^ (p - 1) * 2 := by
            rw [← pow_succ]; congr 1; omega
          have : (1 : Rat) ≤ 2 ^ (p - 1) := one_le_pow₀ (by norm_num)
          linarith
        have h3 := (zpow_lt_zpow_iff_right₀ (by norm_num : (1 : Rat) < 2)).1 (lt_of_le_of_lt h2 h1)
        omega
      rw [rounded] at hr'
      set N := nearestEven (x / 2 ^ lastBit p lo x) with hN
      have heven : N % 2 = 0 := by
        refine nearestEven_tie _ n ?_ ?_
        · rintro rfl
          rw [← hN, hr'] at hn
          nlinarith
        · have hb := two_zpow_pos (lastBit p lo x)
          have t1 := scaled x (lastBit p lo x) n
          have t2 := scaled x (lastBit p lo x) N
          rw [← hn] at t1
          rw [hr'] at t2
          have : |x - 2 ^ p * 2 ^ hi| = |x - (2 ^ p - 1) * 2 ^ hi| := by
            rw [hx', abs_of_nonpos (by nlinarith), abs_of_nonneg (by nlinarith)]
            ring
          rw [t1, t2] at this
          exact mul_right_cancel₀ hb.ne' this
      obtain ⟨k, hk⟩ := Int.eq_ofNat_of_zero_le (sub_nonneg.2 hbit)
      have hz : lastBit p lo x = hi + k := by omega
      rw [hz, zpow_add₀ (by norm_num), zpow_natCast] at hr'
      have h5 : (N : Rat) * 2 ^ k = 2 ^ p - 1 := by
        have : ((N : Rat) * 2 ^ k) * 2 ^ hi = (2 ^ p - 1) * 2 ^ hi := by rw [← hr']; ring
        exact mul_right_cancel₀ hP.ne' this
      have h6 : N * 2 ^ k = 2 ^ p - 1 := by exact_mod_cast h5
      have h7 : (N * 2 ^ k) % 2 = 0 := by
        rw [Int.mul_emod, heven]; simp
      have h8 : ((2 : Int) ^ p) % 2 = 0 := by
        obtain ⟨q, rfl⟩ : ∃ q, p = q + 1 := ⟨p - 1, by omega⟩
        rw [pow_succ]; simp
      omega
    · rw [abs_of_nonneg (by linarith)] at near2
      have := abs_lt.1 hc
      linarith

/-- Rounding keeps the order. -/
theorem C91_round_mono (x y r s : Rat) (h : x ≤ y) (hr : roundTo p lo hi x = .fin r)
    (hs : roundTo p lo hi y = .fin s) : r ≤ s := by
  rcases h.eq_or_lt with rfl | h
  · rw [hr] at hs
    cases hs
    exact le_refl _
  · by_contra hc
    have hc : s < r := not_le.1 hc
    obtain ⟨v1, n1⟩ := C91_round_nearest hp hlh x r hr
    obtain ⟨v2, n2⟩ := C91_round_nearest hp hlh y s hs
    have a := n1 s v2
    have b := n2 r v1
    have a2 : 2 * x ≥ r + s := by
      by_contra hh
      have hh := not_le.1 hh
      rcases le_total x s with h1 | h1
      · rw [abs_of_nonpos (by linarith), abs_of_nonpos (by linarith)] at a
        linarith
      · rw [abs_of_nonpos (by linarith), abs_of_nonneg (by linarith)] at a
        linarith
    have b2 : 2 * y ≤ r + s := by
      by_contra hh
      have hh := not_le.1 hh
      rcases le_total r y with h1 | h1
      · rw [abs_of_nonneg (by linarith), abs_of_nonneg (by linarith)] at b
        linarith
      · rw [abs_of_nonneg (by linarith), abs_of_nonpos (by linarith)] at b
        linarith
    linarith

end

/-- One tenth is not a `double`; the nearest one is a little more. -/
example : toDouble (1 / 10) = .fin (3602879701896397 / 36028797018963968) := by decide +kernel

example : toFloat 340282356779733661637539395458142568447 = .fin 340282346638528859811704183484516925440 ∧
    toFloat 340282356779733661637539395458142568448 = .inf := by decide +kernel

/-! ### Casting -/

/-- The types for which casting can be combined with the policy that checks the result. -/
theorem C91_supported (s r : NumTy) : (castWithinRange s r).isSome = true ↔ Supported s r := by
  rcases s with _ | a | _ | _ <;> rcases r with _ | b | _ | _ <;>
    simp [castWithinRange, Supported] <;>
    cases a <;> cases b <;> simp [Signed, Unsigned, IntTy.signed, IntTy.bits]

theorem rat_floor_int (i : Int) : (i : Rat).floor = i := by simp

theorem represents_int_wider {a b : IntTy} (hs : a.signed = b.signed) (hb : a.bits ≤ b.bits) {i : Int}
    (h : Fits a i) : Fits b i := by
  cases a <;> cases b <;> simp [IntTy.signed, IntTy.bits] at hs hb <;> simp only [Fits] at h ⊢ <;> omega

theorem float_of_bool {q : Rat} (h : q = 0 ∨ q = 1) {p : Nat} (hp : 0 < p) {lo hi : Int} (h1 : lo ≤ 0) (h2 : 0 ≤ hi) :
    FloatValue p lo hi q := by
  rw [floatValue_iff]
  have : (1 : Int) < 2 ^ p := one_lt_pow₀ (by norm_num) (by omega)
  rcases h with rfl | rfl
  · exact ⟨0, 0, by simp, h1, h2, by simp⟩
  · exact ⟨1, 0, by simpa using this, h1, h2, by simp⟩

/-- For these types nothing is lost and nothing is refused: a value of the source type is a value of the other type,
and it is the result. -/
theorem C91_checked (s r : NumTy) (b : Bool) (h : castWithinRange s r = some b) (x : Flt) (hx : OfType s x) :
    b = true ∧ castTo s r x = some x ∧ OfType r x := by
  have hb : b = true := by
    rcases s with _ | a | _ | _ <;> rcases r with _ | c | _ | _ <;> simp [castWithinRange] at h <;>
      first | exact h.symm | exact h.2.2.symm | exact h.2.symm | simp_all
  refine ⟨hb, ?_⟩
  rcases s with _ | a | _ | _
  · -- from bool
    cases x with
    | fin q =>
      have hq : q = 0 ∨ q = 1 := hx
      cases r with
      | bool => rcases hq with rfl | rfl <;> exact ⟨by decide, by simp [OfType, Represents]⟩
      | int t =>
        rcases hq with rfl | rfl
        · refine ⟨?_, 0, by simp, fits_zero t⟩
          have : t.wrap (0 : Rat).floor = 0 := by cases t <;> decide +kernel
          simp [castTo, this]
        · refine ⟨?_, 1, by simp, by cases t <;> simp [Fits]⟩
          have : t.wrap (1 : Rat).floor = 1 := by cases t <;> decide +kernel
          simp [castTo, this]
      | f32 =>
        have hf := float_of_bool hq (p := 24) (by norm_num) (lo := -149) (hi := 104) (by norm_num) (by norm_num)
        exact ⟨congrArg some (C91_round_exact (by norm_num) (by norm_num) q hf), hf⟩
      | f64 =>
        have hf := float_of_bool hq (p := 53) (by norm_num) (lo := -1074) (hi := 971) (by norm_num) (by norm_num)
        exact ⟨congrArg some (C91_round_exact (by norm_num) (by norm_num) q hf), hf⟩
    | inf => rcases hx with h | h <;> cases h
    | negInf => rcases hx with h | h <;> cases h
    | nan => rcases hx with h | h <;> cases h
  · -- from integers
    cases r with
    | int t =>
      cases x with
      | fin q =>
        obtain ⟨i, rfl, hi⟩ := hx
        have hst : a.signed = t.signed ∧ a.bits ≤ t.bits := by
          by_cases h1 : a.signed = t.signed
          · by_cases h2 : a.bits ≤ t.bits
            · exact ⟨h1, h2⟩
            · simp [castWithinRange, h1, h2] at h
          · simp [castWithinRange, h1] at h
        have hf := represents_int_wider hst.1 hst.2 hi
        refine ⟨?_, i, rfl, hf⟩
        have := rat_floor_int i
        simp [castTo, this, wrap_fits hf]
      | inf => rcases hx with h | h <;> cases h
      | negInf => rcases hx with h | h <;> cases h
      | nan => rcases hx with h | h <;> cases h
    | bool => cases h
    | f32 => cases h
    | f64 => cases h
  · cases r with
    | f32 =>
      refine ⟨?_, hx⟩
      cases x with
      | fin q => exact congrArg some (C91_round_exact (by norm_num) (by norm_num) q hx)
      | inf => rfl
      | negInf => rfl
      | nan => rfl
    | bool => cases h
    | int t => cases h
    | f64 => cases h
  · cases r with
    | f64 =>
      refine ⟨?_, hx⟩
      cases x with
      | fin q => exact congrArg some (C91_round_exact (by norm_num) (by norm_num) q hx)
      | inf => rfl
      | negInf => rfl
      | nan => rfl
    | bool => cases h
    | int t => cases h
    | f32 => cases h

example : castTo (.int .i16) (.int .i64) (.fin (-300)) = some (.fin (-300)) :=
  (C91_checked (.int .i16) (.int .i64) true rfl (.fin (-300)) ⟨-300, by norm_num, by simp [Fits]⟩).2.1

/-- The policy is not there for other types although they have all values too: from unsigned to wider signed integers,
from integers to floating point numbers, from `float` to `double`. -/
theorem C91_unsupported :
    (RepresentsAll (.int .i16) (.int .u8) ∧ castWithinRange (.int .u8) (.int .i16) = none) ∧
    (RepresentsAll .f32 (.int .i8) ∧ castWithinRange (.int .i8) .f32 = none) ∧
    (RepresentsAll .f64 .f32 ∧ castWithinRange .f32 .f64 = none) := by
  refine ⟨⟨?_, rfl⟩, ⟨?_, rfl⟩, ⟨?_, rfl⟩⟩
  · rintro v ⟨i, rfl, h⟩
    exact ⟨i, rfl, by simp only [Fits] at h ⊢; omega⟩
  · rintro v ⟨i, rfl, h⟩
    have := (floatValue_iff 24 (-149) 104 i).2 ⟨i, 0, by
      simp only [Fits] at h
      rw [abs_lt]
      norm_num
      omega, by norm_num, by norm_num, by simp⟩
    exact this
  · intro v h
    obtain ⟨m, e, h1, h2, h3, h4⟩ := (floatValue_iff _ _ _ _).1 h
    exact (floatValue_iff 53 (-1074) 971 v).2 ⟨m, e, by
      rw [abs_lt] at h1 ⊢
      norm_num at h1 ⊢
      omega, by omega, by omega, h4⟩

/-- Without the policy: between integers the result is the value of the type that differs by a multiple of the number
of values. -/
theorem C91_integers (s t : IntTy) (i : Int) : ∃ j : Int, castTo (.int s) (.int t) (.fin i) = some (.fin j) ∧ Fits t j ∧
    (2 ^ t.bits : Int) ∣ i - j ∧ (Fits t i → j = i) := by
  have hf := rat_floor_int i
  refine ⟨t.wrap i, by simp [castTo, hf], fits_wrap t i, ?_, wrap_fits⟩
  cases t <;> simp only [wrap_u8, wrap_u16, wrap_u32, wrap_u64, wrap_i8, wrap_i16, wrap_i32, wrap_i64, IntTy.bits] <;>
    omega

example : castTo (.int .i32) (.int .u8) (.fin (-1)) = some (.fin 255) := by decide +kernel

/-- To `bool`: whether the value is other than zero. -/
theorem C91_boolean (s : NumTy) (x : Flt) : castTo s .bool x = some (.fin 0) ∧ x = .fin 0 ∨
    castTo s .bool x = some (.fin 1) ∧ x ≠ .fin 0 := by
  by_cases h : x = .fin 0
  · exact Or.inl ⟨by simp [castTo, h], h⟩
  · exact Or.inr ⟨by simp [castTo, h], h⟩

/-- From floating point numbers to integers: the integer part, if it is a value of the type; undefined behaviour if
it isn't, or there is none. -/
theorem C91_truncated (s : NumTy) (hs : s = .f32 ∨ s = .f64) (t : IntTy) :
    (∀ (q : Rat) (n : Int), IntegerPart q n →
      castTo s (.int t) (.fin q) = if Fits t n then some (.fin n) else none) ∧
    castTo s (.int t) .inf = none ∧ castTo s (.int t) .negInf = none ∧ castTo s (.int t) .nan = none := by
  refine ⟨fun q n hn => ?_, ?_, ?_, ?_⟩
  · have ht : truncRat q = n := by
      obtain ⟨h1, h2⟩ := hn
      obtain ⟨h3, h4⟩ := C85_trunc q
      rcases le_total 0 q with h | h
      · obtain ⟨a, b⟩ := h1 h
        obtain ⟨c, d⟩ := h3 h
        have e1 : (truncRat q : Rat) < n + 1 := by linarith
        have e2 : (n : Rat) < truncRat q + 1 := by linarith
        have e1 : truncRat q < n + 1 := by exact_mod_cast e1
        have e2 : n < truncRat q + 1 := by exact_mod_cast e2
        omega
      · obtain ⟨a, b⟩ := h2 h
        obtain ⟨c, d⟩ := h4 h
        have e1 : (truncRat q : Rat) - 1 < n := by linarith
        have e2 : (n : Rat) - 1 < truncRat q := by linarith
        have e1 : truncRat q - 1 < n := by exact_mod_cast e1
        have e2 : n - 1 < truncRat q := by exact_mod_cast e2
        omega
    rcases hs with rfl | rfl <;>
    · simp only [castTo, toInteger, ht, ← fits_iff]
      split <;> rfl
  all_goals rcases hs with rfl | rfl <;> rfl

example : castTo .f64 (.int .i8) (.fin (-7 / 2)) = some (.fin (-3)) ∧ castTo .f64 (.int .u8) (.fin 256) = none := by
  decide +kernel

/-- To a floating point type: the nearest value, for all numbers that are not too large. -/
theorem C91_float (s : NumTy) (q : Rat) : ∃ y, castTo s .f32 (.fin q) = some y ∧
    (y = .inf ∧ ((2 : Rat) ^ 24 - 1 / 2) * 2 ^ 104 ≤ q ∨ y = .negInf ∧ q ≤ -(((2 : Rat) ^ 24 - 1 / 2) * 2 ^ 104) ∨
      |q| < ((2 : Rat) ^ 24 - 1 / 2) * 2 ^ 104 ∧ ∃ r, y = .fin r ∧ Nearest (Represents .f32) q r) := by
  refine ⟨toFloat q, rfl, ?_⟩
  have ho := fun x => C91_round_overflow (p := 24) (by norm_num) (lo := -149) (hi := 104) (by norm_num) x
  have hneg := C91_round_neg (p := 24) (by norm_num) (lo := -149) (hi := 104) (by norm_num) q
  simp only [show ((2 : Rat) ^ (104 : Int)) = 2 ^ 104 by norm_cast] at ho
  by_cases h1 : ((2 : Rat) ^ 24 - 1 / 2) * 2 ^ 104 ≤ q
  · exact Or.inl ⟨(ho q).2 h1, h1⟩
  · by_cases h2 : q ≤ -(((2 : Rat) ^ 24 - 1 / 2) * 2 ^ 104)
    · refine Or.inr (Or.inl ⟨?_, h2⟩)
      have := (ho (-q)).2 (by linarith)
      rw [hneg] at this
      rw [toFloat]
      cases hr : roundTo 24 (-149) 104 q <;> rw [hr] at this <;> simp_all [opposite]
    · refine Or.inr (Or.inr ⟨abs_lt.2 ⟨by linarith, by linarith⟩, ?_⟩)
      have n1 : roundTo 24 (-149) 104 q ≠ .inf := fun e => h1 ((ho q).1 e)
      have n2 : roundTo 24 (-149) 104 q ≠ .negInf := fun e => by
        rw [e] at hneg
        exact h2 (by have := (ho (-q)).1 hneg; linarith)
      rw [toFloat]
      cases hr : roundTo 24 (-149) 104 q with
      | fin r => exact ⟨r, rfl, C91_round_nearest (by norm_num) (by norm_num) q r hr⟩
      | inf => exact absurd hr n1
      | negInf => exact absurd hr n2
      | nan =>
        rw [roundTo_eq] at hr
        split at hr
        · split at hr <;> cases hr
        · cases hr

@[inherit_doc C91_float]
theorem C91_double (s : NumTy) (q : Rat) : ∃ y, castTo s .f64 (.fin q) = some y ∧
    (y = .inf ∧ ((2 : Rat) ^ 53 - 1 / 2) * 2 ^ 971 ≤ q ∨ y = .negInf ∧ q ≤ -(((2 : Rat) ^ 53 - 1 / 2) * 2 ^ 971) ∨
      |q| < ((2 : Rat) ^ 53 - 1 / 2) * 2 ^ 971 ∧ ∃ r, y = .fin r ∧ Nearest (Represents .f64) q r) := by
  refine ⟨toDouble q, rfl, ?_⟩
  have ho := fun x => C91_round_overflow (p := 53) (by norm_num) (lo := -1074) (hi := 971) (by norm_num) x
  have hneg := C91_round_neg (p := 53) (by norm_num) (lo := -1074) (hi := 971) (by norm_num) q
  have hz : ((2 : Rat) ^ (971 : Int)) = 2 ^ (971 : Nat) := zpow_natCast 2 971
  simp only [hz] at ho
  generalize hT : ((2 : Rat) ^ 53 - 1 / 2) * 2 ^ 971 = B at ho ⊢
  by_cases h1 : B ≤ q
  · exact Or.inl ⟨(ho q).2 h1, h1⟩
  · by_cases h2 : q ≤ -B
    · refine Or.inr (Or.inl ⟨?_, h2⟩)
      have := (ho (-q)).2 (by linarith)
      rw [hneg] at this
      rw [toDouble]
      cases hr : roundTo 53 (-1074) 971 q <;> rw [hr] at this <;> simp_all [opposite]
    · refine Or.inr (Or.inr ⟨abs_lt.2 ⟨by linarith, by linarith⟩, ?_⟩)
      have n1 : roundTo 53 (-1074) 971 q ≠ .inf := fun e => h1 ((ho q).1 e)
      have n2 : roundTo 53 (-1074) 971 q ≠ .negInf := fun e => by
        rw [e] at hneg
        exact h2 (by have := (ho (-q)).1 hneg; linarith)
      rw [toDouble]
      cases hr : roundTo 53 (-1074) 971 q with
      | fin r => exact ⟨r, rfl, C91_round_nearest (by norm_num) (by norm_num) q r hr⟩
      | inf => exact absurd hr n1
      | negInf => exact absurd hr n2
      | nan =>
        rw [roundTo_eq] at hr
        split at hr
        · split at hr <;> cases hr
        · cases hr

/-- Values that the floating point type has are not changed; infinities and NaN neither. -/
theorem C91_exact (s : NumTy) :
    (∀ q, Represents .f32 q → castTo s .f32 (.fin q) = some (.fin q)) ∧
    (∀ q, Represents .f64 q → castTo s .f64 (.fin q) = some (.fin q)) ∧
    ∀ r x, (r = .f32 ∨ r = .f64) → x.isFinite = false → castTo s r x = some x := by
  refine ⟨fun q h => ?_, fun q h => ?_, ?_⟩
  · exact congrArg some (C91_round_exact (by norm_num) (by norm_num) q h)
  · exact congrArg some (C91_round_exact (by norm_num) (by norm_num) q h)
  · rintro r x (rfl | rfl) hx <;> cases x <;> first | rfl | cases hx

/-- Small integers are values of the floating point types. -/
theorem C91_small (i : Int) : (|i| ≤ 2 ^ 24 → Represents .f32 i) ∧ (|i| ≤ 2 ^ 53 → Represents .f64 i) := by
  constructor
  · intro h
    refine (floatValue_iff 24 (-149) 104 i).2 ?_
    rcases h.lt_or_eq with h | h
    · exact ⟨i, 0, h, by norm_num, by norm_num, by simp⟩
    · rcases (abs_eq (by positivity)).1 h with rfl | rfl
      · exact ⟨1, 24, by norm_num, by norm_num, by norm_num, by norm_cast⟩
      · exact ⟨-1, 24, by norm_num, by norm_num, by norm_num, by norm_cast⟩
  · intro h
    refine (floatValue_iff 53 (-1074) 971 i).2 ?_
    rcases h.lt_or_eq with h | h
    · exact ⟨i, 0, h, by norm_num, by norm_num, by simp⟩
    · rcases (abs_eq (by positivity)).1 h with rfl | rfl
      · exact ⟨1, 53, by norm_num, by norm_num, by norm_num, by norm_cast⟩
      · exact ⟨-1, 53, by norm_num, by norm_num, by norm_num, by norm_cast⟩

/-- So they survive going to a floating point type and back. -/
theorem C91_there_and_back (t : IntTy) (i : Int) (h : Fits t i) :
    (|i| ≤ 2 ^ 24 → (castTo (.int t) .f32 (.fin i)).bind (castTo .f32 (.int t)) = some (.fin i)) ∧
    (|i| ≤ 2 ^ 53 → (castTo (.int t) .f64 (.fin i)).bind (castTo .f64 (.int t)) = some (.fin i)) := by
  have hi : IntegerPart i i := ⟨fun _ => ⟨le_refl _, by linarith⟩, fun _ => ⟨le_refl _, by linarith⟩⟩
  constructor
  · intro hs
    rw [(C91_exact _).1 _ ((C91_small i).1 hs), Option.bind_some, (C91_truncated .f32 (Or.inl rfl) t).1 i i hi,
      if_pos h]
  · intro hs
    rw [(C91_exact _).2.1 _ ((C91_small i).2 hs), Option.bind_some, (C91_truncated .f64 (Or.inr rfl) t).1 i i hi,
      if_pos h]

/-- Larger ones need not: they change, or coming back is undefined behaviour. -/
theorem C91_there_and_back_false :
    (castTo (.int .i32) .f32 (.fin 16777217)).bind (castTo .f32 (.int .i32)) = some (.fin 16777216) ∧
    (castTo (.int .i64) .f64 (.fin 9223372036854775807)).bind (castTo .f64 (.int .i64)) = none := by
  decide +kernel

/-- Casting a raster between types that the policy supports: cells without value are marked, other cells get the
same number. -/
theorem C91_raster (s r : NumTy) (hs : Supported s r) (inp : InPolicy Flt) (outp : OutPolicy Flt) (n1 n2 : Nat)
    (value : List Flt) (hval : ∀ x ∈ value, OfType s x) (result : List (Cell Flt)) (hv : value.length = n1 * n2)
    (hr : result.length = n1 * n2) (hp : PolicyFor inp (n1 * n2)) :
    ∃ out, unary2d (castOp s r) inp outp (n1, n2) value (n1, n2) result = some out ∧
      Elementwise (fun i c c' => ∀ v, value[i]? = some v →
        (NoDataAt inp value i → Marked outp c c') ∧ (¬ NoDataAt inp value i → c' = ⟨v, c.masked⟩)) result out := by
  obtain ⟨b, hb⟩ := Option.isSome_iff_exists.1 ((C91_supported s r).2 hs)
  obtain ⟨out, h1, h2, h3⟩ := C09_unary_2d (castOp s r) inp outp n1 n2 value result hv hr hp
  refine ⟨out, h1, h2, fun i c hc => ?_⟩
  obtain ⟨c', hc', h⟩ := h3 i c hc
  refine ⟨c', hc', fun v hvi => ⟨(h v hvi).noData, fun hn => ?_⟩⟩
  obtain ⟨rfl, hx, -⟩ := C91_checked s r b hb v (hval v (List.mem_of_getElem? hvi))
  have := (h v hvi).ok hn rfl (by simp [castOp, hb])
  rw [this]
  simp [castOp, hx]

/-! ### Signs -/

/-- The sign of a number is 1 or -1: zero counts as positive, and so do all unsigned numbers. -/
theorem C92_sign (t : IntTy) (x : Int) (h : Fits t x) :
    (0 ≤ x → signInt t x = 1) ∧ (x < 0 → signInt t x = -1) := by
  rw [signInt]
  constructor
  · intro h0
    simp [h0]
  · intro h0
    have hs : t.signed = true := by
      by_contra hc
      have := fits_nonneg (by simpa using hc) h
      omega
    simp [hs, not_le.2 h0]

example : signInt .i32 0 = 1 ∧ signInt .i32 (-5) = -1 ∧ signInt .u8 5 = 1 := by decide

/-- Of floating point numbers: NaN counts as negative. -/
theorem C92_sign_float (x : Flt) :
    (signFlt x = 1 ∧ (x = .inf ∨ ∃ q : Rat, x = .fin q ∧ 0 ≤ q)) ∨
      (signFlt x = -1 ∧ (x = .nan ∨ x = .negInf ∨ ∃ q : Rat, x = .fin q ∧ q < 0)) := by
  cases x with
  | fin q =>
    by_cases h : 0 ≤ q
    · exact Or.inl ⟨by simp [signFlt, Flt.le, h], Or.inr ⟨q, rfl, h⟩⟩
    · exact Or.inr ⟨by simp [signFlt, Flt.le, h], Or.inr (Or.inr ⟨q, rfl, not_le.1 h⟩)⟩
  | inf => exact Or.inl ⟨by decide, Or.inl rfl⟩
  | negInf => exact Or.inr ⟨by decide, Or.inr (Or.inl rfl)⟩
  | nan => exact Or.inr ⟨by decide, Or.inl rfl⟩

/-! ### Elementwise extremes -/

/-- The smaller one of two integers. -/
theorem C92_min (a b : Int) : (stdMin (fun x y => decide (x < y)) a b = a ∨ stdMin (fun x y => decide (x < y)) a b = b) ∧
    stdMin (fun x y => decide (x < y)) a b ≤ a ∧ stdMin (fun x y => decide (x < y)) a b ≤ b := by
  by_cases h : b < a
  · simp [stdMin, h]; omega
  · simp [stdMin, h]; omega

/-- The larger one. -/
theorem C92_max (a b : Int) : (stdMax (fun x y => decide (x < y)) a b = a ∨ stdMax (fun x y => decide (x < y)) a b = b) ∧
    a ≤ stdMax (fun x y => decide (x < y)) a b ∧ b ≤ stdMax (fun x y => decide (x < y)) a b := by
  by_cases h : a < b
  · simp [stdMax, h]; omega
  · simp [stdMax, h]; omega

/-- The same for floating point numbers, infinities included, NaN excluded. -/
theorem C92_min_float (a b : Flt) (ha : a ≠ .nan) (hb : b ≠ .nan) :
    (stdMin Flt.lt a b = a ∨ stdMin Flt.lt a b = b) ∧ Flt.le (stdMin Flt.lt a b) a = true ∧
      Flt.le (stdMin Flt.lt a b) b = true := by
  cases a with
  | nan => exact absurd rfl ha
  | fin x =>
    cases b with
    | nan => exact absurd rfl hb
    | fin y =>
      by_cases h : y < x
      · simp [stdMin, Flt.lt, Flt.le, h, h.le]
      · simp [stdMin, Flt.lt, Flt.le, h, not_lt.1 h]
    | inf => exact ⟨Or.inl rfl, by simp [stdMin, Flt.lt, Flt.le], rfl⟩
    | negInf => exact ⟨Or.inr rfl, rfl, rfl⟩
  | inf =>
    cases b with
    | nan => exact absurd rfl hb
    | fin y => exact ⟨Or.inr rfl, rfl, by simp [stdMin, Flt.lt, Flt.le]⟩
    | inf => decide
    | negInf => decide
  | negInf =>
    cases b with
    | nan => exact absurd rfl hb
    | fin y => exact ⟨Or.inl rfl, rfl, rfl⟩
    | inf => decide
    | negInf => decide

@[inherit_doc C92_min_float]
theorem C92_max_float (a b : Flt) (ha : a ≠ .nan) (hb : b ≠ .nan) :
    (stdMax Flt.lt a b = a ∨ stdMax Flt.lt a b = b) ∧ Flt.le a (stdMax Flt.lt a b) = true ∧
      Flt.le b (stdMax Flt.lt a b) = true := by
  cases a with
  | nan => exact absurd rfl ha
  | fin x =>
    cases b with
    | nan => exact absurd rfl hb
    | fin y =>
      by_cases h : x < y
      · simp [stdMax, Flt.lt, Flt.le, h, h.le]
      · simp [stdMax, Flt.lt, Flt.le, h, not_lt.1 h]
    | inf => exact ⟨Or.inr rfl, rfl, rfl⟩
    | negInf => exact ⟨Or.inl rfl, by simp [stdMax, Flt.lt, Flt.le], rfl⟩
  | inf =>
    cases b with
    | nan => exact absurd rfl hb
    | fin y => exact ⟨Or.inl rfl, rfl, rfl⟩
    | inf => decide
    | negInf => decide
  | negInf =>
    cases b with
    | nan => exact absurd rfl hb
    | fin y => exact ⟨Or.inr rfl, rfl, by simp [stdMax, Flt.lt, Flt.le]⟩
    | inf => decide
    | negInf => decide

/-- If one of them is NaN, the first one is the result, of both operations: the order of the arguments matters. -/
theorem C92_nan (a b : Flt) (h : a = .nan ∨ b = .nan) : stdMin Flt.lt a b = a ∧ stdMax Flt.lt a b = a := by
  rcases h with rfl | rfl
  · cases b <;> exact ⟨rfl, rfl⟩
  · cases a <;> exact ⟨rfl, rfl⟩

/-- So the smallest value depends on the order of the arguments. -/
theorem C92_commutative_false : ∃ a b, stdMin Flt.lt a b ≠ stdMin Flt.lt b a ∧ stdMax Flt.lt a b ≠ stdMax Flt.lt b a :=
  ⟨.nan, .fin 1, by decide⟩

/-- Rasters of integers: a cell has the smaller (larger) value unless one of the arguments has none. -/
theorem C92_raster (in1 in2 : InPolicy Int) (outp : OutPolicy Int) (n1 n2 : Nat) (value1 value2 : List Int)
    (result : List (Cell Int)) (hv1 : value1.length = n1 * n2) (hv2 : value2.length = n1 * n2)
    (hr : result.length = n1 * n2) (h1 : PolicyFor in1 (n1 * n2)) (h2 : PolicyFor in2 (n1 * n2)) :
    (∃ out, binary2d2d (minOp fun x y => decide (x < y)) in1 in2 outp (n1, n2) value1 (n1, n2) value2 (n1, n2) result = some out ∧
      Elementwise (fun i c c' => ∀ a b, value1[i]? = some a → value2[i]? = some b →
        (NoDataAt in1 value1 i ∨ NoDataAt in2 value2 i → Marked outp c c') ∧
        (¬ NoDataAt in1 value1 i → ¬ NoDataAt in2 value2 i → c' = ⟨min a b, c.masked⟩)) result out) ∧
    ∃ out, binary2d2d (maxOp fun x y => decide (x < y)) in1 in2 outp (n1, n2) value1 (n1, n2) value2 (n1, n2) result = some out ∧
      Elementwise (fun i c c' => ∀ a b, value1[i]? = some a → value2[i]? = some b →
        (NoDataAt in1 value1 i ∨ NoDataAt in2 value2 i → Marked outp c c') ∧
        (¬ NoDataAt in1 value1 i → ¬ NoDataAt in2 value2 i → c' = ⟨max a b, c.masked⟩)) result out := by
  constructor
  · obtain ⟨out, h4, h5, h3⟩ := C10_binary_2d2d (minOp fun x y : Int => decide (x < y)) in1 in2 outp n1 n2 value1 value2
      result hv1 hv2 hr h1 h2
    refine ⟨out, h4, h5, fun i c hc => ?_⟩
    obtain ⟨c', hc', h⟩ := h3 i c hc
    refine ⟨c', hc', fun a b ha hb => ⟨(h a b ha hb).noData, fun k1 k2 => ?_⟩⟩
    rw [(h a b ha hb).ok (not_or.2 ⟨k1, k2⟩) rfl rfl]
    simp only [minOp, stdMin, decide_eq_true_eq, Cell.mk.injEq, and_true]
    split <;> omega
  · obtain ⟨out, h4, h5, h3⟩ := C10_binary_2d2d (maxOp fun x y : Int => decide (x < y)) in1 in2 outp n1 n2 value1 value2
      result hv1 hv2 hr h1 h2
    refine ⟨out, h4, h5, fun i c hc => ?_⟩
    obtain ⟨c', hc', h⟩ := h3 i c hc
    refine ⟨c', hc', fun a b ha hb => ⟨(h a b ha hb).noData, fun k1 k2 => ?_⟩⟩
    rw [(h a b ha hb).ok (not_or.2 ⟨k1, k2⟩) rfl rfl]
    simp only [maxOp, stdMax, decide_eq_true_eq, Cell.mk.injEq, and_true]
    split <;> omega

/-- Rasters of floating point numbers: a cell with two valid values that are not NaN has the one that is not
larger (not smaller) than the other; if one of them is NaN it has the value of the first raster. -/
theorem C92_raster_float (in1 in2 : InPolicy Flt) (outp : OutPolicy Flt) (n1 n2 : Nat) (value1 value2 : List Flt)
    (result : List (Cell Flt)) (hv1 : value1.length = n1 * n2) (hv2 : value2.length = n1 * n2)
    (hr : result.length = n1 * n2) (h1 : PolicyFor in1 (n1 * n2)) (h2 : PolicyFor in2 (n1 * n2)) :
    (∃ out, binary2d2d (minOp Flt.lt) in1 in2 outp (n1, n2) value1 (n1, n2) value2 (n1, n2) result = some out ∧
      Elementwise (fun i c c' => ∀ a b, value1[i]? = some a → value2[i]? = some b →
        (NoDataAt in1 value1 i ∨ NoDataAt in2 value2 i → Marked outp c c') ∧
        (¬ NoDataAt in1 value1 i → ¬ NoDataAt in2 value2 i → ∃ z, c' = ⟨z, c.masked⟩ ∧
          (a = .nan ∨ b = .nan → z = a) ∧
          (a ≠ .nan → b ≠ .nan → (z = a ∨ z = b) ∧ Flt.le z a = true ∧ Flt.le z b = true))) result out) ∧
    ∃ out, binary2d2d (maxOp Flt.lt) in1 in2 outp (n1, n2) value1 (n1, n2) value2 (n1, n2) result = some out ∧
      Elementwise (fun i c c' => ∀ a b, value1[i]? = some a → value2[i]? = some b →
        (NoDataAt in1 value1 i ∨ NoDataAt in2 value2 i → Marked outp c c') ∧
        (¬ NoDataAt in1 value1 i → ¬ NoDataAt in2 value2 i → ∃ z, c' = ⟨z, c.masked⟩ ∧
          (a = .nan ∨ b = .nan → z = a) ∧
          (a ≠ .nan → b ≠ .nan → (z = a ∨ z = b) ∧ Flt.le a z = true ∧ Flt.le b z = true))) result out := by
  constructor
  · obtain ⟨out, h4, h5, h3⟩ := C10_binary_2d2d (minOp Flt.lt) in1 in2 outp n1 n2 value1 value2
      result hv1 hv2 hr h1 h2
    refine ⟨out, h4, h5, fun i c hc => ?_⟩
    obtain ⟨c', hc', h⟩ := h3 i c hc
    refine ⟨c', hc', fun a b ha hb => ⟨(h a b ha hb).noData, fun k1 k2 => ?_⟩⟩
    exact ⟨stdMin Flt.lt a b, (h a b ha hb).ok (not_or.2 ⟨k1, k2⟩) rfl rfl, fun hn => (C92_nan a b hn).1,
      C92_min_float a b⟩
  · obtain ⟨out, h4, h5, h3⟩ := C10_binary_2d2d (maxOp Flt.lt) in1 in2 outp n1 n2 value1 value2
      result hv1 hv2 hr h1 h2
    refine ⟨out, h4, h5, fun i c hc => ?_⟩
    obtain ⟨c', hc', h⟩ := h3 i c hc
    refine ⟨c', hc', fun a b ha hb => ⟨(h a b ha hb).noData, fun k1 k2 => ?_⟩⟩
    exact ⟨stdMax Flt.lt a b, (h a b ha hb).ok (not_or.2 ⟨k1, k2⟩) rfl rfl, fun hn => (C92_nan a b hn).2,
      C92_max_float a b⟩

/-- A NaN in the first raster stays, one in the second raster disappears. -/
example : binary2d2d (minOp Flt.lt) .skip .skip .dontMark (1, 3) [.nan, .fin 1, .inf] (1, 3) [.fin 1, .nan, .fin 4]
    (1, 3) [⟨.fin 0, false⟩, ⟨.fin 0, false⟩, ⟨.fin 0, false⟩] =
    some [⟨.nan, false⟩, ⟨.fin 1, false⟩, ⟨.fin 4, false⟩] := by decide

example : binary2d2d (minOp fun x y : Int => decide (x < y)) .skip .skip .dontMark (1, 2) [1, 5] (1, 2) [3, 4] (1, 2)
    [⟨0, false⟩, ⟨0, false⟩] = some [⟨1, false⟩, ⟨4, false⟩] := by decide

end Fern.Casts
