import Verif.Model.FloatArith
import Verif.Spec.FloatArith
import Verif.Lemmas.FloatArith
import Verif.Props.LocalOps

/-!
# C95: elementary arithmetic on floating point numbers
-/

namespace Fern.FloatArith

open Fern Fern.Domains Fern.Spec Fern.Casts Fern.Casts.Spec Fern.FloatArith.Spec

/-! ### Rounding -/

/-- There is one way to round a number. -/
theorem C95_determined (t : FltTy) (q : Rat) (f g : Flt) (hf : Rounded t q f) (hg : Rounded t q g) : f = g := by
  by_cases h : TooLarge t q
  · rw [hf.1 h, hg.1 h]
  · obtain ⟨r, rfl, hr, he⟩ := hf.2 h
    obtain ⟨s, rfl, hs, he'⟩ := hg.2 h
    by_cases hrs : s = r
    · rw [hrs]
    · exfalso
      have heq : |q - s| = |q - r| := le_antisymm (hs.2 r hr.1) (hr.2 s hs.1)
      obtain ⟨n, e, h1, h2⟩ := he s hs.1 hrs heq
      obtain ⟨k, d, h3, h4⟩ := he' r hr.1 (Ne.symm hrs) heq.symm
      -- both distances are the last bit
      have e1 : |r - s| = 2 ^ e := by
        rcases h2 with h2 | h2 <;> rw [h1, h2, ← sub_mul, abs_mul, abs_of_pos (two_zpow_pos e)] <;> push_cast
        · rw [show (2 * n - (2 * n - 1) : Rat) = 1 by ring]; simp
        · rw [show (2 * n - (2 * n + 1) : Rat) = -1 by ring]; simp
      have e2 : |s - r| = 2 ^ d := by
        rcases h4 with h4 | h4 <;> rw [h3, h4, ← sub_mul, abs_mul, abs_of_pos (two_zpow_pos d)] <;> push_cast
        · rw [show (2 * k - (2 * k - 1) : Rat) = 1 by ring]; simp
        · rw [show (2 * k - (2 * k + 1) : Rat) = -1 by ring]; simp
      have ed : e = d := by
        rw [abs_sub_comm, e2] at e1
        exact ((zpow_right_inj₀ (by norm_num : (0 : Rat) < 2) (by norm_num)).1 e1).symm
      subst ed
      have hz := (two_zpow_pos e).ne'
      rcases h4 with h4 | h4 <;> rw [h1] at h4 <;> have h5 := mul_right_cancel₀ hz h4
      · have : (2 * n : Int) = 2 * k - 1 := by exact_mod_cast h5
        omega
      · have : (2 * n : Int) = 2 * k + 1 := by exact_mod_cast h5
        omega

/-! ### Conversion to the type of the result -/

theorem resultType_floats (s t : FltTy) : resultType s.num t.num = some (larger s t) := by cases s <;> cases t <;> rfl

theorem resultType_int_float (k : IntTy) (t : FltTy) : resultType (.int k) t.num = some t := by cases t <;> rfl

theorem resultType_float_int (k : IntTy) (t : FltTy) : resultType t.num (.int k) = some t := by cases t <;> rfl

theorem castTo_num (s : NumTy) (r : FltTy) (q : Rat) : castTo s r.num (.fin q) = some (r.round q) := by
  cases r <;> rfl

theorem castTo_num_special (s : NumTy) (r : FltTy) {x : Flt} (h : x.isFinite = false) : castTo s r.num x = some x := by
  cases r <;> cases x <;> first | rfl | cases h

theorem represents_larger (s t : FltTy) {x : Rat} (h : Represents s.num x) : Represents (larger s t).num x := by
  have up : ∀ x, Represents FltTy.single.num x → Represents FltTy.double.num x := by
    intro x hx
    rw [represents_num, floatValue_iff] at *
    obtain ⟨m, e, h1, h2, h3, rfl⟩ := hx
    simp only [FltTy.bits, FltTy.lo, FltTy.hi] at *
    exact ⟨m, e, lt_trans h1 (by norm_num), by omega, by omega, rfl⟩
  cases s <;> cases t <;> first | exact h | exact up x h

theorem larger_comm (s t : FltTy) : larger s t = larger t s := by cases s <;> cases t <;> rfl

theorem castTo_left (s t : FltTy) {x : Rat} (h : Represents s.num x) :
    castTo s.num (larger s t).num (.fin x) = some (.fin x) := by
  rw [castTo_num, round_exact _ (represents_larger s t h)]

theorem castTo_right (s t : FltTy) {x : Rat} (h : Represents t.num x) :
    castTo t.num (larger s t).num (.fin x) = some (.fin x) := by
  rw [larger_comm]
  exact castTo_left t s h

section

variable {s t : FltTy} {x y : Rat} (hx : Represents s.num x) (hy : Represents t.num y)

include hx hy

theorem addFlt_eq : addFlt s.num t.num (.fin x) (.fin y) =
    some ⟨(larger s t).round (x + y), ((larger s t).round (x + y)).isFinite⟩ := by
  rw [addFlt, resultType_floats, Option.bind_eq_bind, Option.bind_some, castTo_left s t hx, castTo_right s t hy]
  cases s <;> cases t <;> rfl

theorem subFlt_eq : subFlt s.num t.num (.fin x) (.fin y) =
    some ⟨(larger s t).round (x - y), ((larger s t).round (x - y)).isFinite⟩ := by
  rw [subFlt, resultType_floats, Option.bind_eq_bind, Option.bind_some, castTo_left s t hx, castTo_right s t hy,
    sub_eq_add_neg]
  cases s <;> cases t <;> rfl

theorem mulFlt_eq : mulFlt s.num t.num (.fin x) (.fin y) =
    some ⟨(larger s t).round (x * y), ((larger s t).round (x * y)).isFinite⟩ := by
  rw [mulFlt, resultType_floats, Option.bind_eq_bind, Option.bind_some, castTo_left s t hx, castTo_right s t hy]
  rfl

theorem divFlt_eq (h0 : y ≠ 0) : divFlt s.num t.num (.fin x) (.fin y) =
    some (some ⟨(larger s t).round (x / y), ((larger s t).round (x / y)).isFinite⟩) := by
  have hd : divFltDomain (.fin y) = true := by simp [divFltDomain, Flt.eq, h0]
  rw [divFlt, resultType_floats, Option.bind_eq_bind, Option.bind_some, if_pos hd, castTo_left s t hx,
    castTo_right s t hy]
  simp [hd, assert', over, h0]

end

theorem larger_self (t : FltTy) : larger t t = t := by cases t <;> rfl

/-! ### Two floating point numbers -/

section

variable (s t : FltTy) (x y : Rat) (hx : Represents s.num x) (hy : Represents t.num y)

include hx hy

/-- A sum: the exact sum, rounded; no-data if and only if it is too large. -/
theorem C95_add : ∃ o, addFlt s.num t.num (.fin x) (.fin y) = some o ∧ Rounded (larger s t) (x + y) o.result ∧
    (o.withinRange = true ↔ ¬ TooLarge (larger s t) (x + y)) :=
  ⟨_, addFlt_eq hx hy, round_rounded _ _, round_finite _ _⟩

/-- A difference. -/
theorem C95_subtract : ∃ o, subFlt s.num t.num (.fin x) (.fin y) = some o ∧ Rounded (larger s t) (x - y) o.result ∧
    (o.withinRange = true ↔ ¬ TooLarge (larger s t) (x - y)) :=
  ⟨_, subFlt_eq hx hy, round_rounded _ _, round_finite _ _⟩

/-- A product. -/
theorem C95_multiply : ∃ o, mulFlt s.num t.num (.fin x) (.fin y) = some o ∧ Rounded (larger s t) (x * y) o.result ∧
    (o.withinRange = true ↔ ¬ TooLarge (larger s t) (x * y)) :=
  ⟨_, mulFlt_eq hx hy, round_rounded _ _, round_finite _ _⟩

/-- A quotient; nothing is computed if the divisor is zero. -/
theorem C95_divide : (y = 0 → divFlt s.num t.num (.fin x) (.fin y) = some none) ∧
    (y ≠ 0 → ∃ o, divFlt s.num t.num (.fin x) (.fin y) = some (some o) ∧ Rounded (larger s t) (x / y) o.result ∧
      (o.withinRange = true ↔ ¬ TooLarge (larger s t) (x / y))) := by
  refine ⟨?_, fun h0 => ⟨_, divFlt_eq hx hy h0, round_rounded _ _, round_finite _ _⟩⟩
  rintro rfl
  rw [divFlt, resultType_floats]
  rfl

end

example : addFlt .f32 .f64 (.fin (1 / 2)) (.fin 3) = some ⟨.fin (7 / 2), true⟩ ∧
    addFlt .f32 .f32 (.fin 16777216) (.fin 1) = some ⟨.fin 16777216, true⟩ ∧
    mulFlt .f32 .f32 (.fin (2 ^ 100)) (.fin (2 ^ 100)) = some ⟨.inf, false⟩ ∧
    divFlt .f32 .f32 (.fin 1) (.fin 3) = some (some ⟨.fin (11184811 / 33554432), true⟩) ∧
    divFlt .f32 .f32 (.fin 1) (.fin 0) = some none := by
  decide +kernel

/-! ### An integer and a floating point number -/

theorem fits_bound {k : IntTy} {i : Int} (h : Fits k i) : |i| ≤ 2 ^ 64 := by
  cases k <;> simp only [Fits] at h <;> rw [abs_le] <;> omega

/-- The power of two that bounds integers is a value. -/
theorem represents_bound (t : FltTy) : Represents t.num (2 ^ 64) := by
  rw [represents_num, floatValue_iff]
  cases t
  · exact ⟨1, 64, by norm_num [FltTy.bits], by decide, by decide, by norm_cast⟩
  · exact ⟨1, 64, by norm_num [FltTy.bits], by decide, by decide, by norm_cast⟩

/-- An integer as a floating point number. -/
theorem int_rounded (t : FltTy) {k : IntTy} {i : Int} (h : Fits k i) :
    ∃ a, t.round i = .fin a ∧ |a| ≤ 2 ^ 64 := by
  have hb := abs_le.1 (fits_bound h)
  have hb1 : (i : Rat) ≤ 2 ^ 64 := by exact_mod_cast hb.2
  have hb2 : -(2 : Rat) ^ 64 ≤ i := by exact_mod_cast hb.1
  have h1 := round_mono t hb1
  have h2 := round_mono t hb2
  rw [round_exact t (represents_bound t)] at h1
  rw [round_exact t (represents_neg (represents_bound t))] at h2
  cases hr : t.round i with
  | fin a =>
    rw [hr] at h1 h2
    simp only [Flt.le, decide_eq_true_eq] at h1 h2
    exact ⟨a, rfl, abs_le.2 ⟨h2, h1⟩⟩
  | inf => rw [hr] at h1; cases h1
  | negInf => rw [hr] at h2; cases h2
  | nan => exact absurd hr (round_not_nan t i)

theorem value_bound (t : FltTy) {y : Rat} (h : Represents t.num y) : |y| ≤ limit t - 2 ^ t.hi / 2 := by
  rw [represents_num, floatValue_iff] at h
  obtain ⟨m, e, hm, -, he, rfl⟩ := h
  rw [limit_eq, abs_mul, abs_of_pos (two_zpow_pos e)]
  have h1 : |(m : Rat)| ≤ 2 ^ t.bits - 1 := by
    have : |m| ≤ 2 ^ t.bits - 1 := by omega
    exact_mod_cast this
  have h2 : (2 : Rat) ^ e ≤ 2 ^ t.hi := zpow_le_zpow_right₀ (by norm_num) he
  have h3 : (1 : Rat) ≤ 2 ^ t.bits := one_le_pow₀ (by norm_num)
  calc |(m : Rat)| * 2 ^ e ≤ (2 ^ t.bits - 1) * 2 ^ t.hi :=
        mul_le_mul h1 h2 (two_zpow_pos e).le (by linarith)
    _ = _ := by ring

/-- An integer is too small for the sum to become too large. -/
theorem mixed_not_large (t : FltTy) {a y : Rat} (ha : |a| ≤ 2 ^ 64) (hy : Represents t.num y) : ¬ TooLarge t (a + y) := by
  rw [TooLarge, not_le]
  have h1 := value_bound t hy
  have h2 : (2 : Rat) ^ 65 < 2 ^ t.hi := by
    have : (2 : Rat) ^ (65 : Int) < 2 ^ t.hi :=
      zpow_lt_zpow_right₀ (by norm_num) (by cases t <;> decide)
    exact_mod_cast this
  calc |a + y| ≤ |a| + |y| := abs_add_le a y
    _ < limit t := by linarith

section

variable (t : FltTy) (k : IntTy) (i : Int) (y : Rat) (hi : Fits k i) (hy : Represents t.num y)

include hi hy

/-- A sum: the integer is rounded, then the sum is, which never is too large. -/
theorem C95_mixed_add : ∃ a r, Rounded t i (.fin a) ∧ Rounded t (a + y) (.fin r) ∧
    addFlt (.int k) t.num (.fin i) (.fin y) = some ⟨.fin r, true⟩ ∧
    addFlt t.num (.int k) (.fin y) (.fin i) = some ⟨.fin r, true⟩ := by
  obtain ⟨a, ha, hb⟩ := int_rounded t hi
  obtain ⟨r, hr, -⟩ := (round_rounded t (a + y)).2 (mixed_not_large t hb hy)
  refine ⟨a, r, ha ▸ round_rounded t i, hr ▸ round_rounded t _, ?_, ?_⟩
  · rw [addFlt, resultType_int_float, Option.bind_eq_bind, Option.bind_some, castTo_num, castTo_num, round_exact t hy,
      ha]
    simp [plus, hr, addFltRange]
  · rw [addFlt, resultType_float_int, Option.bind_eq_bind, Option.bind_some, castTo_num, castTo_num, round_exact t hy,
      ha]
    cases t <;> simp [plus, add_comm y a, hr, addFltRange, FltTy.num]

/-- A difference: likewise. -/
theorem C95_mixed_subtract : ∃ a r, Rounded t i (.fin a) ∧ Rounded t (a - y) (.fin r) ∧
    subFlt (.int k) t.num (.fin i) (.fin y) = some ⟨.fin r, true⟩ ∧
    subFlt t.num (.int k) (.fin y) (.fin i) = some ⟨.fin (-r), true⟩ := by
  obtain ⟨a, ha, hb⟩ := int_rounded t hi
  obtain ⟨r, hr, -⟩ := (round_rounded t (a + -y)).2 (mixed_not_large t hb (represents_neg hy))
  refine ⟨a, r, ha ▸ round_rounded t i, by rw [sub_eq_add_neg, ← hr]; exact round_rounded t _, ?_, ?_⟩
  · rw [subFlt, resultType_int_float, Option.bind_eq_bind, Option.bind_some, castTo_num, castTo_num, round_exact t hy,
      ha]
    simp [minus, negate, plus, hr, subFltRange, Flt.isFinite, assert']
  · rw [subFlt, resultType_float_int, Option.bind_eq_bind, Option.bind_some, castTo_num, castTo_num, round_exact t hy,
      ha]
    have hn : t.round (y + -a) = .fin (-r) := by
      have := C91_round_neg t.bits_pos t.lo_le_hi (a + -y)
      rw [show roundTo t.bits t.lo t.hi (a + -y) = .fin r from hr] at this
      rw [show y + -a = -(a + -y) by ring]
      exact this
    cases t <;> simp [minus, negate, plus, hn, subFltRange, Flt.isFinite, assert', FltTy.num]

/-- A product: no-data if and only if it is too large. -/
theorem C95_mixed_multiply : ∃ a o, Rounded t i (.fin a) ∧ Rounded t (a * y) o.result ∧
    (o.withinRange = true ↔ ¬ TooLarge t (a * y)) ∧
    mulFlt (.int k) t.num (.fin i) (.fin y) = some o ∧ mulFlt t.num (.int k) (.fin y) (.fin i) = some o := by
  obtain ⟨a, ha, hb⟩ := int_rounded t hi
  refine ⟨a, ⟨t.round (a * y), (t.round (a * y)).isFinite⟩, ha ▸ round_rounded t i, round_rounded t _, round_finite _ _,
    ?_, ?_⟩
  · rw [mulFlt, resultType_int_float, Option.bind_eq_bind, Option.bind_some, castTo_num, castTo_num, round_exact t hy,
      ha]
    rfl
  · rw [mulFlt, resultType_float_int, Option.bind_eq_bind, Option.bind_some, castTo_num, castTo_num, round_exact t hy,
      ha]
    simp [times, mul_comm y a]

/-- An integer divided by a number that is not zero. -/
theorem C95_mixed_divide (h0 : y ≠ 0) : ∃ a o, Rounded t i (.fin a) ∧ Rounded t (a / y) o.result ∧
    (o.withinRange = true ↔ ¬ TooLarge t (a / y)) ∧
    divFlt (.int k) t.num (.fin i) (.fin y) = some (some o) := by
  obtain ⟨a, ha, hb⟩ := int_rounded t hi
  refine ⟨a, ⟨t.round (a / y), (t.round (a / y)).isFinite⟩, ha ▸ round_rounded t i, round_rounded t _, round_finite _ _,
    ?_⟩
  have hd : divFltDomain (.fin y) = true := by simp [divFltDomain, Flt.eq, h0]
  rw [divFlt, resultType_int_float, Option.bind_eq_bind, Option.bind_some, if_pos hd, castTo_num, castTo_num,
    round_exact t hy, ha]
  simp [hd, assert', over, h0]

/-- A number divided by an integer: the integer does not become zero, and the quotient never is too large. -/
theorem C95_divided_by_integer (h0 : i ≠ 0) : ∃ a r, a ≠ 0 ∧ Rounded t i (.fin a) ∧ Rounded t (y / a) (.fin r) ∧
    divFlt t.num (.int k) (.fin y) (.fin i) = some (some ⟨.fin r, true⟩) := by
  obtain ⟨a, ha, hb⟩ := int_rounded t hi
  have one : Represents t.num ((1 : Int) : Rat) := represents_small t (by cases t <;> decide)
  have h1 : 1 ≤ |a| := by
    rcases lt_or_gt_of_ne h0 with h | h
    · have hle : (i : Rat) ≤ -1 := by exact_mod_cast (by omega : i ≤ -1)
      have := round_mono t hle
      rw [ha, show (-1 : Rat) = -((1 : Int) : Rat) by norm_num, round_exact t (represents_neg one)] at this
      simp only [Flt.le, decide_eq_true_eq] at this
      have h' : a ≤ -1 := by simpa using this
      rw [abs_of_nonpos (by linarith)]
      linarith
    · have hle : (1 : Rat) ≤ i := by exact_mod_cast (by omega : 1 ≤ i)
      have := round_mono t hle
      rw [ha, show (1 : Rat) = ((1 : Int) : Rat) by norm_num, round_exact t one] at this
      simp only [Flt.le, decide_eq_true_eq] at this
      have h' : 1 ≤ a := by simpa using this
      rw [abs_of_nonneg (by linarith)]
      exact h'
  have ha0 : a ≠ 0 := by
    rintro rfl
    simp at h1
    linarith
  have hn : ¬ TooLarge t (y / a) := by
    rw [TooLarge, not_le, abs_div]
    have h2 := value_bound t hy
    have h3 := two_zpow_pos t.hi
    calc |y| / |a| ≤ |y| := div_le_self (abs_nonneg y) h1
      _ < limit t := by linarith
  obtain ⟨r, hr, -⟩ := (round_rounded t (y / a)).2 hn
  refine ⟨a, r, ha0, ha ▸ round_rounded t i, hr ▸ round_rounded t _, ?_⟩
  have hd : divFltDomain (.fin i) = true := by simp [divFltDomain, Flt.eq, h0]
  rw [divFlt, resultType_float_int, Option.bind_eq_bind, Option.bind_some, if_pos hd, castTo_num, castTo_num,
    round_exact t hy, ha]
  simp [hd, assert', over, ha0, hr, Flt.isFinite]

end

example : addFlt (.int .i32) .f32 (.fin 16777217) (.fin (-16777216)) = some ⟨.fin 0, true⟩ ∧
    mulFlt (.int .u8) .f32 (.fin 3) (.fin (1 / 2)) = some ⟨.fin (3 / 2), true⟩ ∧
    divFlt .f32 (.int .i8) (.fin 1) (.fin (-4)) = some (some ⟨.fin (-1 / 4), true⟩) := by
  decide +kernel

/-! ### Infinity and NaN -/

/-- Two floating point numbers of which one is infinity or NaN: sums, differences and products are no-data. -/
theorem C95_special (s t : FltTy) (x y : Flt) (h : x.isFinite = false ∨ y.isFinite = false) :
    (∃ o, addFlt s.num t.num x y = some o ∧ o.withinRange = false) ∧
    (∃ o, subFlt s.num t.num x y = some o ∧ o.withinRange = false) ∧
    (∃ o, mulFlt s.num t.num x y = some o ∧ o.withinRange = false) := by
  have hc : ∀ (s : NumTy) (r : FltTy) (x : Flt), ∃ a, castTo s r.num x = some a ∧
      (x.isFinite = false → a = x) := fun s r x => by
    by_cases hx : x.isFinite = false
    · exact ⟨x, castTo_num_special s r hx, fun _ => rfl⟩
    · cases x with
      | fin q => exact ⟨_, castTo_num s r q, fun h => absurd h hx⟩
      | inf => exact absurd rfl hx
      | negInf => exact absurd rfl hx
      | nan => exact absurd rfl hx
  obtain ⟨a, ha, ha'⟩ := hc s.num (larger s t) x
  obtain ⟨b, hb, hb'⟩ := hc t.num (larger s t) y
  have hab : a.isFinite = false ∨ b.isFinite = false := by
    rcases h with h | h
    · exact Or.inl (ha' h ▸ h)
    · exact Or.inr (hb' h ▸ h)
  have hi : ∀ q, (infinite q).isFinite = false := fun q => by
    simp only [infinite]
    split
    · rfl
    · split <;> rfl
  have h1 : (plus (larger s t) a b).isFinite = false := by
    cases a <;> cases b <;> first | rfl | simp [Flt.isFinite] at hab
  have h2 : (minus (larger s t) a b).isFinite = false := by
    cases a <;> cases b <;> first | rfl | simp [Flt.isFinite] at hab
  have h3 : (times (larger s t) a b).isFinite = false := by
    cases a <;> cases b <;> first | rfl | exact hi _ | simp [Flt.isFinite] at hab
  refine ⟨⟨⟨plus (larger s t) a b, false⟩, ?_, rfl⟩, ⟨⟨minus (larger s t) a b, false⟩, ?_, rfl⟩,
    ⟨⟨times (larger s t) a b, false⟩, ?_, rfl⟩⟩
  · rw [addFlt, resultType_floats, Option.bind_eq_bind, Option.bind_some, ha, hb]
    cases s <;> cases t <;> simp [addFltRange, FltTy.num, h1]
  · rw [subFlt, resultType_floats, Option.bind_eq_bind, Option.bind_some, ha, hb]
    cases s <;> cases t <;> simp [subFltRange, FltTy.num, h2]
  · rw [mulFlt, resultType_floats, Option.bind_eq_bind, Option.bind_some, ha, hb]
    simp [h3]

/-- What is written into the cells that become no-data by a product with infinity: infinity, with the sign of the
product; and NaN if the other number is zero. -/
theorem C95_special_multiply (s t : FltTy) (x : Rat) (hx : Represents s.num x) :
    mulFlt s.num t.num .inf .inf = some ⟨.inf, false⟩ ∧
    mulFlt s.num t.num .inf .negInf = some ⟨.negInf, false⟩ ∧
    mulFlt s.num t.num .negInf .inf = some ⟨.negInf, false⟩ ∧
    mulFlt s.num t.num .negInf .negInf = some ⟨.inf, false⟩ ∧
    mulFlt s.num t.num (.fin x) .inf = some ⟨if x = 0 then .nan else if 0 < x then .inf else .negInf, false⟩ ∧
    mulFlt s.num t.num (.fin x) .negInf = some ⟨if x = 0 then .nan else if 0 < x then .negInf else .inf, false⟩ := by
  refine ⟨?_, ?_, ?_, ?_, ?_, ?_⟩
  · cases s <;> cases t <;> rfl
  · cases s <;> cases t <;> rfl
  · cases s <;> cases t <;> rfl
  · cases s <;> cases t <;> rfl
  · rw [mulFlt, resultType_floats, Option.bind_eq_bind, Option.bind_some, castTo_left s t hx,
      castTo_num_special _ _ rfl]
    simp only [Option.bind_eq_bind, Option.bind_some, times, infinite]
    rcases lt_trichotomy x 0 with h | h | h
    · rw [if_neg (not_lt.2 h.le), if_pos h, if_neg h.ne, if_neg (not_lt.2 h.le)]; rfl
    · subst h; rfl
    · rw [if_pos h, if_neg h.ne', if_pos h]; rfl
  · rw [mulFlt, resultType_floats, Option.bind_eq_bind, Option.bind_some, castTo_left s t hx,
      castTo_num_special _ _ rfl]
    simp only [Option.bind_eq_bind, Option.bind_some, times, infinite]
    rcases lt_trichotomy x 0 with h | h | h
    · rw [if_pos (by linarith), if_neg h.ne, if_neg (not_lt.2 h.le)]; rfl
    · subst h; rfl
    · rw [if_neg (by linarith), if_pos (by linarith), if_neg h.ne', if_pos h]; rfl

/-- With an integer, infinity and NaN are not noticed by `add`, and make an assertion of `subtract` fail. -/
theorem C95_special_mixed (t : FltTy) (k : IntTy) (i : Int) (hi : Fits k i) (y : Flt) (h : y.isFinite = false) :
    addFlt (.int k) t.num (.fin i) y = some ⟨y, true⟩ ∧ addFlt t.num (.int k) y (.fin i) = some ⟨y, true⟩ ∧
    subFlt (.int k) t.num (.fin i) y = none ∧ subFlt t.num (.int k) y (.fin i) = none := by
  obtain ⟨a, ha, -⟩ := int_rounded t hi
  have hn : ∀ z : Flt, z.isFinite = false → (negate z).isFinite = false := fun z hz => by
    cases z <;> first | rfl | cases hz
  refine ⟨?_, ?_, ?_, ?_⟩
  · rw [addFlt, resultType_int_float, Option.bind_eq_bind, Option.bind_some, castTo_num, castTo_num_special _ _ h, ha]
    cases y <;> first | rfl | cases h
  · rw [addFlt, resultType_float_int, Option.bind_eq_bind, Option.bind_some, castTo_num, castTo_num_special _ _ h, ha]
    cases t <;> cases y <;> first | rfl | cases h
  · rw [subFlt, resultType_int_float, Option.bind_eq_bind, Option.bind_some, castTo_num, castTo_num_special _ _ h, ha]
    cases y <;> first | rfl | cases h
  · rw [subFlt, resultType_float_int, Option.bind_eq_bind, Option.bind_some, castTo_num, castTo_num_special _ _ h, ha]
    cases t <;> cases y <;> first | rfl | cases h

/-- So the two rasters `a + b` and `b + a` of the documentation, of which one cell is infinite, are treated differently
from the sum with an integer raster. -/
example : addFlt .f32 .f32 .inf (.fin 1) = some ⟨.inf, false⟩ ∧ addFlt .f32 (.int .i32) .inf (.fin 1) = some ⟨.inf, true⟩ ∧
    subFlt .f32 (.int .i32) .inf (.fin 1) = none := by
  decide +kernel

/-- Division by infinity gives zero, which is accepted; by NaN it is no-data. -/
theorem C95_special_divide (s t : FltTy) (x : Rat) (hx : Represents s.num x) :
    divFlt s.num t.num (.fin x) .inf = some (some ⟨.fin 0, true⟩) ∧
    divFlt s.num t.num (.fin x) .negInf = some (some ⟨.fin 0, true⟩) ∧
    divFlt s.num t.num (.fin x) .nan = some (some ⟨.nan, false⟩) := by
  refine ⟨?_, ?_, ?_⟩ <;>
  · rw [divFlt, resultType_floats, Option.bind_eq_bind, Option.bind_some, castTo_left s t hx,
      castTo_num_special _ _ rfl]
    rfl

/-- Nothing is computed if and only if the divisor is zero, be it an integer or a floating point number. -/
theorem C95_by_zero (t1 t2 : NumTy) (r : FltTy) (hr : resultType t1 t2 = some r) (x y : Flt) :
    divFlt t1 t2 x y = some none ↔ y = .fin 0 := by
  constructor
  · intro h
    by_contra hy
    have hd : divFltDomain y = true := by
      cases y with
      | fin q => simpa [divFltDomain, Flt.eq] using hy
      | _ => rfl
    rw [divFlt, hr, Option.bind_eq_bind, Option.bind_some, if_pos hd] at h
    simp only [Option.bind_eq_bind, Option.bind_eq_some_iff] at h
    obtain ⟨_, _, _, _, _, _, _, _, h⟩ := h
    cases h
  · rintro rfl
    rw [divFlt, hr]
    rfl

example : resultType (.int .u8) .f64 = some .double ∧ divFlt (.int .u8) .f64 (.fin 1) (.fin 0) = some none ∧
    divFlt .f64 (.int .u8) (.fin 1) (.fin 0) = some none := by decide +kernel

/-! ### Laws -/

/-- Sums and products don't depend on the order of the two numbers. -/
theorem C95_commutative (t1 t2 : NumTy) (x y : Flt) : addFlt t1 t2 x y = addFlt t2 t1 y x ∧
    mulFlt t1 t2 x y = mulFlt t2 t1 y x := by
  have hr : resultType t1 t2 = resultType t2 t1 ∨ (resultType t1 t2 = none ∧ resultType t2 t1 = none) := by
    rcases t1 with _ | a | _ | _ <;> rcases t2 with _ | b | _ | _ <;> first | exact Or.inl rfl | skip
    refine Or.inr ⟨?_, ?_⟩ <;> simp only [resultType, resultValue]
    · cases resultInt a b <;> rfl
    · cases resultInt b a <;> rfl
  have hp : ∀ r a b, plus r a b = plus r b a := fun r a b => by
    cases a <;> cases b <;> simp [plus, add_comm]
  have ht : ∀ r a b, times r a b = times r b a := fun r a b => by
    cases a <;> cases b <;> simp [times, mul_comm]
  have hg : ∀ z, addFltRange t1 t2 z = addFltRange t2 t1 z := fun z => by
    cases t1 <;> cases t2 <;> rfl
  rcases hr with hr | ⟨hr1, hr2⟩
  · constructor
    · rw [addFlt, addFlt, hr]
      cases resultType t2 t1 with
      | none => rfl
      | some r =>
        simp only [Option.bind_eq_bind, Option.bind_some]
        cases castTo t1 r.num x <;> cases castTo t2 r.num y <;> simp [hp, hg]
    · rw [mulFlt, mulFlt, hr]
      cases resultType t2 t1 with
      | none => rfl
      | some r =>
        simp only [Option.bind_eq_bind, Option.bind_some]
        cases castTo t1 r.num x <;> cases castTo t2 r.num y <;> simp [ht]
  · constructor
    · rw [addFlt, addFlt, hr1, hr2]; rfl
    · rw [mulFlt, mulFlt, hr1, hr2]; rfl

/-- But on the order of three; and products of sums are not sums of products. -/
theorem C95_associative_false :
    plus .single (plus .single (.fin 16777216) (.fin 1)) (.fin 1) ≠
      plus .single (.fin 16777216) (plus .single (.fin 1) (.fin 1)) ∧
    times .single (.fin 3) (plus .single (.fin 16777216) (.fin 1)) ≠
      plus .single (times .single (.fin 3) (.fin 16777216)) (times .single (.fin 3) (.fin 1)) := by
  decide +kernel

/-- A difference is zero if and only if the numbers are equal. -/
theorem C95_difference_zero (t : FltTy) (x y : Rat) (hx : Represents t.num x) (hy : Represents t.num y) :
    (∃ o, subFlt t.num t.num (.fin x) (.fin y) = some o ∧ o.result = .fin 0) ↔ x = y := by
  have hz := sum_zero hx (represents_neg hy)
  rw [subFlt_eq hx hy, larger_self, sub_eq_add_neg]
  constructor
  · rintro ⟨o, ho, hr⟩
    cases ho
    have := hz.1 hr
    linarith
  · rintro rfl
    exact ⟨_, rfl, hz.2 (by ring)⟩

/-- A product can be zero without any of the numbers being zero, and is accepted. -/
theorem C95_underflow_false : mulFlt .f32 .f32 (.fin (1 / 2 ^ 100)) (.fin (1 / 2 ^ 100)) = some ⟨.fin 0, true⟩ := by
  decide +kernel

/-- Differences of numbers that are at most a factor of two apart are exact. -/
theorem C95_near (t : FltTy) (x y : Rat) (hx : Represents t.num x) (hy : Represents t.num y) (h1 : y / 2 ≤ x)
    (h2 : x ≤ 2 * y) : subFlt t.num t.num (.fin x) (.fin y) = some ⟨.fin (x - y), true⟩ := by
  rw [subFlt_eq hx hy, larger_self, round_exact t (difference_value hx hy h1 h2)]
  rfl

example : Represents .f32 (3 / 2) ∧ Represents .f32 (11184811 / 8388608) ∧ (11184811 / 8388608 : Rat) / 2 ≤ 3 / 2 ∧
    (3 / 2 : Rat) ≤ 2 * (11184811 / 8388608) := by
  refine ⟨(floatValue_iff 24 (-149) 104 _).2 ⟨3, -1, by norm_num, by norm_num, by norm_num, by norm_num⟩,
    (floatValue_iff 24 (-149) 104 _).2 ⟨11184811, -23, by norm_num, by norm_num, by norm_num, by norm_num⟩,
    by norm_num, by norm_num⟩

/-- Zero and one. -/
theorem C95_neutral (t : FltTy) (x : Rat) (hx : Represents t.num x) :
    addFlt t.num t.num (.fin x) (.fin 0) = some ⟨.fin x, true⟩ ∧
    subFlt t.num t.num (.fin x) (.fin 0) = some ⟨.fin x, true⟩ ∧
    mulFlt t.num t.num (.fin x) (.fin 1) = some ⟨.fin x, true⟩ ∧
    divFlt t.num t.num (.fin x) (.fin 1) = some (some ⟨.fin x, true⟩) ∧
    (x ≠ 0 → divFlt t.num t.num (.fin x) (.fin x) = some (some ⟨.fin 1, true⟩)) := by
  have zero : Represents t.num 0 := by
    have := represents_small t (i := 0) (by cases t <;> decide)
    simpa using this
  have one : Represents t.num 1 := by
    have := represents_small t (i := 1) (by cases t <;> decide)
    simpa using this
  refine ⟨?_, ?_, ?_, ?_, fun h0 => ?_⟩
  · rw [addFlt_eq hx zero, larger_self, add_zero, round_exact t hx]; rfl
  · rw [subFlt_eq hx zero, larger_self, sub_zero, round_exact t hx]; rfl
  · rw [mulFlt_eq hx one, larger_self, mul_one, round_exact t hx]; rfl
  · rw [divFlt_eq hx one one_ne_zero, larger_self, div_one, round_exact t hx]; rfl
  · rw [divFlt_eq hx hx h0, larger_self, div_self h0, round_exact t one]; rfl

/-- Order is kept. -/
theorem C95_monotone (t : FltTy) (x x' y : Rat) (h : x ≤ x') :
    Flt.le (plus t (.fin x) (.fin y)) (plus t (.fin x') (.fin y)) = true ∧
    Flt.le (minus t (.fin x) (.fin y)) (minus t (.fin x') (.fin y)) = true ∧
    Flt.le (minus t (.fin y) (.fin x')) (minus t (.fin y) (.fin x)) = true ∧
    (0 ≤ y → Flt.le (times t (.fin x) (.fin y)) (times t (.fin x') (.fin y)) = true) := by
  refine ⟨round_mono t (by linarith), round_mono t (by linarith), round_mono t (by linarith), fun hy => ?_⟩
  exact round_mono t (mul_le_mul_of_nonneg_right h hy)

/-- Small integers are added, subtracted and multiplied exactly. -/
theorem C95_integers (t : FltTy) (i j : Int) (hi : |i| ≤ small t) (hj : |j| ≤ small t) :
    (|i + j| ≤ small t → addFlt t.num t.num (.fin i) (.fin j) = some ⟨.fin (i + j : Int), true⟩) ∧
    (|i - j| ≤ small t → subFlt t.num t.num (.fin i) (.fin j) = some ⟨.fin (i - j : Int), true⟩) ∧
    (|i * j| ≤ small t → mulFlt t.num t.num (.fin i) (.fin j) = some ⟨.fin (i * j : Int), true⟩) := by
  have ri := represents_small t hi
  have rj := represents_small t hj
  refine ⟨fun h => ?_, fun h => ?_, fun h => ?_⟩
  · have := represents_small t h
    push_cast at this ⊢
    rw [addFlt_eq ri rj, larger_self, round_exact t this]; rfl
  · have := represents_small t h
    push_cast at this ⊢
    rw [subFlt_eq ri rj, larger_self, round_exact t this]; rfl
  · have := represents_small t h
    push_cast at this ⊢
    rw [mulFlt_eq ri rj, larger_self, round_exact t this]; rfl

/-! ### Errors -/

/-- The relative error of a sum (and, with `-y`, of a difference) is at most half a last bit. -/
theorem C95_error_sum (t : FltTy) (x y r : Rat) (hx : Represents t.num x) (hy : Represents t.num y)
    (h : Rounded t (x + y) (.fin r)) : |x + y - r| ≤ unit t * |x + y| :=
  sum_error hx hy (C95_determined t _ _ _ (round_rounded t _) h)

/-- The error of a product or quotient is, unless the result is very small. -/
theorem C95_error (t : FltTy) (q r : Rat) (h : Rounded t q (.fin r)) : |q - r| ≤ max (unit t * |q|) (tiny t) :=
  round_error (C95_determined t _ _ _ (round_rounded t _) h)

/-- Absolute values are exact. Infinity and NaN are accepted. -/
theorem C95_absolute (t : FltTy) (x : Flt) (hx : OfType t.num x) : (absFlt x).withinRange = true ∧
    OfType t.num (absFlt x).result ∧ (∀ q, x = .fin q → (absFlt x).result = .fin |q|) ∧
    (x = .inf ∨ x = .negInf → (absFlt x).result = .inf) ∧ (x = .nan → (absFlt x).result = .nan) := by
  refine ⟨rfl, ?_, ?_, ?_, ?_⟩
  · cases x with
    | fin q =>
      rcases abs_choice q with h | h
      · show Represents t.num |q|
        rw [h]; exact hx
      · show Represents t.num |q|
        rw [h]; exact represents_neg hx
    | _ => exact hx
  · rintro q rfl; rfl
  · rintro (rfl | rfl) <;> rfl
  · rintro rfl; rfl

/-! ### Rasters -/

/-- The sum of two rasters of floating point numbers: cells without value are marked, and so are those whose sum is too
large; the others get the rounded sum. -/
theorem C95_raster_add (t : FltTy) (in1 in2 : InPolicy Flt) (outp : OutPolicy Flt) (n1 n2 : Nat)
    (value1 value2 : List Flt) (result : List (Cell Flt)) (h1 : value1.length = n1 * n2) (h2 : value2.length = n1 * n2)
    (hr : result.length = n1 * n2) (hp1 : PolicyFor in1 (n1 * n2)) (hp2 : PolicyFor in2 (n1 * n2)) :
    ∃ out, binary2d2d (addFltOp t) in1 in2 outp (n1, n2) value1 (n1, n2) value2 (n1, n2) result = some out ∧
      Elementwise (fun i c c' => ∀ x y, value1[i]? = some (.fin x) → value2[i]? = some (.fin y) →
        (NoDataAt in1 value1 i ∨ NoDataAt in2 value2 i → Marked outp c c') ∧
        (¬ (NoDataAt in1 value1 i ∨ NoDataAt in2 value2 i) → TooLarge t (x + y) → ∃ v, Marked outp ⟨v, c.masked⟩ c') ∧
        (¬ (NoDataAt in1 value1 i ∨ NoDataAt in2 value2 i) → ¬ TooLarge t (x + y) →
          Rounded t (x + y) c'.val ∧ c'.masked = c.masked)) result out := by
  obtain ⟨out, e1, e2, e3⟩ := C10_binary_2d2d (addFltOp t) in1 in2 outp n1 n2 value1 value2 result h1 h2 hr hp1 hp2
  refine ⟨out, e1, e2, fun i c hc => ?_⟩
  obtain ⟨c', hc', h⟩ := e3 i c hc
  refine ⟨c', hc', fun x y hx hy => ?_⟩
  have h := h _ _ hx hy
  have hw : (addFltOp t).withinRange (.fin x, .fin y) (t.round (x + y)) = (t.round (x + y)).isFinite := by
    cases t <;> rfl
  refine ⟨h.noData, fun hn hl => ?_, fun hn hl => ?_⟩
  · have hf : (t.round (x + y)).isFinite = false := by
      rw [Bool.eq_false_iff]
      exact fun hf => (round_finite t _).1 hf hl
    exact ⟨_, h.outOfRange hn rfl (by rw [← hf, ← hw]; rfl)⟩
  · have hf := (round_finite t (x + y)).2 hl
    rw [h.ok hn rfl (by rw [← hf, ← hw]; rfl)]
    exact ⟨round_rounded t _, rfl⟩

/-- The quotient of two rasters of floating point numbers: cells without value are marked, and so are those in which the
divisor is zero or the quotient is too large; the others get the rounded quotient. -/
theorem C95_raster_divide (t : FltTy) (in1 in2 : InPolicy Flt) (outp : OutPolicy Flt) (n1 n2 : Nat)
    (value1 value2 : List Flt) (result : List (Cell Flt)) (h1 : value1.length = n1 * n2) (h2 : value2.length = n1 * n2)
    (hr : result.length = n1 * n2) (hp1 : PolicyFor in1 (n1 * n2)) (hp2 : PolicyFor in2 (n1 * n2)) :
    ∃ out, binary2d2d (divFltOp t) in1 in2 outp (n1, n2) value1 (n1, n2) value2 (n1, n2) result = some out ∧
      Elementwise (fun i c c' => ∀ x y, value1[i]? = some (.fin x) → value2[i]? = some (.fin y) →
        (NoDataAt in1 value1 i ∨ NoDataAt in2 value2 i → Marked outp c c') ∧
        (¬ (NoDataAt in1 value1 i ∨ NoDataAt in2 value2 i) → y = 0 → Marked outp c c') ∧
        (¬ (NoDataAt in1 value1 i ∨ NoDataAt in2 value2 i) → y ≠ 0 → TooLarge t (x / y) →
          ∃ v, Marked outp ⟨v, c.masked⟩ c') ∧
        (¬ (NoDataAt in1 value1 i ∨ NoDataAt in2 value2 i) → y ≠ 0 → ¬ TooLarge t (x / y) →
          Rounded t (x / y) c'.val ∧ c'.masked = c.masked)) result out := by
  obtain ⟨out, e1, e2, e3⟩ := C10_binary_2d2d (divFltOp t) in1 in2 outp n1 n2 value1 value2 result h1 h2 hr hp1 hp2
  refine ⟨out, e1, e2, fun i c hc => ?_⟩
  obtain ⟨c', hc', h⟩ := e3 i c hc
  refine ⟨c', hc', fun x y hx hy => ?_⟩
  have h := h _ _ hx hy
  have hd : y ≠ 0 → (divFltOp t).withinDomain (.fin x, .fin y) = true := fun h0 => by
    simp [divFltOp, divFltDomain, Flt.eq, h0]
  have hc : y ≠ 0 → (divFltOp t).compute (.fin x, .fin y) = t.round (x / y) := fun h0 => by simp [divFltOp, over, h0]
  refine ⟨h.noData, fun hn h0 => ?_, fun hn h0 hl => ?_, fun hn h0 hl => ?_⟩
  · subst h0
    exact h.outOfDomain hn rfl
  · have hf : (t.round (x / y)).isFinite = false := by
      rw [Bool.eq_false_iff]
      exact fun hf => (round_finite t _).1 hf hl
    exact ⟨_, h.outOfRange hn (hd h0) (by rw [hc h0]; exact hf)⟩
  · rw [h.ok hn (hd h0) (by rw [hc h0]; exact (round_finite t _).2 hl), hc h0]
    exact ⟨round_rounded t _, rfl⟩

example : binary2d2d (divFltOp .single) (.detect (· == .fin (-1))) .skip .markMask (1, 3) [.fin 1, .fin (-1), .fin 6]
    (1, 3) [.fin 0, .fin 2, .fin 4] (1, 3) [⟨.fin 9, false⟩, ⟨.fin 9, false⟩, ⟨.fin 9, false⟩] =
    some [⟨.fin 9, true⟩, ⟨.fin 9, true⟩, ⟨.fin (3 / 2), false⟩] := by decide +kernel

end Fern.FloatArith
