import Verif.Spec.Domains
import Verif.Props.LocalOps
import Mathlib.Analysis.Real.Pi.Irrational
import Mathlib.Analysis.SpecialFunctions.Gamma.Deriv

/-!
# C85: domains and ranges of the elementary functions
-/

namespace Fern.Domains

open Fern Fern.Spec Fern.Domains.Spec Flt

/-! ### Square roots, logarithms -/

theorem zero_le_iff (x : Flt) : le (.fin 0) x = true ↔ x = .inf ∨ ∃ r, x = .fin r ∧ 0 ≤ r := by
  cases x <;> simp [le]

/-- The values accepted for the square root are positive infinity and the numbers that are squares. -/
theorem C85_sqrt (x : Flt) :
    sqrtDomain x = true ↔ x = .inf ∨ ∃ r : Rat, x = .fin r ∧ ∃ y : ℝ, y * y = r := by
  rw [sqrtDomain, zero_le_iff]
  refine or_congr Iff.rfl (exists_congr fun r => and_congr Iff.rfl ?_)
  constructor
  · intro h
    exact ⟨Real.sqrt r, Real.mul_self_sqrt (by exact_mod_cast h)⟩
  · rintro ⟨y, hy⟩
    have : (0 : ℝ) ≤ r := hy ▸ mul_self_nonneg y
    exact_mod_cast this

/-- The values accepted for logarithms are positive infinity, the numbers that have a logarithm, and zero. -/
theorem C85_log (x : Flt) :
    logDomain x = true ↔ x = .inf ∨ x = .fin 0 ∨ ∃ r : Rat, x = .fin r ∧ ∃ y : ℝ, Real.exp y = r := by
  rw [logDomain, zero_le_iff]
  refine or_congr Iff.rfl ?_
  constructor
  · rintro ⟨r, rfl, h⟩
    rcases h.eq_or_lt with rfl | h
    · exact Or.inl rfl
    · exact Or.inr ⟨r, rfl, Real.log r, Real.exp_log (by exact_mod_cast h)⟩
  · rintro (rfl | ⟨r, rfl, y, hy⟩)
    · exact ⟨0, rfl, le_refl _⟩
    · refine ⟨r, rfl, ?_⟩
      have : (0 : ℝ) < r := hy ▸ Real.exp_pos y
      exact_mod_cast this.le

/-- The same for logarithms with another base, as 2 and 10. -/
theorem C85_log_base (b : ℝ) (hb : 1 < b) (x : Flt) :
    logDomain x = true ↔ x = .inf ∨ x = .fin 0 ∨ ∃ r : Rat, x = .fin r ∧ ∃ y : ℝ, b ^ y = r := by
  rw [C85_log]
  refine or_congr Iff.rfl (or_congr Iff.rfl (exists_congr fun r => and_congr Iff.rfl ?_))
  have h0 : 0 < b := by linarith
  have hl : Real.log b ≠ 0 := (Real.log_pos hb).ne'
  constructor
  · rintro ⟨y, hy⟩
    exact ⟨y / Real.log b, by rw [Real.rpow_def_of_pos h0, mul_div_cancel₀ _ hl, hy]⟩
  · rintro ⟨y, hy⟩
    exact ⟨Real.log b * y, by rw [← hy, Real.rpow_def_of_pos h0]⟩

/-- Zero has no logarithm. -/
theorem C85_log_zero : logDomain (.fin 0) = true ∧ ¬ ∃ y : ℝ, Real.exp y = 0 :=
  ⟨by decide +kernel, fun ⟨y, h⟩ => (Real.exp_pos y).ne' h⟩

/-! ### Trigonometry -/

theorem unit_iff (x : Flt) :
    (le (.fin (-1)) x && le x (.fin 1)) = true ↔ ∃ r, x = .fin r ∧ -1 ≤ r ∧ r ≤ 1 := by
  cases x <;> simp [le]

/-- The values accepted for the arc cosine are the cosines. -/
theorem C85_acos (x : Flt) : acosDomain x = true ↔ ∃ r : Rat, x = .fin r ∧ ∃ y : ℝ, Real.cos y = r := by
  rw [acosDomain, unit_iff]
  refine exists_congr fun r => and_congr Iff.rfl ?_
  constructor
  · rintro ⟨h1, h2⟩
    exact ⟨Real.arccos r, Real.cos_arccos (by exact_mod_cast h1) (by exact_mod_cast h2)⟩
  · rintro ⟨y, hy⟩
    have h1 := Real.neg_one_le_cos y
    have h2 := Real.cos_le_one y
    rw [hy] at h1 h2
    exact ⟨by exact_mod_cast h1, by exact_mod_cast h2⟩

/-- The values accepted for the arc sine are the sines. -/
theorem C85_asin (x : Flt) : asinDomain x = true ↔ ∃ r : Rat, x = .fin r ∧ ∃ y : ℝ, Real.sin y = r := by
  rw [asinDomain, unit_iff]
  refine exists_congr fun r => and_congr Iff.rfl ?_
  constructor
  · rintro ⟨h1, h2⟩
    exact ⟨Real.arcsin r, Real.sin_arcsin (by exact_mod_cast h1) (by exact_mod_cast h2)⟩
  · rintro ⟨y, hy⟩
    have h1 := Real.neg_one_le_sin y
    have h2 := Real.sin_le_one y
    rw [hy] at h1 h2
    exact ⟨by exact_mod_cast h1, by exact_mod_cast h2⟩

/-- The values accepted for the sine and the cosine are the numbers. -/
theorem C85_sin (x : Flt) : sinDomain x = true ↔ ∃ r, x = .fin r := by
  cases x <;> simp [sinDomain, isFinite]

/-- The tangent is defined for all numbers that a floating point type can represent. -/
theorem C85_tan_defined (r : Rat) : Real.cos r ≠ 0 := by
  rw [Real.cos_ne_zero_iff]
  intro k h
  have h2 : ((2 * k + 1 : ℤ) : ℚ) ≠ 0 := by
    have : (2 * k + 1 : ℤ) ≠ 0 := by omega
    exact_mod_cast this
  have h3 : Real.pi = ((2 * r / (2 * k + 1 : ℤ) : ℚ) : ℝ) := by
    have h4 : ((2 * k + 1 : ℤ) : ℝ) ≠ 0 := by exact_mod_cast h2
    push_cast at h4 ⊢
    rw [eq_div_iff h4, h]
    ring
  exact irrational_pi ⟨_, h3.symm⟩

theorem nearestEven_int (n : Int) : nearestEven n = n := by
  have h : ((n : Rat) + 1 / 2).floor = n := by
    have : ⌊(n : ℚ) + 1 / 2⌋ = n := by
      rw [Int.floor_eq_iff]
      constructor <;> norm_num
    exact this
  rw [nearestEven]
  simp only [h]
  rw [if_neg]
  rintro ⟨h1, _⟩
  have : (1 / 2 : Rat) = 0 := by linarith
  norm_num at this

theorem truncRat_int (n : Int) : truncRat n = n := by
  unfold truncRat
  split <;> simp

/-- For the tangent, the multiples of the number used for half of pi are accepted if they are even multiples; other
numbers always. The quotient must be computed exactly, which it is if the number of times fits. -/
theorem C85_tan (halfPi : Rat) (hp : 0 < halfPi) (div : Rat → Rat → Rat) (r : Rat) :
    (∀ n : Int, r = n * halfPi → div r halfPi = n →
      tanDomain halfPi div (.fin r) =
        if -2 ^ 63 ≤ n ∧ n < 2 ^ 63 then some (decide (n % 2 = 0)) else none) ∧
    ((∀ n : Int, r ≠ n * halfPi) → tanDomain halfPi div (.fin r) = some true) := by
  constructor
  · rintro n rfl hd
    have h1 : (n : Rat) * halfPi / halfPi = n := by field_simp
    rw [tanDomain, h1, nearestEven_int, sub_self, if_neg (by simp), hd, toInt64, truncRat_int]
    split
    · rw [Option.map_some]
      congr 1
      rw [decide_eq_decide, ← Int.dvd_iff_tmod_eq_zero, ← Int.dvd_iff_emod_eq_zero]
    · rfl
  · intro h
    rw [tanDomain, if_pos]
    rw [sub_ne_zero]
    exact h _

/-- Infinities and not a number are refused. -/
theorem C85_tan_infinite (halfPi : Rat) (div : Rat → Rat → Rat) :
    tanDomain halfPi div .inf = some false ∧ tanDomain halfPi div .negInf = some false ∧
      tanDomain halfPi div .nan = some false := ⟨rfl, rfl, rfl⟩

/-- So there are numbers that are refused, although they have a tangent: the one used for half of pi is one. -/
theorem C85_tan_refused (halfPi : Rat) (hp : 0 < halfPi) (div : Rat → Rat → Rat) (hd : div halfPi halfPi = 1) :
    tanDomain halfPi div (.fin halfPi) = some false ∧ Real.cos halfPi ≠ 0 := by
  refine ⟨?_, C85_tan_defined halfPi⟩
  rw [(C85_tan halfPi hp div halfPi).1 1 (by simp) (by simpa using hd)]
  decide

/-- For large multiples the test has undefined behaviour. -/
theorem C85_tan_undefined (halfPi : Rat) (hp : 0 < halfPi) (div : Rat → Rat → Rat) (n : Int) (hn : 2 ^ 63 ≤ n)
    (hd : div (n * halfPi) halfPi = n) : tanDomain halfPi div (.fin (n * halfPi)) = none := by
  rw [(C85_tan halfPi hp div _).1 n rfl hd, if_neg (by omega)]

example : tanDomain (157 / 100) (· / ·) (.fin (314 / 100)) = some true ∧
    tanDomain (157 / 100) (· / ·) (.fin (-157 / 100)) = some false := by
  constructor
  · rw [(C85_tan (157 / 100) (by norm_num) (· / ·) _).1 2 (by norm_num) (by norm_num)]
    decide
  · rw [(C85_tan (157 / 100) (by norm_num) (· / ·) _).1 (-1) (by norm_num) (by norm_num)]
    decide

/-! ### Powers -/

theorem fractional_zero (r : Rat) : eq (fractional (.fin r)) (.fin 0) = true ↔ ∃ n : Int, r = n := by
  simp only [fractional, eq, decide_eq_true_eq]
  constructor
  · intro h
    exact ⟨truncRat r, by linarith⟩
  · rintro ⟨n, rfl⟩
    rw [truncRat_int, sub_self]

theorem powDomain_fin (b e : Rat) :
    powDomain (.fin b) (.fin e) = true ↔ (b < 0 → ∃ n : Int, e = n) ∧ (b = 0 → 0 ≤ e) := by
  unfold powDomain
  by_cases hb : b < 0
  · rw [if_pos (by simpa [lt] using hb), fractional_zero]
    exact ⟨fun h => ⟨fun _ => h, fun h0 => absurd h0 hb.ne⟩, fun h => h.1 hb⟩
  · rw [if_neg (by simpa [lt] using hb)]
    simp [eq, lt, hb]
    tauto

/-- A power with base and exponent that a floating point type can represent is accepted exactly if it exists as a
real number. -/
theorem C85_pow (b e : Rat) (he : Dyadic e) :
    powDomain (.fin b) (.fin e) = true ↔ ∃ y : ℝ, IsPower b e y := by
  rw [powDomain_fin]
  constructor
  · rintro ⟨h1, h2⟩
    rcases lt_or_ge b 0 with hb | hb
    · obtain ⟨n, rfl⟩ := h1 hb
      exact ⟨(b : ℝ) ^ n, h2, by simp⟩
    · have hb' : (0 : ℝ) ≤ (b : ℝ) ^ e.num := zpow_nonneg (by exact_mod_cast hb) _
      exact ⟨((b : ℝ) ^ e.num) ^ ((e.den : ℝ)⁻¹), h2, Real.rpow_inv_natCast_pow hb' e.den_nz⟩
  · rintro ⟨y, h2, hy⟩
    refine ⟨fun hb => ?_, h2⟩
    obtain ⟨k, hk⟩ := he
    cases k with
    | zero => exact ⟨e.num, (Rat.coe_int_num_of_den_eq_one (by simpa using hk)).symm⟩
    | succ k =>
      exfalso
      have hodd : Odd e.num := by
        rw [← Int.not_even_iff_odd]
        intro hev
        have h1 := e.reduced
        have h3 : 2 ∣ e.num.natAbs := by
          obtain ⟨m, hm⟩ := hev
          omega
        have h4 : 2 ∣ e.den := by rw [hk]; exact dvd_pow_self 2 (by omega)
        have := Nat.dvd_gcd h3 h4
        rw [Nat.Coprime] at h1
        omega
      have hneg : (b : ℝ) ^ e.num < 0 := hodd.zpow_neg (by exact_mod_cast hb)
      have hpos : (0 : ℝ) ≤ y ^ e.den := by
        rw [hk]
        exact (Even.pow_nonneg (by rw [Nat.even_pow]; exact ⟨by decide, by omega⟩) y)
      rw [hy] at hpos
      linarith

/-- With infinities or not a number as base or exponent, what is refused is: a negative base with an exponent that is
not a number, and zero with an exponent of minus infinity. -/
theorem C85_pow_infinite (b e : Flt) (h : b.isFinite = false ∨ e.isFinite = false) :
    powDomain b e = false ↔
      (b = .negInf ∧ (e = .nan ∨ ∃ r : Rat, e = .fin r ∧ ¬ ∃ n : Int, r = n)) ∨
      (∃ r : Rat, b = .fin r ∧ r < 0 ∧ e = .nan) ∨ (b = .fin 0 ∧ e = .negInf) := by
  cases b with
  | fin b =>
    cases e with
    | fin e => simp [isFinite] at h
    | inf =>
      rcases lt_trichotomy b 0 with hb | hb | hb <;>
        simp [powDomain, lt, eq, fractional, hb]
    | negInf =>
      rcases lt_trichotomy b 0 with hb | hb | hb <;>
        first
          | simp [powDomain, lt, eq, fractional, hb]; done
          | simp [powDomain, lt, eq, fractional, hb.not_gt, hb.ne']; done
          | simp [powDomain, lt, eq, fractional, hb, hb.ne]
    | nan =>
      rcases lt_trichotomy b 0 with hb | hb | hb <;>
        simp [powDomain, lt, eq, fractional, hb]
  | inf => cases e <;> simp [powDomain, lt, eq]
  | negInf =>
    cases e with
    | fin e =>
      have h1 : powDomain .negInf (.fin e) = eq (fractional (.fin e)) (.fin 0) := by simp [powDomain, lt]
      rw [h1, ← Bool.not_eq_true, fractional_zero]
      simp
    | inf => simp [powDomain, lt, eq, fractional]
    | negInf => simp [powDomain, lt, eq, fractional]
    | nan => simp [powDomain, lt, eq, fractional]
  | nan => cases e <;> simp [powDomain, lt, eq]

example : powDomain (.fin (-8)) (.fin (1 / 2)) = false ∧ powDomain (.fin (-8)) (.fin 3) = true := by
  constructor
  · rw [← Bool.not_eq_true, powDomain_fin]
    rintro ⟨h, _⟩
    obtain ⟨n, hn⟩ := h (by norm_num)
    have : (1 : Rat) = (2 * n : Int) := by push_cast; linarith
    have : (1 : Int) = 2 * n := by exact_mod_cast this
    omega
  · rw [powDomain_fin]
    exact ⟨fun _ => ⟨3, by norm_num⟩, fun h => by norm_num at h⟩

example : Dyadic (1 / 2) ∧ ¬ ∃ y : ℝ, IsPower (-8) (1 / 2) y := by
  have hd : Dyadic (1 / 2) := ⟨1, by norm_num⟩
  refine ⟨hd, fun h => ?_⟩
  have := (C85_pow _ _ hd).2 h
  rw [powDomain_fin] at this
  obtain ⟨n, hn⟩ := this.1 (by norm_num)
  have : (1 : Rat) = (2 * n : Int) := by push_cast; linarith
  have : (1 : Int) = 2 * n := by exact_mod_cast this
  omega

/-! ### The gamma function -/

theorem trunc_eq_iff (r : Rat) : eq (trunc (.fin r)) (.fin r) = true ↔ ∃ n : Int, r = n := by
  simp only [trunc, eq, decide_eq_true_eq]
  constructor
  · intro h
    exact ⟨truncRat r, h.symm⟩
  · rintro ⟨n, rfl⟩
    rw [truncRat_int]

/-- The numbers accepted for the gamma function are those where it is defined, and zero. (Mathlib's function has the
value zero exactly where it is not defined.) -/
theorem C85_tgamma (r : Rat) : tgammaDomain (.fin r) = true ↔ r = 0 ∨ Real.Gamma r ≠ 0 := by
  have hp : (∀ m : ℕ, (r : ℝ) ≠ -m) ↔ Real.Gamma r ≠ 0 := by
    constructor
    · exact Real.Gamma_ne_zero
    · intro h m hm
      rw [hm] at h
      exact h (Real.Gamma_neg_nat_eq_zero m)
  rw [← hp, tgammaDomain, Bool.or_eq_true, Bool.not_eq_true', ← Bool.not_eq_true (eq _ _), trunc_eq_iff]
  simp only [le, decide_eq_true_eq]
  constructor
  · rintro (h | h)
    · by_cases h0 : r = 0
      · exact Or.inl h0
      · refine Or.inr fun m hm => ?_
        have h1 : (r : ℝ) ≤ 0 := by rw [hm]; simp
        exact h0 (le_antisymm (by exact_mod_cast h1) h)
    · exact Or.inr fun m hm => h ⟨-m, by exact_mod_cast hm⟩
  · rintro (rfl | h)
    · exact Or.inl (le_refl _)
    · by_cases hr : 0 ≤ r
      · exact Or.inl hr
      · refine Or.inr ?_
        rintro ⟨n, rfl⟩
        have hn : n < 0 := by
          by_contra hc
          exact hr (by exact_mod_cast not_lt.1 hc)
        refine h n.natAbs ?_
        have : (n : ℤ) = -(n.natAbs : ℤ) := by omega
        exact_mod_cast congrArg (fun z : ℤ => (z : ℝ)) this

/-- Contrary to what is documented, zero is accepted, where the function is not defined and has no limit. -/
theorem C85_tgamma_zero : tgammaDomain (.fin 0) = true ∧
    ∀ y : ℝ, ¬ Filter.Tendsto Real.Gamma (nhdsWithin 0 (Set.Ioi 0)) (nhds y) := by
  refine ⟨by decide +kernel, fun y h => ?_⟩
  have hx : Filter.Tendsto (fun x : ℝ => x) (nhdsWithin 0 (Set.Ioi 0)) (nhds 0) :=
    Filter.tendsto_id.mono_left nhdsWithin_le_nhds
  have h1 := hx.mul h
  rw [zero_mul] at h1
  have hc : ContinuousAt Real.Gamma 1 := by
    refine (Real.differentiableAt_Gamma fun m hm => ?_).continuousAt
    have : (0 : ℝ) ≤ m := Nat.cast_nonneg m
    linarith
  have h2 : Filter.Tendsto (fun x : ℝ => Real.Gamma (x + 1)) (nhdsWithin 0 (Set.Ioi 0)) (nhds 1) := by
    have h3 : Filter.Tendsto (fun x : ℝ => x + 1) (nhdsWithin 0 (Set.Ioi 0)) (nhds 1) := by
      simpa using hx.add_const 1
    have := hc.tendsto.comp h3
    rwa [Real.Gamma_one] at this
  have h4 : Filter.Tendsto (fun x : ℝ => Real.Gamma (x + 1)) (nhdsWithin 0 (Set.Ioi 0)) (nhds 0) := by
    refine h1.congr' ?_
    filter_upwards [self_mem_nhdsWithin] with x hx0
    rw [Real.Gamma_add_one (ne_of_gt hx0)]
  exact zero_ne_one (tendsto_nhds_unique h4 h2)

/-! ### Factorials of floating point numbers -/

/-- The values accepted for the factorial of floating point numbers are positive infinity and the numbers that are
natural numbers. -/
theorem C85_factorial_float (x : Flt) :
    factorialFloatDomain x = true ↔ x = .inf ∨ ∃ n : Nat, x = .fin n := by
  cases x with
  | fin r =>
    rw [factorialFloatDomain, Bool.and_eq_true, trunc_eq_iff]
    simp only [le, decide_eq_true_eq]
    constructor
    · rintro ⟨h, n, rfl⟩
      have hn : 0 ≤ n := by exact_mod_cast h
      refine Or.inr ⟨n.toNat, ?_⟩
      congr 1
      exact_mod_cast congrArg (fun z : ℤ => (z : ℚ)) (Int.toNat_of_nonneg hn).symm
    · rintro (h | ⟨n, h⟩)
      · cases h
      · injection h with h
        subst h
        exact ⟨Nat.cast_nonneg n, n, by simp⟩
  | inf => simp [factorialFloatDomain, le, eq, trunc]
  | negInf => simp [factorialFloatDomain, le]
  | nan => simp [factorialFloatDomain, le]

/-! ### Factorials of integers -/

theorem roundRat_nat (n : Nat) : roundRat n = n := by
  have h : ((n : Rat) + 1 / 2).floor = n := by
    have : ⌊(n : ℚ) + 1 / 2⌋ = (n : ℤ) := by
      rw [Int.floor_eq_iff]
      constructor <;> norm_num
    exact this
  rw [roundRat, if_pos (Nat.cast_nonneg n), h]

theorem roundRat_mono {x : Rat} (n : Nat) (h : (n : Rat) ≤ x) : (n : Int) ≤ roundRat x := by
  rw [roundRat, if_pos (le_trans (Nat.cast_nonneg n) h)]
  have : (n : ℤ) ≤ ⌊x + 1 / 2⌋ := by
    rw [Int.le_floor]
    push_cast
    linarith
  exact this

theorem factorial_le_twenty {n : Nat} (h : n ≤ 20) : n.factorial ≤ 2432902008176640000 :=
  le_trans (Nat.factorial_le h) (by decide +kernel)

theorem le_factorial {n : Nat} (h : 21 ≤ n) : 51090942171709440000 ≤ n.factorial :=
  le_trans (by decide +kernel) (Nat.factorial_le h)

theorem max_le (t : IntTy) : t.max ≤ 2 ^ 64 - 1 := by cases t <;> decide

theorem le_maxAsDouble (t : IntTy) (n : Nat) (h : n ≤ 20) :
    ((n.factorial : Int) : Rat) ≤ maxAsDouble t ↔ (n.factorial : Int) ≤ t.max := by
  have h1 := factorial_le_twenty h
  rw [maxAsDouble]
  split
  · rename_i hb
    rw [Int.cast_le]
    cases t <;> simp [IntTy.bits] at hb <;> simp [IntTy.max, IntTy.bits, IntTy.signed] <;> omega
  · rw [Int.cast_le]

theorem maxAsDouble_lt (t : IntTy) : maxAsDouble t < ((51090942171709440000 : Int) : Rat) := by
  rw [maxAsDouble]
  have := max_le t
  split <;> rw [Int.cast_lt] <;> omega

theorem add_one (t u : IntTy) (hu : u = t ∨ u = .i32) (v : Int) (h0 : 0 ≤ v) (hv : v ≤ t.max) :
    IntTy.arith (IntTy.common t u) (v + 1) =
      if v = t.max ∧ 32 ≤ t.bits then (if t.signed then none else some 0) else some (v + 1) := by
  rcases hu with hu | hu <;> cases t <;> subst hu <;>
    simp [IntTy.arith, IntTy.common, IntTy.convert, IntTy.promote, IntTy.bits, IntTy.signed, IntTy.max, IntTy.min,
      IntTy.wrap] at hv ⊢ <;>
    first
      | omega
      | (split <;> simp_all <;> omega)

/-- What the value of `std::tgamma` says about a factorial. -/
theorem gamma_cases {gamma : Int → Flt} (hg : Accurate gamma) (n : Nat) :
    (n ≤ 20 ∧ round (gamma (n + 1)) = .fin ((n.factorial : Int) : Rat)) ∨
    (21 ≤ n ∧ (round (gamma (n + 1)) = .inf ∨
      ∃ z : Int, round (gamma (n + 1)) = .fin z ∧ 51090942171709440000 ≤ z)) := by
  rcases Nat.lt_or_ge 20 n with h | h
  · refine Or.inr ⟨h, ?_⟩
    rcases hg.large n h with h1 | ⟨x, h1, h2⟩
    · exact Or.inl (by rw [h1]; rfl)
    · refine Or.inr ⟨roundRat x, by rw [h1, round], ?_⟩
      have := roundRat_mono _ h2
      have h3 : (Nat.factorial 21) = 51090942171709440000 := by decide +kernel
      rw [h3] at this
      exact_mod_cast this
  · refine Or.inl ⟨h, ?_⟩
    rw [hg.small n h, round, roundRat_nat]

/-- The range policy of the factorial of integers accepts exactly the factorials that the type can represent, for all
values but the largest of the types of 32 and 64 bits. For those that are signed the policy has undefined behaviour. -/
theorem C85_factorial_range {gamma : Int → Flt} (hg : Accurate gamma) (t : IntTy) (n : Nat) (hn : (n : Int) ≤ t.max) :
    factorialRange gamma t n =
      if (n : Int) = t.max ∧ 32 ≤ t.bits ∧ t.signed = true then none
      else some (decide ((n.factorial : Int) ≤ t.max)) := by
  rw [factorialRange, add_one t .i32 (Or.inr rfl) n (by omega) hn]
  by_cases h : (n : Int) = t.max ∧ 32 ≤ t.bits
  · rw [if_pos h]
    cases hs : t.signed
    · rw [if_neg (by simp), if_neg (by simp), Option.map_some, hg.zero]
      have h1 : 21 ≤ n := by
        obtain ⟨h1, h2⟩ := h
        cases t <;> simp [IntTy.bits] at h2 <;> simp [IntTy.max, IntTy.bits, IntTy.signed] at h1 <;> omega
      have := le_factorial h1
      have := max_le t
      simp only [round, le, Option.some.injEq]
      symm
      rw [decide_eq_false_iff_not]
      omega
    · rw [if_pos rfl, if_pos ⟨h.1, h.2, rfl⟩]
      rfl
  · rw [if_neg h, if_neg (fun h' => h ⟨h'.1, h'.2.1⟩), Option.map_some]
    congr 1
    rcases gamma_cases hg n with ⟨h1, h2⟩ | ⟨h1, h2⟩
    · rw [h2, le, decide_eq_decide]
      exact le_maxAsDouble t n h1
    · have := le_factorial h1
      have := max_le t
      have h5 : decide ((n.factorial : Int) ≤ t.max) = false := by
        rw [decide_eq_false_iff_not]
        omega
      rw [h5]
      rcases h2 with h2 | ⟨z, h2, h3⟩
      · rw [h2]
        rfl
      · rw [h2, le, decide_eq_false_iff_not, not_le]
        exact lt_of_lt_of_le (maxAsDouble_lt t) (Int.cast_le.2 h3)

/-- The factorial of an integer: negative values give no-data, other values the factorial if the type can represent
it. If not, the behaviour is undefined: before the range policy is asked, a floating point number that is too large
is converted to the type. -/
theorem C85_factorial {gamma : Int → Flt} (hg : Accurate gamma) (t : IntTy) (v : Int) (hv : v ≤ t.max) :
    (v < 0 → factorialCell gamma t v = some .noData) ∧
    (∀ n : Nat, v = n → (n.factorial : Int) ≤ t.max → factorialCell gamma t v = some (.value n.factorial)) ∧
    (∀ n : Nat, v = n → t.max < n.factorial → factorialCell gamma t v = none) := by
  refine ⟨fun h => ?_, ?_, ?_⟩
  · rw [factorialCell, if_pos]
    simpa [factorialDomain] using h
  · rintro n rfl h
    have h21 : n ≤ 20 := by
      by_contra hc
      have := le_factorial (n := n) (by omega)
      have := max_le t
      omega
    have hne : ¬ ((n : Int) = t.max ∧ 32 ≤ t.bits) := by
      rintro ⟨h1, h2⟩
      cases t <;> simp [IntTy.bits] at h2 <;> simp [IntTy.max, IntTy.bits, IntTy.signed] at h1 <;> omega
    have hr := C85_factorial_range hg t n hv
    rw [if_neg (fun h' => hne ⟨h'.1, h'.2.1⟩), decide_eq_true h] at hr
    rw [factorialCell, if_neg (by simp [factorialDomain]), hr, factorialValue,
      add_one t t (Or.inl rfl) n (by omega) hv, if_neg hne, Option.bind_some]
    rcases gamma_cases hg n with ⟨_, h2⟩ | ⟨h1, _⟩
    · have : t.min ≤ 0 := by cases t <;> decide
      rw [h2, toInteger, truncRat_int, if_pos ⟨by omega, h⟩]
      rfl
    · omega
  · rintro n rfl h
    rw [factorialCell, if_neg (by simp [factorialDomain]), factorialValue,
      add_one t t (Or.inl rfl) n (by omega) hv]
    have hz : toInteger t (round (gamma (n + 1))) = none := by
      rcases gamma_cases hg n with ⟨_, h2⟩ | ⟨_, h2 | ⟨z, h2, h3⟩⟩
      · rw [h2, toInteger, truncRat_int, if_neg (by omega)]
      · rw [h2]
        rfl
      · have := max_le t
        rw [h2, toInteger, truncRat_int, if_neg (by omega)]
    split
    · split
      · rfl
      · rw [Option.bind_some, hg.zero]
        rfl
    · rw [Option.bind_some, hz]
      rfl

/-- An accurate gamma function. -/
example : Accurate fun a => if a ≤ 0 then .inf else .fin (a.toNat - 1).factorial where
  small n _ := by
    rw [if_neg (by omega)]
    congr 2
  large n h := by
    refine Or.inr ⟨n.factorial, ?_, by exact_mod_cast Nat.factorial_le h⟩
    rw [if_neg (by omega)]
    congr 2
  zero := rfl

/-- `5!` in a signed byte, and the first that does not fit. -/
example {gamma : Int → Flt} (hg : Accurate gamma) :
    factorialCell gamma .i8 5 = some (.value 120) ∧ factorialCell gamma .i8 6 = none ∧
      factorialCell gamma .i8 (-1) = some .noData :=
  ⟨(C85_factorial hg .i8 5 (by decide)).2.1 5 rfl (by decide),
    (C85_factorial hg .i8 6 (by decide)).2.2 6 rfl (by decide),
    (C85_factorial hg .i8 (-1) (by decide)).1 (by decide)⟩

/-! ### Rounding -/

/-- `std::trunc`: the integer between zero and the value that is nearest to the value. -/
theorem C85_trunc (x : Rat) : (0 ≤ x → (truncRat x : Rat) ≤ x ∧ x < truncRat x + 1) ∧
    (x ≤ 0 → x ≤ truncRat x ∧ (truncRat x : Rat) - 1 < x) := by
  constructor
  · intro h
    rw [truncRat, if_pos h]
    exact ⟨Int.floor_le x, Int.lt_floor_add_one x⟩
  · intro h
    rw [truncRat]
    split
    · next h' =>
      have : x = 0 := le_antisymm h h'
      subst this
      exact ⟨by decide +kernel, by decide +kernel⟩
    · exact ⟨Rat.le_ceil, sub_lt_iff_lt_add.2 Rat.ceil_lt⟩

/-- `std::round`: no integer is nearer; of two, it is the one further from zero. -/
theorem C85_round (x : Rat) : |x - roundRat x| ≤ 1 / 2 ∧
    (|x - roundRat x| = 1 / 2 → |x| < |(roundRat x : Rat)|) := by
  rw [roundRat]
  split
  · next h =>
    have h1 : (((x + 1 / 2).floor : Int) : Rat) ≤ x + 1 / 2 := Int.floor_le _
    have h2 : x + 1 / 2 < ((x + 1 / 2).floor : Int) + 1 := Int.lt_floor_add_one _
    generalize (x + 1 / 2).floor = n at h1 h2
    refine ⟨abs_le.2 ⟨by linarith, by linarith⟩, fun he => ?_⟩
    rcases (abs_eq (by norm_num)).1 he with he | he
    · linarith
    · rw [abs_of_nonneg h, abs_of_nonneg (by linarith)]
      linarith
  · next h =>
    have h1 : x - 1 / 2 ≤ ((x - 1 / 2).ceil : Int) := Rat.le_ceil
    have h2 : ((x - 1 / 2).ceil : Int) < x - 1 / 2 + 1 := Rat.ceil_lt
    generalize (x - 1 / 2).ceil = n at h1 h2
    have h' : x < 0 := not_le.1 h
    refine ⟨abs_le.2 ⟨by linarith, by linarith⟩, fun he => ?_⟩
    rcases (abs_eq (by norm_num)).1 he with he | he
    · rw [abs_of_neg h', abs_of_neg (by linarith)]
      linarith
    · linarith

/-- The integer that `std::remainder` uses: no integer is nearer; of two, it is the even one. -/
theorem C85_nearest_even (x : Rat) : |x - nearestEven x| ≤ 1 / 2 ∧
    (|x - nearestEven x| = 1 / 2 → nearestEven x % 2 = 0) := by
  have h1 : (((x + 1 / 2).floor : Int) : Rat) ≤ x + 1 / 2 := Int.floor_le _
  have h2 : x + 1 / 2 < ((x + 1 / 2).floor : Int) + 1 := Int.lt_floor_add_one _
  unfold nearestEven
  dsimp only
  generalize (x + 1 / 2).floor = n at h1 h2 ⊢
  split
  · next h =>
    obtain ⟨h3, h4⟩ := h
    refine ⟨?_, fun _ => by omega⟩
    push_cast
    exact abs_le.2 ⟨by linarith, by linarith⟩
  · next h =>
    refine ⟨abs_le.2 ⟨by linarith, by linarith⟩, fun he => ?_⟩
    by_contra h4
    rcases (abs_eq (by norm_num)).1 he with he | he
    · linarith
    · exact h ⟨by linarith, h4⟩

example : truncRat (-7 / 2) = -3 ∧ roundRat (-7 / 2) = -4 ∧ nearestEven (5 / 2) = 2 := by
  refine ⟨?_, ?_, ?_⟩ <;> decide +kernel

/-! ### The operations on rasters -/

/-- Square roots of a raster: cells without value and cells that have no square root are marked, in other cells the
root is written. -/
theorem C85_sqrt_raster (f : Flt → Flt) (inp : InPolicy Flt) (outp : OutPolicy Flt) (n1 n2 : Nat)
    (value : List Flt) (result : List (Cell Flt)) (hv : value.length = n1 * n2)
    (hr : result.length = n1 * n2) (hp : PolicyFor inp (n1 * n2)) :
    ∃ out, unary2d (sqrtOp f) inp outp (n1, n2) value (n1, n2) result = some out ∧
      Elementwise (fun i c c' => ∀ v, value[i]? = some v →
        (NoDataAt inp value i ∨ v = .negInf ∨ v = .nan ∨
            (∃ r : Rat, v = .fin r ∧ ¬ ∃ y : ℝ, y * y = r) → Marked outp c c') ∧
        (¬ NoDataAt inp value i → (v = .inf ∨ ∃ r : Rat, v = .fin r ∧ ∃ y : ℝ, y * y = r) →
          c' = ⟨f v, c.masked⟩)) result out := by
  obtain ⟨out, h1, h2, h3⟩ := C09_unary_2d (sqrtOp f) inp outp n1 n2 value result hv hr hp
  refine ⟨out, h1, h2, fun i c hc => ?_⟩
  obtain ⟨c', hc', h⟩ := h3 i c hc
  refine ⟨c', hc', fun v hvi => ?_⟩
  have hl := h v hvi
  constructor
  · intro hm
    by_cases hn : NoDataAt inp value i
    · exact hl.noData hn
    · refine hl.outOfDomain hn ?_
      rcases hm with hm | rfl | rfl | ⟨r, rfl, hm⟩
      · exact absurd hm hn
      · rfl
      · rfl
      · show sqrtDomain (.fin r) = false
        rw [← Bool.not_eq_true]
        intro hd
        rw [C85_sqrt] at hd
        rcases hd with hd | ⟨r', hr', hd⟩
        · cases hd
        · injection hr' with hr'
          subst hr'
          exact hm hd
  · intro hn hm
    exact hl.ok hn ((C85_sqrt v).2 hm) rfl

/-- Cells of a function of a raster: marked if there is no value or the value isn't accepted, otherwise what the function
gives, marked if that isn't permitted. -/
def FunctionCells (accepted permitted : Flt → Prop) (f : Flt → Flt) (inp : InPolicy Flt) (outp : OutPolicy Flt)
    (value : List Flt) (result out : List (Cell Flt)) : Prop :=
  Elementwise (fun i c c' => ∀ v, value[i]? = some v →
    (NoDataAt inp value i ∨ ¬accepted v → Marked outp c c') ∧
    (¬NoDataAt inp value i → accepted v → permitted (f v) → c' = ⟨f v, c.masked⟩) ∧
    (¬NoDataAt inp value i → accepted v → ¬permitted (f v) → Marked outp ⟨f v, c.masked⟩ c')) result out

theorem functionCells (op : LocalOp Flt Flt) (accepted permitted : Flt → Prop)
    (hd : ∀ x, op.withinDomain x = true ↔ accepted x)
    (hg : ∀ x y, op.withinRange x y = true ↔ permitted y) (inp : InPolicy Flt) (outp : OutPolicy Flt) (n1 n2 : Nat)
    (value : List Flt) (result : List (Cell Flt)) (hv : value.length = n1 * n2)
    (hr : result.length = n1 * n2) (hp : PolicyFor inp (n1 * n2)) :
    ∃ out, unary2d op inp outp (n1, n2) value (n1, n2) result = some out ∧
      FunctionCells accepted permitted op.compute inp outp value result out := by
  obtain ⟨out, h1, h2, h3⟩ := C09_unary_2d op inp outp n1 n2 value result hv hr hp
  refine ⟨out, h1, h2, fun i c hc => ?_⟩
  obtain ⟨c', hc', h⟩ := h3 i c hc
  refine ⟨c', hc', fun v hvi => ?_⟩
  have hl := h v hvi
  refine ⟨fun hm => ?_, fun hn ha hq => hl.ok hn ((hd v).2 ha) ((hg v _).2 hq), fun hn ha hq => ?_⟩
  · by_cases hn : NoDataAt inp value i
    · exact hl.noData hn
    · have ha : ¬accepted v := hm.resolve_left hn
      exact hl.outOfDomain hn (by rw [← Bool.not_eq_true, hd]; exact ha)
  · exact hl.outOfRange hn ((hd v).2 ha) (by rw [← Bool.not_eq_true, hg]; exact hq)

/-- Logarithms of a raster: written in the cells with a number that has one, with zero or infinity; other cells are
marked. -/
theorem C85_log_raster (f : Flt → Flt) (inp : InPolicy Flt) (outp : OutPolicy Flt) (n1 n2 : Nat)
    (value : List Flt) (result : List (Cell Flt)) (hv : value.length = n1 * n2)
    (hr : result.length = n1 * n2) (hp : PolicyFor inp (n1 * n2)) :
    ∃ out, unary2d (logOp f) inp outp (n1, n2) value (n1, n2) result = some out ∧
      FunctionCells (fun x => x = .inf ∨ x = .fin 0 ∨ ∃ r : Rat, x = .fin r ∧ ∃ y : ℝ, Real.exp y = r) (fun _ => True) f
        inp outp value result out :=
  functionCells (logOp f) _ _ C85_log (fun _ _ => by simp [logOp]) inp outp n1 n2 value result hv hr hp

/-- The same for arcsines and arccosines, and for sines and cosines. -/
theorem C85_trigonometry_raster (f : Flt → Flt) (inp : InPolicy Flt) (outp : OutPolicy Flt) (n1 n2 : Nat)
    (value : List Flt) (result : List (Cell Flt)) (hv : value.length = n1 * n2)
    (hr : result.length = n1 * n2) (hp : PolicyFor inp (n1 * n2)) :
    (∃ out, unary2d (acosOp f) inp outp (n1, n2) value (n1, n2) result = some out ∧
      FunctionCells (fun x => ∃ r : Rat, x = .fin r ∧ ∃ y : ℝ, Real.cos y = r) (fun _ => True) f inp outp value result
        out) ∧
    (∃ out, unary2d (asinOp f) inp outp (n1, n2) value (n1, n2) result = some out ∧
      FunctionCells (fun x => ∃ r : Rat, x = .fin r ∧ ∃ y : ℝ, Real.sin y = r) (fun _ => True) f inp outp value result
        out) ∧
    ∃ out, unary2d (sinOp f) inp outp (n1, n2) value (n1, n2) result = some out ∧
      FunctionCells (fun x => ∃ r : Rat, x = .fin r) (fun _ => True) f inp outp value result out :=
  ⟨functionCells (acosOp f) _ _ C85_acos (fun _ _ => by simp [acosOp]) inp outp n1 n2 value result hv hr hp,
    functionCells (asinOp f) _ _ C85_asin (fun _ _ => by simp [asinOp]) inp outp n1 n2 value result hv hr hp,
    functionCells (sinOp f) _ _ C85_sin (fun _ _ => by simp [sinOp]) inp outp n1 n2 value result hv hr hp⟩

/-- The gamma function of a raster: written if the number computed is finite, in cells with a number where the function is
defined, and zero; other cells are marked. -/
theorem C85_tgamma_raster (f : Flt → Flt) (inp : InPolicy Flt) (outp : OutPolicy Flt) (n1 n2 : Nat)
    (value : List Flt) (result : List (Cell Flt)) (hv : value.length = n1 * n2)
    (hr : result.length = n1 * n2) (hp : PolicyFor inp (n1 * n2)) :
    ∃ out, unary2d (tgammaOp f) inp outp (n1, n2) value (n1, n2) result = some out ∧
      FunctionCells (fun x => x = .inf ∨ x = .nan ∨ ∃ r : Rat, x = .fin r ∧ (r = 0 ∨ Real.Gamma r ≠ 0))
        (fun y => ∃ r, y = .fin r) f inp outp value result out := by
  refine functionCells (tgammaOp f) _ _ (fun x => ?_) (fun x y => ?_) inp outp n1 n2 value result hv hr hp
  · cases x with
    | fin r =>
      show tgammaDomain (.fin r) = true ↔ _
      rw [C85_tgamma]
      simp
    | _ => simp [tgammaOp, tgammaDomain, le, eq, trunc]
  · cases y <;> simp [tgammaOp, finiteRange, isFinite]

/-- Factorials of a raster of floating point numbers: written if the number computed is finite, in cells with a natural
number or infinity; other cells are marked. -/
theorem C85_factorial_raster (f : Flt → Flt) (inp : InPolicy Flt) (outp : OutPolicy Flt) (n1 n2 : Nat)
    (value : List Flt) (result : List (Cell Flt)) (hv : value.length = n1 * n2)
    (hr : result.length = n1 * n2) (hp : PolicyFor inp (n1 * n2)) :
    ∃ out, unary2d (factorialFloatOp f) inp outp (n1, n2) value (n1, n2) result = some out ∧
      FunctionCells (fun x => x = .inf ∨ ∃ n : Nat, x = .fin n) (fun y => ∃ r, y = .fin r) f inp outp value result out := by
  refine functionCells (factorialFloatOp f) _ _ C85_factorial_float (fun x y => ?_) inp outp n1 n2 value result hv hr hp
  cases y <;> simp [factorialFloatOp, finiteRange, isFinite]

example : unary2d (logOp fun _ => .fin 0) .skip .markMask (1, 2) [.fin 1, .fin (-1)] (1, 2)
    [⟨.fin 7, false⟩, ⟨.fin 7, false⟩] = some [⟨.fin 0, false⟩, ⟨.fin 7, true⟩] := by decide +kernel

/-- Powers of rasters: the result is written where the power exists and the number computed for it is finite;
otherwise the cell is marked. -/
theorem C85_pow_raster (f : Flt → Flt → Flt) (in1 in2 : InPolicy Flt) (outp : OutPolicy Flt) (n1 n2 : Nat)
    (value1 value2 : List Flt) (result : List (Cell Flt)) (hv1 : value1.length = n1 * n2)
    (hv2 : value2.length = n1 * n2) (hr : result.length = n1 * n2) (h1 : PolicyFor in1 (n1 * n2))
    (h2 : PolicyFor in2 (n1 * n2)) :
    ∃ out, binary2d2d (powOp f) in1 in2 outp (n1, n2) value1 (n1, n2) value2 (n1, n2) result = some out ∧
      Elementwise (fun i c c' => ∀ b e : Rat, value1[i]? = some (.fin b) → value2[i]? = some (.fin e) → Dyadic e →
        (NoDataAt in1 value1 i ∨ NoDataAt in2 value2 i ∨ (¬ ∃ y : ℝ, IsPower b e y) → Marked outp c c') ∧
        (¬ NoDataAt in1 value1 i → ¬ NoDataAt in2 value2 i → (∃ y : ℝ, IsPower b e y) →
          ((∃ x : Rat, f (.fin b) (.fin e) = .fin x) → c' = ⟨f (.fin b) (.fin e), c.masked⟩) ∧
          ((¬ ∃ x : Rat, f (.fin b) (.fin e) = .fin x) →
            Marked outp ⟨f (.fin b) (.fin e), c.masked⟩ c'))) result out := by
  obtain ⟨out, h4, h5, h3⟩ := C10_binary_2d2d (powOp f) in1 in2 outp n1 n2 value1 value2 result hv1 hv2 hr h1 h2
  refine ⟨out, h4, h5, fun i c hc => ?_⟩
  obtain ⟨c', hc', h⟩ := h3 i c hc
  refine ⟨c', hc', fun b e hb he hd => ?_⟩
  have hl := h _ _ hb he
  constructor
  · intro hm
    by_cases hn : NoDataAt in1 value1 i ∨ NoDataAt in2 value2 i
    · exact hl.noData hn
    · refine hl.outOfDomain hn ?_
      have hm : ¬ ∃ y : ℝ, IsPower b e y := by tauto
      rw [← C85_pow b e hd, Bool.not_eq_true] at hm
      exact hm
  · intro hn1 hn2 hp
    have hn : ¬ (NoDataAt in1 value1 i ∨ NoDataAt in2 value2 i) := by tauto
    have hdom := (C85_pow b e hd).2 hp
    constructor
    · rintro ⟨x, hx⟩
      exact hl.ok hn hdom (by simp [powOp, finiteRange, hx, isFinite])
    · intro hx
      refine hl.outOfRange hn hdom ?_
      cases hf : f (.fin b) (.fin e) with
      | fin x => exact absurd ⟨x, hf⟩ hx
      | _ => simp [powOp, finiteRange, hf, isFinite]

end Fern.Domains
