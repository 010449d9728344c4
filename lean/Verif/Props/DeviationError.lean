import Verif.Props.FloatSpread
import Verif.Props.SlopeError

/-!
# C123: the accuracy of standard deviations
-/

namespace Fern.FloatSpread

open Fern Fern.Domains Fern.Spec Fern.Casts Fern.FloatArith Fern.FloatArith.Spec
open Fern.FloatVector (round_represents)
open _root_.Fern.FloatSpread.Spec
open _root_.Fern.SlopeError.Spec (AccurateRoot)

theorem over_represents {t : FltTy} {a b : Flt} {r : Rat} (h : over t a b = some (.fin r)) : Represents t.num r := by
  have inf : ∀ y : Rat, infinite y ≠ .fin r := by
    intro y
    unfold infinite
    split_ifs <;> simp
  cases a <;> cases b <;> simp only [over] at h <;> try split_ifs at h
  all_goals first
    | exact round_represents (Option.some.inj h)
    | exact absurd (Option.some.inj h) (inf _)
    | (obtain rfl := Flt.fin.inj (Option.some.inj h); exact FloatConvolve.zero_represents t)
    | cases h

theorem variance_represents (t : FltTy) {vs : List Flt} {s : SpreadState Flt} (h : Accumulated (varianceAcc (fltSpreadOps t)) vs s)
    (hn : vs ≠ []) {r : Rat} (hr : (varianceAcc (fltSpreadOps t)).result s = some (.fin r)) : Represents t.num r := by
  rw [result_eq t h hn] at hr
  obtain ⟨m, -, h2⟩ := Option.bind_eq_some_iff.1 hr
  exact over_represents h2

theorem accumulated_deviation (t : FltTy) (sqrt : Flt → Flt) {vs : List Flt} {s : SpreadState Flt}
    (h : Accumulated (standardDeviationAcc (fltSpreadOps t) sqrt) vs s) : Accumulated (varianceAcc (fltSpreadOps t)) vs s := by
  induction h with
  | init => exact .init
  | add vs s s' v ok _ h2 ih => exact .add vs s s' v ok ih h2
  | merge vs vs' s s' s'' ok _ _ h3 ih1 ih2 => exact .merge vs vs' s s' s'' ok ih1 ih2 h3

/-- Roots of numbers that are close. -/
theorem roots_near {r v e : Real} (hr : 0 ≤ r) (hv : 0 ≤ v) (h : |r - v| ≤ e) : |√r - √v| ≤ √e ∧ |√r - √v| * √v ≤ e := by
  have he : 0 ≤ e := (abs_nonneg _).trans h
  have a := Real.sqrt_nonneg r
  have b := Real.sqrt_nonneg v
  have a2 := Real.sq_sqrt hr
  have b2 := Real.sq_sqrt hv
  have hprod : |√r - √v| * (√r + √v) = |r - v| := by
    have : r - v = (√r - √v) * (√r + √v) := by nlinarith
    rw [this, abs_mul, abs_of_nonneg (add_nonneg a b)]
  constructor
  · refine Real.le_sqrt_of_sq_le ?_
    have : |√r - √v| ≤ √r + √v := by
      refine abs_le.2 ⟨by linarith, by linarith⟩
    have := mul_le_mul_of_nonneg_left this (abs_nonneg (√r - √v))
    rw [pow_two]
    linarith
  · have := mul_nonneg (abs_nonneg (√r - √v)) a
    rw [mul_add] at hprod
    linarith

/-- **C123**: the standard deviation of numbers, however they are divided over accumulators, is near to the root of the exact
variance: besides the error of the root, it is off by at most the root of the error of the variance, and by at most that
error divided by the standard deviation. -/
theorem C123_deviation (t : FltTy) (sqrt : Flt → Flt) (hroot : AccurateRoot t sqrt) (vs : List Flt) (hv : FiniteValues t vs)
    (hn : vs ≠ []) (hsmall : (vs.length : Int) ≤ small t) (s : SpreadState Flt)
    (h : Accumulated (standardDeviationAcc (fltSpreadOps t) sqrt) vs s) (d v : Rat)
    (hd : d = meanError t vs.length (magnitude vs / vs.length)) (hvar : v = exactVariance (vs.map number))
    (hb1 : (1 + unit t) ^ (vs.length - 1) * magnitude vs < limit t) (hb2 : squaresBound t vs.length v d < limit t) :
    ∃ r : Rat, (standardDeviationAcc (fltSpreadOps t) sqrt).result s = some (.fin r) ∧ 0 ≤ r ∧
      ∃ f : Real, |(r : Real) - √(v : Real)| ≤ 2 * (unit t : Real) * √(v : Real) + (1 + 2 * (unit t : Real)) * f ∧
        0 ≤ f ∧ f ≤ √((varianceError t vs.length v d : Rat) : Real) ∧ f * √(v : Real) ≤ ((varianceError t vs.length v d : Rat) : Real) := by
  have h' := accumulated_deviation t sqrt h
  obtain ⟨x, x1, x2, x3⟩ := C123_error t vs hv hn hsmall s h' d v hd hvar hb1 hb2
  obtain ⟨r, r1, r2, r3⟩ := hroot x (variance_represents t h' hn x1) x2
  have hv0 : 0 ≤ v := by
    rw [hvar]
    unfold exactVariance
    refine div_nonneg (List.sum_nonneg ?_) (Nat.cast_nonneg _)
    intro y hy
    obtain ⟨z, -, rfl⟩ := List.mem_map.1 hy
    positivity
  have x2' : (0 : Real) ≤ x := by exact_mod_cast x2
  have hv0' : (0 : Real) ≤ v := by exact_mod_cast hv0
  have x3' : |(x : Real) - v| ≤ ((varianceError t vs.length v d : Rat) : Real) := by exact_mod_cast x3
  obtain ⟨n1, n2⟩ := roots_near x2' hv0' x3'
  have hu : (0 : Real) ≤ unit t := by exact_mod_cast (unit_pos t).le
  refine ⟨r, ?_, r2, |√(x : Real) - √(v : Real)|, ?_, abs_nonneg _, n1, n2⟩
  · show ((varianceAcc (fltSpreadOps t)).result s).map sqrt = _
    rw [x1, Option.map_some, r1]
  · have hx : √(x : Real) ≤ √(v : Real) + |√(x : Real) - √(v : Real)| := by
      have := le_abs_self (√(x : Real) - √(v : Real))
      linarith
    have := mul_le_mul_of_nonneg_left hx hu
    have e : (r : Real) - √(v : Real) = (r - √(x : Real)) + (√(x : Real) - √(v : Real)) := by ring
    rw [e]
    refine (abs_add_le _ _).trans ?_
    nlinarith

/-- The hypotheses are met: 1, 2, 3 and 6, whose variance is 7/2. -/
example : ∃ (sqrt : Flt → Flt) (s : SpreadState Flt) (r : Rat),
    Accumulated (standardDeviationAcc (fltSpreadOps .double) sqrt) [.fin 1, .fin 2, .fin 3, .fin 6] s ∧
    (standardDeviationAcc (fltSpreadOps .double) sqrt).result s = some (.fin r) ∧ |(r : Real) - √(7 / 2 : Real)| ≤ 1 / 2 ^ 40 := by
  obtain ⟨sqrt, -, hroot⟩ := SlopeError.exists_root .double
  let A := standardDeviationAcc (fltSpreadOps .double) sqrt
  have h0 : Accumulated A [] A.init := .init
  have step : ∀ vs s v, Accumulated A vs s → ∃ s', Accumulated A (vs ++ [v]) s' := by
    intro vs s v hs
    exact ⟨_, .add vs s _ v true hs rfl⟩
  obtain ⟨s1, h1⟩ := step _ _ (.fin 1) h0
  obtain ⟨s2, h2⟩ := step _ _ (.fin 2) h1
  obtain ⟨s3, h3⟩ := step _ _ (.fin 3) h2
  obtain ⟨s, h4⟩ := step _ _ (.fin 6) h3
  obtain ⟨r, r1, r2, f, f1, f2, f3, f4⟩ := C123_deviation .double sqrt hroot [.fin 1, .fin 2, .fin 3, .fin 6] (by
      intro v hv
      simp only [List.mem_cons, List.not_mem_nil, or_false] at hv
      rcases hv with rfl | rfl | rfl | rfl
      · exact ⟨1, rfl, by simpa using represents_small .double (i := 1) (by decide)⟩
      · exact ⟨2, rfl, by simpa using represents_small .double (i := 2) (by decide)⟩
      · exact ⟨3, rfl, by simpa using represents_small .double (i := 3) (by decide)⟩
      · exact ⟨6, rfl, by simpa using represents_small .double (i := 6) (by decide)⟩)
    (by simp) (by decide) s h4 _ (7 / 2) rfl (by decide +kernel)
    (lt_of_lt_of_le (b := 100) (by decide +kernel) (le_trans (by norm_num) (SlopeError.large_limit .double)))
    (lt_of_lt_of_le (b := 100) (by decide +kernel) (le_trans (by norm_num) (SlopeError.large_limit .double)))
  refine ⟨sqrt, s, r, h4, r1, ?_⟩
  have hE : varianceError .double 4 (7 / 2) (meanError .double 4 (magnitude [.fin 1, .fin 2, .fin 3, .fin 6] / 4)) ≤ 1 / 2 ^ 48 := by
    decide +kernel
  have hE' : ((varianceError .double 4 (7 / 2) (meanError .double 4 (magnitude [.fin 1, .fin 2, .fin 3, .fin 6] / 4)) : Rat) : Real) ≤
      1 / 2 ^ 48 := by
    have : ((varianceError .double 4 (7 / 2) (meanError .double 4 (magnitude [.fin 1, .fin 2, .fin 3, .fin 6] / 4)) : Rat) : Real) ≤
      ((1 / 2 ^ 48 : Rat) : Real) := by exact_mod_cast hE
    refine this.trans (le_of_eq ?_)
    norm_num
  have f4' := f4.trans hE'
  have e : (((7 / 2 : Rat)) : Real) = 7 / 2 := by norm_num
  rw [e] at f1 f4'
  have hr1 : 1 ≤ √(7 / 2 : Real) := by rw [Real.le_sqrt (by norm_num) (by norm_num)]; norm_num
  have hr2 : √(7 / 2 : Real) ≤ 2 := by rw [Real.sqrt_le_iff]; norm_num
  have hf : f ≤ 1 / 2 ^ 48 := by
    have := mul_le_mul_of_nonneg_left hr1 f2
    linarith
  have hu : ((unit .double : Rat) : Real) = 1 / 2 ^ 53 := by norm_num [unit]
  rw [hu] at f1
  generalize √(7 / 2 : Real) = q at *
  refine f1.trans ?_
  norm_num at hf ⊢
  linarith

end Fern.FloatSpread
