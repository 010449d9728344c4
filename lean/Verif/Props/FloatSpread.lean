import Verif.Lemmas.FloatSpread
import Verif.Lemmas.PySlopeExact
import Verif.Spec.Accumulators

/-!
# C123: variance and standard deviation of floating point numbers
-/

namespace Fern.FloatSpread

open Fern Fern.Domains Fern.Spec Fern.Casts Fern.FloatArith Fern.FloatArith.Spec
open Fern.FloatVector (round_represents round_some)
open _root_.Fern.FloatSpread.Spec

/-- The result of a state. -/
theorem result_eq (t : FltTy) {vs : List Flt} {s : SpreadState Flt} (h : Accumulated (varianceAcc (fltSpreadOps t)) vs s)
    (hn : vs ≠ []) : (varianceAcc (fltSpreadOps t)).result s = (divideBy t s.sum vs.length).bind fun m =>
      divideBy t ((vs.map fun v => times t (minus t m v) (minus t m v)).foldl (plus t) (.fin 0)) vs.length := by
  obtain ⟨h1, h2⟩ := accumulated_state h
  have hpos : 0 < vs.length := List.length_pos_iff.2 hn
  have h3 : s.values ≠ [] := by rw [h2]; exact hn
  have h4 : 0 < s.count := by rw [h1]; exact hpos
  show (if s.values = [] then none else (s.mean (fltSpreadOps t)).bind fun m =>
    (squaresLoop (fltSpreadOps t) m (.fin 0) s.values).bind fun r => divideBy t r s.values.length) = _
  rw [if_neg h3, SpreadState.mean, if_pos h4, h1, h2]
  simp only [squaresLoop_eq, Option.bind_some]
  rfl

/-- **C123**: adding values, and merging accumulators, always succeeds. -/
theorem C123_total (t : FltTy) (s s' : SpreadState Flt) (v : Flt) :
    (∃ r, (varianceAcc (fltSpreadOps t)).add s v = some (r, true)) ∧
    ∃ r, (varianceAcc (fltSpreadOps t)).merge s s' = some (r, true) := ⟨⟨_, rfl⟩, ⟨_, rfl⟩⟩

/-- **C123**: whatever the values are, and however they are divided over accumulators, the variance isn't negative. -/
theorem C123_not_negative (t : FltTy) (vs : List Flt) (hn : vs ≠ []) (s : SpreadState Flt)
    (h : Accumulated (varianceAcc (fltSpreadOps t)) vs s) :
    ∃ f, (varianceAcc (fltSpreadOps t)).result s = some f ∧ NotNegative f := by
  have hpos : 0 < vs.length := List.length_pos_iff.2 hn
  have hmean : ∃ m, divideBy t s.sum vs.length = some m := by
    unfold divideBy
    rcases count_positive t hpos with ⟨q, e, hq⟩ | e
    · rw [e]
      have : q ≠ 0 := by linarith
      cases s.sum <;> simp [over, this]
    · rw [e]
      cases s.sum <;> simp [over]
  obtain ⟨m, hm⟩ := hmean
  rw [result_eq t h hn, hm, Option.bind_some]
  have hs := fold_not_negative (t := t) (vs.map fun v => times t (minus t m v) (minus t m v)) (by
    intro p hp
    obtain ⟨v, -, rfl⟩ := List.mem_map.1 hp
    exact square_not_negative _) (r := .fin 0) (.inr (.inr ⟨0, rfl, le_rfl⟩))
  generalize (vs.map fun v => times t (minus t m v) (minus t m v)).foldl (plus t) (.fin 0) = x at hs
  unfold divideBy
  rcases count_positive t hpos with ⟨q, e, hq⟩ | e
  · rw [e]
    exact quotient_not_negative hs (by linarith)
  · rw [e]
    rcases hs with rfl | rfl | ⟨x, rfl, hx⟩ <;> simp [over, NotNegative]

/-- **C123**: the variance of numbers, however they are divided over accumulators, is near to the exact one, unless the sum of
their magnitudes or of the squared distances to the mean is too large. -/
theorem C123_error (t : FltTy) (vs : List Flt) (hv : FiniteValues t vs) (hn : vs ≠ []) (hsmall : (vs.length : Int) ≤ small t)
    (s : SpreadState Flt) (h : Accumulated (varianceAcc (fltSpreadOps t)) vs s) (d v : Rat)
    (hd : d = meanError t vs.length (magnitude vs / vs.length)) (hvar : v = exactVariance (vs.map number))
    (hb1 : (1 + unit t) ^ (vs.length - 1) * magnitude vs < limit t) (hb2 : squaresBound t vs.length v d < limit t) :
    ∃ r, (varianceAcc (fltSpreadOps t)).result s = some (.fin r) ∧ 0 ≤ r ∧ |r - v| ≤ varianceError t vs.length v d := by
  have hu := unit_pos t
  have hτ := tiny_pos t
  have hpos : 0 < vs.length := List.length_pos_iff.2 hn
  have hq : (0 : Rat) < vs.length := by exact_mod_cast hpos
  have h1q : (1 : Rat) ≤ vs.length := by exact_mod_cast hpos
  have hres := result_eq t h hn
  obtain ⟨x, hx, hnear⟩ := good_number (accumulated_sum (near_inv t) h hv) hb1
  -- the mean
  have hle := hnear.le
  obtain ⟨m, hm⟩ := round_some (t := t) (x := x / vs.length) (by
    rw [abs_div, abs_of_pos hq]
    exact lt_of_le_of_lt ((div_le_self (abs_nonneg x) h1q).trans hle) hb1)
  have hmrep := round_represents hm
  have hmerr : |m - exactMean (vs.map number)| ≤ d := by
    have e : |x / vs.length - m| ≤ unit t * |x / vs.length| + tiny t :=
      (round_error hm).trans (max_le (by linarith) (by
        have := mul_nonneg hu.le (abs_nonneg (x / (vs.length : Rat)))
        linarith))
    have hnear2 := hnear.2
    rw [sumError] at hnear2
    have em : exactMean (vs.map number) = total vs / vs.length := by rw [exactMean, List.length_map]; rfl
    have s1 : |m - total vs / vs.length| ≤ |x / vs.length - m| + |x - total vs| / vs.length := by
      have : m - total vs / vs.length = -(x / vs.length - m) + (x - total vs) / vs.length := by ring
      rw [this]
      refine (abs_add_le _ _).trans (le_of_eq ?_)
      rw [abs_neg, abs_div, abs_of_pos hq]
    have s2 : |x / vs.length| ≤ (1 + unit t) ^ (vs.length - 1) * (magnitude vs / vs.length) := by
      rw [abs_div, abs_of_pos hq, ← mul_div_assoc]
      exact div_le_div_of_nonneg_right hle hq.le
    have s3 : |x - total vs| / vs.length ≤ ((1 + unit t) ^ (vs.length - 1) - 1) * (magnitude vs / vs.length) := by
      rw [← mul_div_assoc]
      exact div_le_div_of_nonneg_right hnear2 hq.le
    have s4 := mul_le_mul_of_nonneg_left s2 hu.le
    have hpow : (1 + unit t) ^ vs.length = (1 + unit t) ^ (vs.length - 1) * (1 + unit t) := by
      rw [← pow_succ]; congr 1; omega
    rw [em, hd, meanError, hpow]
    linarith
  have hd0 : 0 ≤ d := (abs_nonneg _).trans hmerr
  -- the squares
  set ys : List Rat := (vs.map number).map fun x => (x - m) ^ 2 with hys
  have hY : ys.sum ≤ vs.length * (v + d ^ 2) := by
    have e : ys.sum = squaresAbout m (vs.map number) := rfl
    rw [e, squaresAbout_near m (by simpa using hn), List.length_map, ← hvar]
    refine mul_le_mul_of_nonneg_left ?_ hq.le
    have : (m - exactMean (vs.map number)) ^ 2 ≤ d ^ 2 := by
      rw [← sq_abs]
      exact pow_le_pow_left₀ (abs_nonneg _) hmerr 2
    linarith
  have hY0 : 0 ≤ ys.sum := List.sum_nonneg (by
    intro y hy
    obtain ⟨z, -, rfl⟩ := List.mem_map.1 hy
    positivity)
  have hfac := one_le_factor t (vs.length - 1)
  have hbound : (1 + unit t) ^ 3 * ys.sum + vs.length * tiny t < limit t := by
    refine lt_of_le_of_lt ?_ hb2
    rw [squaresBound]
    refine le_trans ?_ (le_mul_of_one_le_left ?_ hfac)
    · have := mul_le_mul_of_nonneg_left hY (a := (1 + unit t) ^ 3) (by positivity)
      linarith
    · have : 0 ≤ vs.length * (v + d ^ 2) := hY0.trans hY
      positivity
  have hsq : ∀ u ∈ vs, ∃ p, times t (minus t (.fin m) u) (minus t (.fin m) u) = .fin p ∧ Represents t.num p ∧
      |p - (number u - m) ^ 2| ≤ ((1 + unit t) ^ 3 - 1) * |(number u - m) ^ 2| + tiny t := by
    intro u hu'
    obtain ⟨q, rfl, hqr⟩ := hv u hu'
    obtain ⟨p, p1, p2, p3⟩ := square_error hmrep hqr (by
      have hmem : (q - m) ^ 2 ≤ ys.sum := by
        have : (q - m) ^ 2 ∈ ys := by
          rw [hys, List.map_map]
          exact List.mem_map.2 ⟨_, hu', rfl⟩
        exact List.single_le_sum (by
          intro y hy
          obtain ⟨z, -, rfl⟩ := List.mem_map.1 hy
          positivity) _ this
      refine lt_of_le_of_lt ?_ hbound
      have h1 : (1 + unit t) ^ 2 * (q - m) ^ 2 ≤ (1 + unit t) ^ 3 * ys.sum := by
        refine mul_le_mul (pow_le_pow_right₀ (by linarith) (by norm_num)) hmem (sq_nonneg _) (by positivity)
      have h2 : 0 ≤ vs.length * tiny t := by positivity
      linarith)
    refine ⟨p, p1, p2, ?_⟩
    rw [abs_of_nonneg (sq_nonneg (number (Flt.fin q) - m))]
    exact p3
  -- their sum
  have hfin : ∀ u ∈ vs, times t (minus t (.fin m) u) (minus t (.fin m) u) =
      .fin (number (times t (minus t (.fin m) u) (minus t (.fin m) u))) := by
    intro u hu'
    obtain ⟨p, p1, -⟩ := hsq u hu'
    rw [p1]
    rfl
  have hsqf : FiniteValues t (vs.map fun u => times t (minus t (.fin m) u) (minus t (.fin m) u)) := by
    intro p hp
    obtain ⟨u, hu', rfl⟩ := List.mem_map.1 hp
    obtain ⟨p, p1, p2, -⟩ := hsq u hu'
    exact ⟨p, p1, p2⟩
  have hn1 : |total (vs.map fun u => times t (minus t (.fin m) u) (minus t (.fin m) u)) - ys.sum| ≤
        ((1 + unit t) ^ 3 - 1) * ys.sum + vs.length * tiny t ∧
      magnitude (vs.map fun u => times t (minus t (.fin m) u) (minus t (.fin m) u)) ≤
        ys.sum + (((1 + unit t) ^ 3 - 1) * ys.sum + vs.length * tiny t) := by
    have := sums_close vs (fun u => number (times t (minus t (.fin m) u) (minus t (.fin m) u))) (fun u => (number u - m) ^ 2)
      ((1 + unit t) ^ 3 - 1) (tiny t) (by
        intro u hu'
        obtain ⟨p, p1, -, p3⟩ := hsq u hu'
        simp only [p1]
        exact p3)
    have e1 : (vs.map fun u => |(number u - m) ^ 2|).sum = ys.sum := by
      rw [hys, List.map_map]
      congr 1
      exact List.map_congr_left fun u _ => abs_of_nonneg (sq_nonneg _)
    have e2 : (vs.map fun u => (number u - m) ^ 2).sum = ys.sum := by rw [hys, List.map_map]; rfl
    rw [e1, e2] at this
    rw [total, magnitude, List.map_map, List.map_map]
    exact this
  obtain ⟨n1, n2⟩ := hn1
  obtain ⟨S, hS, hSn⟩ := good_number (fold_good (near_inv t) _ hsqf (good_nil (q := .discard) (near_inv t))) (by
    rw [List.nil_append]
    show (1 + unit t) ^ (_ - 1) * _ < limit t
    rw [List.length_map]
    refine lt_of_le_of_lt ?_ hb2
    rw [squaresBound]
    refine mul_le_mul_of_nonneg_left ?_ (by linarith)
    have := mul_le_mul_of_nonneg_left hY (a := (1 + unit t) ^ 3) (by positivity)
    refine n2.trans ?_
    linarith)
  rw [List.nil_append] at hSn
  have hSle := hSn.le
  have hSerr := hSn.2
  rw [sumError, List.length_map] at hSerr
  rw [List.length_map] at hSle
  -- the quotient
  have hmag0 := magnitude_nonneg (vs.map fun u => times t (minus t (.fin m) u) (minus t (.fin m) u))
  generalize hM : magnitude (vs.map fun u => times t (minus t (.fin m) u) (minus t (.fin m) u)) = M at *
  generalize hT : total (vs.map fun u => times t (minus t (.fin m) u) (minus t (.fin m) u)) = T at *
  have hF0 : 0 ≤ (1 + unit t) ^ (vs.length - 1) := by linarith
  have hMle : (1 + unit t) ^ (vs.length - 1) * M ≤ squaresBound t vs.length v d := by
    rw [squaresBound]
    refine mul_le_mul_of_nonneg_left ?_ hF0
    have := mul_le_mul_of_nonneg_left hY (a := (1 + unit t) ^ 3) (by positivity)
    linarith
  obtain ⟨r, hr⟩ := round_some (t := t) (x := S / vs.length) (by
    rw [abs_div, abs_of_pos hq]
    exact lt_of_le_of_lt ((div_le_self (abs_nonneg S) h1q).trans (hSle.trans hMle)) hb2)
  have hfinal : (varianceAcc (fltSpreadOps t)).result s = some (.fin r) := by
    rw [hres, hx, divideBy_exact hsmall hpos, hm, Option.bind_some, hS, divideBy_exact hsmall hpos, hr]
  refine ⟨r, hfinal, ?_, ?_⟩
  · obtain ⟨f, hf, hneg⟩ := C123_not_negative t vs hn s h
    rw [hfinal] at hf
    cases hf
    rcases hneg with h1 | h1 | ⟨r', h1, h2⟩
    · cases h1
    · cases h1
    · cases h1
      exact h2
  · have e : |S / vs.length - r| ≤ unit t * |S / vs.length| + tiny t :=
      (round_error hr).trans (max_le (by linarith) (by
        have := mul_nonneg hu.le (abs_nonneg (S / (vs.length : Rat)))
        linarith))
    -- distances, times the number of values
    have k1 : |S - ys.sum| ≤ (1 + unit t) ^ (vs.length - 1) * ((1 + unit t) ^ 3 * ys.sum + vs.length * tiny t) - ys.sum := by
      have : S - ys.sum = (S - T) + (T - ys.sum) := by ring
      rw [this]
      refine (abs_add_le _ _).trans ?_
      have := mul_le_mul_of_nonneg_left n2 (a := (1 + unit t) ^ (vs.length - 1) - 1) (by linarith)
      nlinarith
    have k2 : |S| ≤ (1 + unit t) ^ (vs.length - 1) * ((1 + unit t) ^ 3 * ys.sum + vs.length * tiny t) := by
      have : |S| ≤ |S - ys.sum| + |ys.sum| := by
        have := abs_add_le (S - ys.sum) ys.sum
        rwa [sub_add_cancel] at this
      rw [abs_of_nonneg hY0] at this
      linarith
    have k3 : |r - ys.sum / vs.length| ≤ ((1 + unit t) ^ (vs.length + 3) - 1) * (ys.sum / vs.length) +
        ((1 + unit t) ^ vs.length + 1) * tiny t := by
      have s1 : |r - ys.sum / vs.length| ≤ |S / vs.length - r| + |S - ys.sum| / vs.length := by
        have : r - ys.sum / vs.length = -(S / vs.length - r) + (S - ys.sum) / vs.length := by ring
        rw [this]
        refine (abs_add_le _ _).trans (le_of_eq ?_)
        rw [abs_neg, abs_div, abs_of_pos hq]
      have s2 : |S / vs.length| ≤ (1 + unit t) ^ (vs.length - 1) * ((1 + unit t) ^ 3 * (ys.sum / vs.length) + tiny t) := by
        rw [abs_div, abs_of_pos hq, div_le_iff₀ hq]
        refine k2.trans (le_of_eq ?_)
        field_simp
      have s3 : |S - ys.sum| / vs.length ≤
          (1 + unit t) ^ (vs.length - 1) * ((1 + unit t) ^ 3 * (ys.sum / vs.length) + tiny t) - ys.sum / vs.length := by
        rw [div_le_iff₀ hq]
        refine k1.trans (le_of_eq ?_)
        field_simp
      have s4 := mul_le_mul_of_nonneg_left s2 hu.le
      have p1 : (1 + unit t) ^ vs.length = (1 + unit t) ^ (vs.length - 1) * (1 + unit t) := by
        rw [← pow_succ]; congr 1; omega
      have p2 : (1 + unit t) ^ (vs.length + 3) = (1 + unit t) ^ (vs.length - 1) * (1 + unit t) * (1 + unit t) ^ 3 := by
        rw [pow_add, p1]
      rw [p1, p2]
      generalize (1 + unit t) ^ (vs.length - 1) = F at *
      generalize ys.sum / (vs.length : Rat) = Y at *
      have : |r - Y| ≤ unit t * (F * ((1 + unit t) ^ 3 * Y + tiny t)) + tiny t + (F * ((1 + unit t) ^ 3 * Y + tiny t) - Y) := by
        linarith
      refine this.trans (le_of_eq ?_)
      ring
    have k4 : ys.sum / vs.length = v + (m - exactMean (vs.map number)) ^ 2 := by
      have e : ys.sum = squaresAbout m (vs.map number) := rfl
      rw [e, squaresAbout_near m (by simpa using hn), List.length_map, ← hvar]
      field_simp
    have k5 : (m - exactMean (vs.map number)) ^ 2 ≤ d ^ 2 := by
      rw [← sq_abs]
      exact pow_le_pow_left₀ (abs_nonneg _) hmerr 2
    have k6 : |r - v| ≤ |r - ys.sum / vs.length| + d ^ 2 := by
      have : r - v = (r - ys.sum / vs.length) + (m - exactMean (vs.map number)) ^ 2 := by rw [k4]; ring
      rw [this]
      refine (abs_add_le _ _).trans ?_
      rw [abs_of_nonneg (sq_nonneg (m - _))]
      linarith
    have k7 : ((1 + unit t) ^ (vs.length + 3) - 1) * (ys.sum / vs.length) ≤
        ((1 + unit t) ^ (vs.length + 3) - 1) * (v + d ^ 2) := by
      refine mul_le_mul_of_nonneg_left ?_ ?_
      · rw [k4]; linarith
      · have := one_le_factor t (vs.length + 3)
        linarith
    rw [varianceError]
    linarith

/-- States after adding values one by one. -/
theorem accumulated_addFrom {S V R : Type} (A : Accumulator S V R) (us vs : List V) (s s' : S) (h : Accumulated A us s)
    (hs : addFrom A s vs = some s') : Accumulated A (us ++ vs) s' := by
  induction vs generalizing us s with
  | nil =>
    cases hs
    simpa using h
  | cons v vs ih =>
    obtain ⟨x, hx, hs⟩ := Option.bind_eq_some_iff.1 hs
    have := ih (us ++ [v]) x.1 (.add us s x.1 v x.2 h hx) hs
    simpa using this

/-- **C123**: states of accumulators to which values are added one by one, and of two of these that are merged, are among
those that the other theorems are about. -/
theorem C123_accumulated (t : FltTy) (xs ys : List Flt) (s s' : SpreadState Flt)
    (h : addAllTo (varianceAcc (fltSpreadOps t)) xs = some s) (h' : merged (varianceAcc (fltSpreadOps t)) xs ys = some s') :
    Accumulated (varianceAcc (fltSpreadOps t)) xs s ∧ Accumulated (varianceAcc (fltSpreadOps t)) (xs ++ ys) s' := by
  refine ⟨accumulated_addFrom _ [] xs _ _ .init h, ?_⟩
  obtain ⟨s1, h1, h2⟩ := Option.bind_eq_some_iff.1 h'
  obtain ⟨s2, h3, h4⟩ := Option.bind_eq_some_iff.1 h2
  obtain ⟨x, hx, rfl⟩ := Option.map_eq_some_iff.1 h4
  exact .merge xs ys s1 s2 x.1 x.2 (accumulated_addFrom _ [] xs _ _ .init h1) (accumulated_addFrom _ [] ys _ _ .init h3) hx

/-! ### No NaN -/

theorem addFrom_number (t : FltTy) (vs : List Flt) (hv : ∀ v ∈ vs, ∃ q, v = .fin q) (s s' : SpreadState Flt) (hs : s.sum ≠ .nan)
    (h : addFrom (varianceAcc (fltSpreadOps t)) s vs = some s') : s'.sum ≠ .nan := by
  induction vs generalizing s with
  | nil =>
    cases h
    exact hs
  | cons v vs ih =>
    obtain ⟨x, hx, h⟩ := Option.bind_eq_some_iff.1 h
    cases hx
    refine ih (fun u hu => hv u (List.mem_cons_of_mem _ hu)) _ ?_ h
    obtain ⟨q, rfl⟩ := hv v (by simp)
    show plus t s.sum (.fin q) ≠ .nan
    cases hc : s.sum with
    | nan => exact absurd hc hs
    | fin y =>
      show t.round (y + q) ≠ .nan
      exact round_not_nan t _
    | _ => simp [plus]

/-- **C123**: the variance of numbers that are added one by one is a number that isn't negative, or infinite. -/
theorem C123_sequential (t : FltTy) (vs : List Flt) (hv : FiniteValues t vs) (hn : vs ≠ [])
    (hsmall : (vs.length : Int) ≤ small t) :
    ∃ f, resultOf (varianceAcc (fltSpreadOps t)) vs = some f ∧ (f = .inf ∨ ∃ r, f = .fin r ∧ 0 ≤ r) := by
  have hpos : 0 < vs.length := List.length_pos_iff.2 hn
  have hstate : ∃ s, addAllTo (varianceAcc (fltSpreadOps t)) vs = some s := by
    have : ∀ (vs : List Flt) (s : SpreadState Flt), ∃ s', addFrom (varianceAcc (fltSpreadOps t)) s vs = some s' := by
      intro vs
      induction vs with
      | nil => exact fun s => ⟨s, rfl⟩
      | cons v vs ih => exact fun s => ih _
    exact this vs _
  obtain ⟨s, hs⟩ := hstate
  have hacc := accumulated_addFrom _ [] vs _ _ .init hs
  rw [List.nil_append] at hacc
  obtain ⟨f, hf, hneg⟩ := C123_not_negative t vs hn s hacc
  refine ⟨f, by rw [resultOf, hs]; exact hf, hneg.resolve_left ?_⟩
  rintro rfl
  have hsum : s.sum ≠ .nan := addFrom_number t vs (fun v h => (hv v h).imp fun _ h => h.1) _ s (by simp [varianceAcc, fltSpreadOps]) hs
  have hdiv : ∀ x : Flt, x ≠ .nan → ∃ y, divideBy t x vs.length = some y ∧ y ≠ .nan := by
    intro x hx
    have e : t.round (vs.length : Rat) = .fin vs.length := round_exact t (by
      have := represents_small t (i := (vs.length : Int)) (by rw [Nat.abs_cast]; exact hsmall)
      simpa using this)
    have hq : (0 : Rat) < vs.length := by exact_mod_cast hpos
    unfold divideBy
    rw [e]
    cases x with
    | nan => exact absurd rfl hx
    | fin y => exact ⟨t.round (y / vs.length), by simp only [over, if_neg hq.ne'], round_not_nan t _⟩
    | inf => exact ⟨.inf, by simp only [over, if_neg hq.ne', infinite, if_pos hq], by simp⟩
    | negInf =>
      refine ⟨.negInf, ?_, by simp⟩
      have h1 : ¬ (0 : Rat) < -(vs.length : Rat) := by linarith
      have h2 : -(vs.length : Rat) < 0 := by linarith
      simp only [over, if_neg hq.ne', infinite, if_neg h1, if_pos h2]
  obtain ⟨m, hm, hm0⟩ := hdiv s.sum hsum
  rw [result_eq t hacc hn, hm, Option.bind_some] at hf
  have hfold : ∀ (ps : List Flt) (r : Flt), (∀ p ∈ ps, p ≠ .nan ∧ NotNegative p) → r ≠ .nan ∧ NotNegative r →
      ps.foldl (plus t) r ≠ .nan := by
    intro ps
    induction ps with
    | nil => exact fun r _ h => h.1
    | cons p ps ih =>
      intro r hp hr
      refine ih _ (fun q hq => hp q (List.mem_cons_of_mem _ hq)) ⟨?_, plus_not_negative hr.2 (hp p (by simp)).2⟩
      obtain ⟨p0, p1⟩ := hp p (by simp)
      rcases hr.2 with h | rfl | ⟨a, rfl, -⟩
      · exact absurd h hr.1
      · rcases p1 with h | rfl | ⟨b, rfl, -⟩
        · exact absurd h p0
        · simp [plus]
        · simp [plus]
      · rcases p1 with h | rfl | ⟨b, rfl, -⟩
        · exact absurd h p0
        · simp [plus]
        · exact round_not_nan t _
  obtain ⟨y, hy, hy0⟩ := hdiv _ (hfold (vs.map fun v => times t (minus t m v) (minus t m v)) (.fin 0) (by
    intro p hp
    obtain ⟨v, hv', rfl⟩ := List.mem_map.1 hp
    obtain ⟨q, rfl, -⟩ := hv v hv'
    refine ⟨?_, square_not_negative _⟩
    have hd : minus t m (.fin q) ≠ .nan := by
      cases m with
      | nan => exact absurd rfl hm0
      | fin x => exact round_not_nan t _
      | _ => simp [minus, plus, negate]
    cases hc : minus t m (.fin q) with
    | nan => exact absurd hc hd
    | fin x => exact round_not_nan t _
    | _ => simp [times]) ⟨by simp, .inr (.inr ⟨0, rfl, le_rfl⟩)⟩)
  rw [hy] at hf
  exact hy0 (Option.some.inj hf)

/-! ### Exact variances -/

/-- **C123**: if the sum of the values, their mean, and the squared distances to the mean need not be rounded then the result is
the variance, rounded once. -/
theorem C123_exact (t : FltTy) (vs : List Flt) (hv : FiniteValues t vs) (hn : vs ≠ []) (hsmall : (vs.length : Int) ≤ small t)
    (s : SpreadState Flt) (h : Accumulated (varianceAcc (fltSpreadOps t)) vs s) (e f : Int) (he1 : t.lo ≤ e) (he2 : e < t.hi)
    (hf1 : t.lo ≤ 2 * f) (hf2 : 2 * f < t.hi)
    (hm : ∀ v ∈ vs, ∃ k : Int, v = .fin (k * 2 ^ e)) (hs : magnitude vs ≤ small t * 2 ^ e)
    (hmean : Represents t.num (exactMean (vs.map number)))
    (hd : ∀ v ∈ vs, ∃ k : Int, number v - exactMean (vs.map number) = k * 2 ^ f)
    (hsum : squaresAbout (exactMean (vs.map number)) (vs.map number) < small t * 2 ^ (2 * f)) :
    ∃ r, (varianceAcc (fltSpreadOps t)).result s = some r ∧ Rounded t (exactVariance (vs.map number)) r := by
  have hpos : 0 < vs.length := List.length_pos_iff.2 hn
  have hq : (0 : Rat) < vs.length := by exact_mod_cast hpos
  have hbits : ((small t : Int) : Rat) = 2 ^ t.bits := by cases t <;> norm_num [small, FltTy.bits]
  have hbits' : (small t : Int) = 2 ^ t.bits := by cases t <;> rfl
  have hscale : PyFloat.Scale t f ∧ PyFloat.Scale t (2 * f) := by
    unfold PyFloat.Scale
    cases t <;> simp only [FltTy.lo, FltTy.hi] at * <;> omega
  rw [hbits] at hs hsum
  obtain ⟨x, hx, hex⟩ := good_number (accumulated_sum (exact_inv t e he1 he2) h hv) ⟨hm, hs⟩
  have hxt := hex.2 hm hs
  have em : exactMean (vs.map number) = total vs / vs.length := by rw [exactMean, List.length_map]; rfl
  generalize hmm : exactMean (vs.map number) = m at *
  have h2f : (0 : Rat) < 2 ^ f := by positivity
  have e2f : (2 : Rat) ^ (2 * f) = 2 ^ f * 2 ^ f := by rw [← zpow_add₀ (by norm_num)]; congr 1; ring
  -- the squares
  have hsq : ∀ u ∈ vs, ∃ k : Int, number u - m = k * 2 ^ f ∧ |k * k| < 2 ^ t.bits ∧
      times t (minus t (.fin m) u) (minus t (.fin m) u) = .fin ((number u - m) ^ 2) := by
    intro u hu
    obtain ⟨q, rfl, hqr⟩ := hv u hu
    obtain ⟨k, hk⟩ := hd _ hu
    have hk' : q - m = k * 2 ^ f := hk
    have hle : (q - m) ^ 2 ≤ squaresAbout m (vs.map number) := by
      refine List.single_le_sum ?_ _ (List.mem_map.2 ⟨q, List.mem_map.2 ⟨_, hu, rfl⟩, rfl⟩)
      intro y hy
      obtain ⟨z, -, rfl⟩ := List.mem_map.1 hy
      positivity
    have hkk : |k * k| < 2 ^ t.bits := by
      rw [abs_mul_self]
      have h1 : ((k * k : Int) : Rat) * 2 ^ (2 * f) < 2 ^ t.bits * 2 ^ (2 * f) := by
        have : ((k * k : Int) : Rat) * 2 ^ (2 * f) = (q - m) ^ 2 := by rw [hk', e2f]; push_cast; ring
        rw [this]
        exact lt_of_le_of_lt hle hsum
      have := lt_of_mul_lt_mul_right h1 (by positivity)
      exact_mod_cast this
    have hk1 : |(-k)| < 2 ^ t.bits := by
      rw [abs_neg]
      refine lt_of_le_of_lt ?_ hkk
      rw [abs_mul]
      rcases eq_or_ne k 0 with rfl | h0
      · simp
      · have := Int.one_le_abs h0
        nlinarith
    refine ⟨k, hk, hkk, ?_⟩
    have d1 : minus t (.fin m) (.fin q) = .fin (((-k : Int) : Rat) * 2 ^ f) := by
      have : t.round (((-k : Int) : Rat) * 2 ^ f) = .fin (((-k : Int) : Rat) * 2 ^ f) := PyFloat.round_scaled hscale.1 hk1
      rw [← this]
      show t.round (m + -q) = _
      congr 1
      push_cast
      linarith
    rw [d1]
    have : t.round (((k * k : Int) : Rat) * 2 ^ (2 * f)) = .fin (((k * k : Int) : Rat) * 2 ^ (2 * f)) :=
      PyFloat.round_scaled hscale.2 hkk
    have e3 : ((k * k : Int) : Rat) * 2 ^ (2 * f) = (q - m) ^ 2 := by rw [hk', e2f]; push_cast; ring
    rw [e3] at this
    show t.round _ = Flt.fin ((q - m) ^ 2)
    rw [← this]
    congr 1
    rw [hk']
    push_cast
    ring
  have hmap : (vs.map fun u => times t (minus t (.fin m) u) (minus t (.fin m) u)) =
      vs.map fun u => Flt.fin ((number u - m) ^ 2) := List.map_congr_left fun u hu => (hsq u hu).choose_spec.2.2
  have etot : total (vs.map fun u => Flt.fin ((number u - m) ^ 2)) = squaresAbout m (vs.map number) := by
    rw [total, squaresAbout, List.map_map, List.map_map]
    rfl
  have emag : magnitude (vs.map fun u => Flt.fin ((number u - m) ^ 2)) = squaresAbout m (vs.map number) := by
    rw [magnitude, squaresAbout, List.map_map, List.map_map]
    congr 1
    exact List.map_congr_left fun u _ => abs_of_nonneg (sq_nonneg (number u - m))
  have hmult : Multiples (2 * f) (vs.map fun u => Flt.fin ((number u - m) ^ 2)) := by
    intro p hp
    obtain ⟨u, hu, rfl⟩ := List.mem_map.1 hp
    obtain ⟨k, hk, -⟩ := hsq u hu
    refine ⟨k * k, ?_⟩
    rw [hk, e2f]
    push_cast
    ring_nf
  have hfinite : FiniteValues t (vs.map fun u => Flt.fin ((number u - m) ^ 2)) := by
    intro p hp
    obtain ⟨u, hu, rfl⟩ := List.mem_map.1 hp
    obtain ⟨k, hk, hk2, -⟩ := hsq u hu
    refine ⟨_, rfl, ?_⟩
    have : t.round (((k * k : Int) : Rat) * 2 ^ (2 * f)) = .fin (((k * k : Int) : Rat) * 2 ^ (2 * f)) :=
      PyFloat.round_scaled hscale.2 hk2
    have e3 : ((k * k : Int) : Rat) * 2 ^ (2 * f) = (number u - m) ^ 2 := by rw [hk, e2f]; push_cast; ring
    rw [e3] at this
    exact round_represents this
  obtain ⟨S, hS, hSe⟩ := good_number (fold_good (exact_inv t (2 * f) hf1 hf2) _ hfinite
    (good_nil (q := .discard) (exact_inv t (2 * f) hf1 hf2))) ⟨by simpa using hmult, by
      rw [List.nil_append, emag]
      exact hsum.le⟩
  rw [List.nil_append] at hSe
  have hSt := hSe.2 hmult (by rw [emag]; exact hsum.le)
  rw [etot] at hSt
  refine ⟨t.round (exactVariance (vs.map number)), ?_, round_rounded _ _⟩
  rw [result_eq t h hn, hx, divideBy_exact hsmall hpos, hxt, ← em, round_exact t hmean, Option.bind_some, hmap, hS,
    divideBy_exact hsmall hpos, hSt, exactVariance, hmm, List.length_map]

/-- **C123**: the variance of equal values is zero, if their sum need not be rounded. -/
theorem C123_equal (t : FltTy) (n : Nat) (hn : 0 < n) (hsmall : (n : Int) ≤ small t) (x : Rat) (e : Int) (he1 : t.lo ≤ e)
    (he2 : e < t.hi) (hx : ∃ k : Int, x = k * 2 ^ e) (hs : n * |x| ≤ small t * 2 ^ e) (hrep : Represents t.num x)
    (s : SpreadState Flt) (h : Accumulated (varianceAcc (fltSpreadOps t)) (List.replicate n (.fin x)) s) :
    (varianceAcc (fltSpreadOps t)).result s = some (.fin 0) := by
  have hne : List.replicate n (Flt.fin x) ≠ [] := by
    intro hc
    have := congrArg List.length hc
    simp at this
    omega
  have hq : (n : Rat) ≠ 0 := by exact_mod_cast hn.ne'
  have emap : (List.replicate n (Flt.fin x)).map number = List.replicate n x := by simp [number]
  have em : exactMean (List.replicate n x) = x := by
    rw [exactMean, List.sum_replicate, List.length_replicate, nsmul_eq_mul]
    field_simp
  have esq : squaresAbout x (List.replicate n x) = 0 := by simp [squaresAbout]
  have e0 : t.lo ≤ 2 * 0 ∧ 2 * 0 < t.hi := by cases t <;> decide
  obtain ⟨r, h1, h2⟩ := C123_exact t (List.replicate n (.fin x)) (by
    intro v hv
    obtain rfl := List.eq_of_mem_replicate hv
    exact ⟨x, rfl, hrep⟩) hne (by simpa using hsmall) s h e 0 he1 he2 e0.1 e0.2 (by
    intro v hv
    obtain rfl := List.eq_of_mem_replicate hv
    obtain ⟨k, rfl⟩ := hx
    exact ⟨k, rfl⟩) (by
    have : magnitude (List.replicate n (Flt.fin x)) = n * |x| := by
      simp [magnitude, number]
    rw [this]
    exact hs) (by rw [emap, em]; exact hrep) (by
    intro v hv
    obtain rfl := List.eq_of_mem_replicate hv
    refine ⟨0, ?_⟩
    rw [emap, em]
    simp [number]) (by
    rw [emap, em, esq]
    cases t <;> simp [small])
  rw [emap, exactVariance, em, esq, zero_div] at h2
  rw [h1]
  congr 1
  refine C95_determined t 0 r (.fin 0) h2 ?_
  have := round_rounded t 0
  rwa [round_exact t (by
    have := represents_small t (i := 0) (by cases t <;> decide)
    simpa using this)] at this

/-- **C123**: the variance of one number is zero. -/
theorem C123_single (t : FltTy) (x : Rat) (hx : Represents t.num x) (s : SpreadState Flt)
    (h : Accumulated (varianceAcc (fltSpreadOps t)) [.fin x] s) :
    (varianceAcc (fltSpreadOps t)).result s = some (.fin 0) := by
  have h0 : t.round 0 = .fin 0 := round_exact t (by
    have := represents_small t (i := 0) (by cases t <;> decide)
    simpa using this)
  have hg := (accumulated_sum (t := t) (near_inv t) h (by
    intro v hv
    obtain rfl := List.mem_singleton.1 hv
    exact ⟨x, rfl, hx⟩))
  obtain ⟨y, hy, hn⟩ := good_number hg (by
    show (1 + unit t) ^ 0 * magnitude [Flt.fin x] < limit t
    have := not_large_of_represents hx
    rw [TooLarge, not_le] at this
    simpa [magnitude, number] using this)
  have hyx : y = x := by
    have := hn.2
    simp only [sumError, List.length_singleton, Nat.sub_self, pow_zero, sub_self, zero_mul, total, List.map_cons, List.map_nil,
      number, List.sum_cons, List.sum_nil, add_zero] at this
    have := abs_nonpos_iff.1 this
    linarith
  have h1 : ((1 : Nat) : Int) ≤ small t := by cases t <;> decide
  rw [result_eq t h (by simp), hy, hyx]
  have d1 : divideBy t (.fin x) 1 = some (.fin x) := by
    rw [divideBy_exact h1 (by norm_num)]
    simp [round_exact t hx]
  rw [List.length_singleton, d1, Option.bind_some]
  have e1 : minus t (.fin x) (.fin x) = .fin 0 := by
    show t.round (x + -x) = _
    rw [add_neg_cancel, h0]
  have e2 : times t (.fin 0) (.fin 0) = .fin 0 := by
    show t.round (0 * 0) = _
    rw [mul_zero, h0]
  have e3 : plus t (.fin 0) (.fin 0) = .fin 0 := by
    show t.round (0 + 0) = _
    rw [add_zero, h0]
  simp only [List.map_cons, List.map_nil, List.foldl_cons, List.foldl_nil, e1, e2, e3]
  rw [divideBy_exact h1 (by norm_num), zero_div, h0]

/-- **C123**: the standard deviation is the square root of a number that isn't negative, or of infinity. -/
theorem C123_standard_deviation (t : FltTy) (sqrt : Flt → Flt) (vs : List Flt) (hv : FiniteValues t vs) (hn : vs ≠ [])
    (hsmall : (vs.length : Int) ≤ small t) :
    ∃ f, resultOf (varianceAcc (fltSpreadOps t)) vs = some f ∧
      resultOf (standardDeviationAcc (fltSpreadOps t) sqrt) vs = some (sqrt f) ∧ (f = .inf ∨ ∃ r, f = .fin r ∧ 0 ≤ r) := by
  obtain ⟨f, h1, h2⟩ := C123_sequential t vs hv hn hsmall
  refine ⟨f, h1, ?_, h2⟩
  have : ∀ (vs : List Flt) (s : SpreadState Flt), addFrom (standardDeviationAcc (fltSpreadOps t) sqrt) s vs =
      addFrom (varianceAcc (fltSpreadOps t)) s vs := by
    intro vs
    induction vs with
    | nil => exact fun _ => rfl
    | cons v vs ih => exact fun s => ih _
  rw [resultOf, addAllTo] at h1 ⊢
  rw [this]
  obtain ⟨s, h3, h4⟩ := Option.bind_eq_some_iff.1 h1
  have h3' : addFrom (varianceAcc (fltSpreadOps t)) (standardDeviationAcc (fltSpreadOps t) sqrt).init vs = some s := h3
  rw [h3', Option.bind_some]
  show ((varianceAcc (fltSpreadOps t)).result s).map sqrt = _
  rw [h4]
  rfl

/-! ### What does not hold -/

/-- The double next to 0.1. -/
def tenth : Rat := 3602879701896397 / 2 ^ 55

/-- **C123**: the variance of nine values that are all 0.1 is not zero. -/
theorem C123_equal_false :
    resultOf (varianceAcc (fltSpreadOps .double)) (List.replicate 9 (.fin tenth)) = some (.fin (1 / 2 ^ 112)) := by
  decide +kernel

/-- **C123**: the variance of equal values is infinite if their sum is. -/
theorem C123_large :
    resultOf (varianceAcc (fltSpreadOps .single)) [.fin (2 ^ 127), .fin (2 ^ 127)] = some .inf := by
  decide +kernel

/-- **C123**: merging accumulators of numbers can give NaN, where adding the same values one by one doesn't. -/
theorem C123_merged_nan :
    resultOfMerged (varianceAcc (fltSpreadOps .single)) [.fin (2 ^ 127), .fin (2 ^ 127)] [.fin (-2 ^ 127), .fin (-2 ^ 127)] =
      some .nan ∧
    resultOf (varianceAcc (fltSpreadOps .single)) [.fin (2 ^ 127), .fin (2 ^ 127), .fin (-2 ^ 127), .fin (-2 ^ 127)] =
      some .inf := by
  decide +kernel

/-- **C123**: the order of the values, and how they are divided over accumulators, matters. -/
theorem C123_order_false :
    resultOf (varianceAcc (fltSpreadOps .single)) [.fin (2 ^ 24), .fin 1, .fin 1] ≠
      resultOf (varianceAcc (fltSpreadOps .single)) [.fin 1, .fin 1, .fin (2 ^ 24)] ∧
    resultOf (varianceAcc (fltSpreadOps .single)) [.fin (2 ^ 24), .fin 1, .fin 1] ≠
      resultOfMerged (varianceAcc (fltSpreadOps .single)) [.fin (2 ^ 24)] [.fin 1, .fin 1] := by
  decide +kernel

/-- **C123**: adding a constant to the values can change the variance. -/
theorem C123_shift_false :
    resultOf (varianceAcc (fltSpreadOps .single)) [.fin 1, .fin 2, .fin 3] ≠
      resultOf (varianceAcc (fltSpreadOps .single)) [.fin (2 ^ 23 + 1), .fin (2 ^ 23 + 2), .fin (2 ^ 23 + 3)] := by
  decide +kernel

example : resultOf (varianceAcc (fltSpreadOps .double)) [.fin 1, .fin 2, .fin 3, .fin 6] = some (.fin (7 / 2)) := by
  decide +kernel

/-- The hypotheses are met, and the bound is small: 1, 2, 3 and 6. -/
example : let vs : List Flt := [.fin 1, .fin 2, .fin 3, .fin 6]
    let d := meanError .double vs.length (magnitude vs / vs.length)
    FiniteValues .double vs ∧ (vs.length : Int) ≤ small .double ∧ exactVariance (vs.map number) = 7 / 2 ∧
    squaresBound .double vs.length (7 / 2) d < 15 ∧ varianceError .double vs.length (7 / 2) d < 1 / 2 ^ 48 ∧
    ∃ s, Accumulated (varianceAcc (fltSpreadOps .double)) vs s := by
  refine ⟨?_, by decide, by decide +kernel, by decide +kernel, by decide +kernel, ?_⟩
  · intro v hv
    simp only [List.mem_cons, List.not_mem_nil, or_false] at hv
    rcases hv with rfl | rfl | rfl | rfl
    · exact ⟨1, rfl, by simpa using represents_small .double (i := 1) (by decide)⟩
    · exact ⟨2, rfl, by simpa using represents_small .double (i := 2) (by decide)⟩
    · exact ⟨3, rfl, by simpa using represents_small .double (i := 3) (by decide)⟩
    · exact ⟨6, rfl, by simpa using represents_small .double (i := 6) (by decide)⟩
  · exact ⟨_, accumulated_addFrom _ [] _ _ _ .init rfl⟩

/-- Equal values with few digits: five times 0.75, in whatever way they are divided over accumulators. -/
example (s : SpreadState Flt) (h : Accumulated (varianceAcc (fltSpreadOps .single)) (List.replicate 5 (.fin (3 / 4))) s) :
    (varianceAcc (fltSpreadOps .single)).result s = some (.fin 0) :=
  C123_equal .single 5 (by norm_num) (by decide) (3 / 4) (-2) (by decide) (by decide) ⟨3, by norm_num⟩
    (by norm_num [small, abs_of_pos]) (by
      have : FltTy.single.round (3 / 4) = .fin (3 / 4) := by decide +kernel
      exact round_represents this) s h

end Fern.FloatSpread
