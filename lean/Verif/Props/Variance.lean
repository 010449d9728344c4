import Verif.Model.Variance
import Verif.Spec.Variance
import Verif.Spec.Accumulators
import Mathlib.Algebra.Order.Ring.Rat

/-!
# C78: variance and standard deviation
-/
namespace Fern

open Spec

/-! ### Any arithmetic -/

variable {T : Type}

/-- The sum of the values in the order in which they were added. -/
def SpreadOps.total (o : SpreadOps T) (vs : List T) (s : T) : Option T :=
  vs.foldlM o.add s

theorem variance_addFrom (o : SpreadOps T) (vs : List T) (s : SpreadState T) :
    addFrom (varianceAcc o) s vs =
      (o.total vs s.sum).map fun x => ⟨x, s.count + vs.length, s.values ++ vs⟩ := by
  induction vs generalizing s with
  | nil => simp [addFrom, SpreadOps.total]
  | cons v vs ih =>
    rw [addFrom, SpreadOps.total, List.foldlM_cons]
    change ((o.add s.sum v).map _).bind _ = Option.map _ ((o.add s.sum v).bind _)
    cases h : o.add s.sum v with
    | none => rfl
    | some x =>
      rw [Option.map_some, Option.bind_some, Option.bind_some, ih]
      simp only [SpreadOps.total, List.append_assoc, List.singleton_append, List.length_cons]
      congr 1
      funext y
      rw [show s.count + 1 + vs.length = s.count + (vs.length + 1) by omega]

/-- In any arithmetic the accumulator keeps the values, their number and their sum. -/
theorem C78_state (o : SpreadOps T) (vs : List T) :
    addAllTo (varianceAcc o) vs = (o.total vs o.zero).map fun x => ⟨x, vs.length, vs⟩ := by
  rw [addAllTo, variance_addFrom]
  simp [varianceAcc]

/-- In any arithmetic, a merged accumulator keeps the values of both, and the sum of the two sums. -/
theorem C78_merged_state (o : SpreadOps T) (xs ys : List T) :
    merged (varianceAcc o) xs ys = (o.total xs o.zero).bind fun x => (o.total ys o.zero).bind fun y =>
      (o.add x y).map fun z => ⟨z, (xs ++ ys).length, xs ++ ys⟩ := by
  rw [merged, C78_state, C78_state]
  cases o.total xs o.zero with
  | none => rfl
  | some x =>
    cases o.total ys o.zero with
    | none => rfl
    | some y =>
      simp only [Option.map_some, Option.bind_some, varianceAcc, Option.map_map, List.length_append]
      rfl

/-- Without values there is no result: the assertion fails. -/
theorem C78_empty (o : SpreadOps T) : resultOf (varianceAcc o) [] = none := by
  simp [resultOf, addAllTo, addFrom, varianceAcc]

/-! ### Exact arithmetic -/

section
variable {K : Type} [Field K]

/-- Exact arithmetic: nothing is rounded, and nothing is out of range. -/
def exactSpreadOps (K : Type) [Field K] : SpreadOps K where
  zero := 0
  add x y := some (x + y)
  squareOfDifference m v := some ((m - v) * (m - v))
  div x n := some (x / n)

theorem exact_total (vs : List K) (s : K) : (exactSpreadOps K).total vs s = some (s + vs.sum) := by
  induction vs generalizing s with
  | nil => simp [SpreadOps.total]
  | cons v vs ih =>
    rw [SpreadOps.total, List.foldlM_cons]
    change (some (s + v)).bind _ = _
    rw [Option.bind_some]
    change (exactSpreadOps K).total vs (s + v) = _
    rw [ih, List.sum_cons, add_assoc]

theorem exact_squares (m r : K) (vs : List K) :
    squaresLoop (exactSpreadOps K) m r vs = some (r + squaresAbout m vs) := by
  induction vs generalizing r with
  | nil => simp [squaresLoop, squaresAbout]
  | cons v vs ih =>
    rw [squaresLoop]
    change (some ((m - v) * (m - v))).bind (fun x => (some (r + x)).bind _) = _
    rw [Option.bind_some, Option.bind_some, ih, squaresAbout, squaresAbout, List.map_cons, List.sum_cons]
    congr 1
    ring

theorem exact_result (vs : List K) (h : vs ≠ []) :
    (varianceAcc (exactSpreadOps K)).result ⟨vs.sum, vs.length, vs⟩ = some (exactVariance vs) := by
  change (if vs = [] then none else (SpreadState.mean (exactSpreadOps K) ⟨vs.sum, vs.length, vs⟩).bind _) = _
  rw [if_neg h, SpreadState.mean, if_pos (List.length_pos_of_ne_nil h)]
  change (some (vs.sum / (vs.length : K))).bind _ = _
  rw [Option.bind_some]
  change (squaresLoop (exactSpreadOps K) (vs.sum / (vs.length : K)) 0 vs).bind _ = _
  rw [exact_squares, Option.bind_some, zero_add]
  rfl

/-- The result is the mean of the squared distances to the mean. -/
theorem C78_variance (vs : List K) (h : vs ≠ []) :
    resultOf (varianceAcc (exactSpreadOps K)) vs = some (exactVariance vs) := by
  rw [resultOf, C78_state, exact_total]
  change (some (⟨0 + vs.sum, vs.length, vs⟩ : SpreadState K)).bind _ = _
  rw [Option.bind_some, zero_add]
  exact exact_result vs h

/-- Merging accumulators is the same as adding all values to one of them. -/
theorem C78_merged (xs ys : List K) :
    merged (varianceAcc (exactSpreadOps K)) xs ys = addAllTo (varianceAcc (exactSpreadOps K)) (xs ++ ys) := by
  rw [C78_merged_state, C78_state, exact_total, exact_total, exact_total]
  simp [exactSpreadOps]

/-- Constructing the accumulator with the first value is the same as adding it. -/
theorem C78_first (v : K) (vs : List K) :
    addFrom (varianceAcc (exactSpreadOps K)) (varianceOf v) vs =
      addAllTo (varianceAcc (exactSpreadOps K)) (v :: vs) := by
  rw [variance_addFrom, C78_state, exact_total, exact_total]
  simp [varianceOf, exactSpreadOps, add_comm]

/-- The order in which the values are added does not matter. -/
theorem C78_order (xs ys : List K) (h : xs.Perm ys) :
    resultOf (varianceAcc (exactSpreadOps K)) xs = resultOf (varianceAcc (exactSpreadOps K)) ys := by
  by_cases hx : xs = []
  · subst hx
    rw [List.nil_perm.1 h]
  · have hy : ys ≠ [] := fun hy => hx (by rw [hy] at h; exact List.perm_nil.1 h)
    rw [C78_variance xs hx, C78_variance ys hy]
    have e1 : exactMean xs = exactMean ys := by rw [exactMean, exactMean, h.sum_eq, h.length_eq]
    rw [exactVariance, exactVariance, e1, squaresAbout, squaresAbout, (h.map _).sum_eq, h.length_eq]

/-- Accumulators that differ in the result only go through the same states. -/
theorem deviation_addFrom {T : Type} (o : SpreadOps T) (sqrt : T → T) (s : SpreadState T) (vs : List T) :
    addFrom (standardDeviationAcc o sqrt) s vs = addFrom (varianceAcc o) s vs := by
  induction vs generalizing s with
  | nil => rfl
  | cons v vs ih =>
    rw [addFrom, addFrom]
    exact Option.bind_congr fun x _ => ih x.1

/-- In any arithmetic, the state of the accumulator of the standard deviation is that of the variance, also
after merging. -/
theorem C78_deviation_state {T : Type} (o : SpreadOps T) (sqrt : T → T) (xs ys : List T) :
    addAllTo (standardDeviationAcc o sqrt) xs = addAllTo (varianceAcc o) xs ∧
    merged (standardDeviationAcc o sqrt) xs ys = merged (varianceAcc o) xs ys := by
  have e : ∀ vs, addAllTo (standardDeviationAcc o sqrt) vs = addAllTo (varianceAcc o) vs :=
    fun vs => deviation_addFrom o sqrt _ vs
  refine ⟨e xs, ?_⟩
  rw [merged, merged, e, e]
  rfl

/-- The standard deviation is the square root of the variance. -/
theorem C78_standard_deviation (sqrt : K → K) (vs : List K) (h : vs ≠ []) :
    resultOf (standardDeviationAcc (exactSpreadOps K) sqrt) vs = some (sqrt (exactVariance vs)) := by
  rw [resultOf, (C78_deviation_state _ sqrt vs []).1]
  have h1 := C78_variance vs h
  rw [resultOf] at h1
  obtain ⟨s, h2, h3⟩ := Option.bind_eq_some_iff.1 h1
  rw [h2, Option.bind_some]
  change ((varianceAcc (exactSpreadOps K)).result s).map sqrt = _
  rw [h3]; rfl

/-- So is that of merged accumulators. -/
theorem C78_merged_deviation (sqrt : K → K) (xs ys : List K) (h : xs ++ ys ≠ []) :
    (merged (standardDeviationAcc (exactSpreadOps K) sqrt) xs ys).bind
      (standardDeviationAcc (exactSpreadOps K) sqrt).result = some (sqrt (exactVariance (xs ++ ys))) := by
  rw [(C78_deviation_state _ sqrt xs ys).2, C78_merged, ← (C78_deviation_state _ sqrt (xs ++ ys) []).1]
  exact C78_standard_deviation sqrt (xs ++ ys) h

theorem sum_map_factor {α : Type} (c : K) (f : α → K) (l : List α) :
    (l.map fun x => c * f x).sum = c * (l.map f).sum := by
  induction l with
  | nil => simp
  | cons a l ih => simp only [List.map_cons, List.sum_cons, ih]; ring

theorem sum_map_sub_sq (c : K) (vs : List K) :
    squaresAbout c vs = (vs.map fun x => x ^ 2).sum - 2 * c * vs.sum + vs.length * c ^ 2 := by
  induction vs with
  | nil => simp [squaresAbout]
  | cons v vs ih =>
    rw [squaresAbout, List.map_cons, List.sum_cons, List.map_cons, List.sum_cons, List.sum_cons,
      List.length_cons]
    rw [squaresAbout] at ih
    rw [ih]
    push_cast
    ring

variable [CharZero K]

theorem length_cast_ne {vs : List K} (h : vs ≠ []) : (vs.length : K) ≠ 0 := by
  rw [Nat.cast_ne_zero]
  exact fun h0 => h (List.length_eq_zero_iff.1 h0)

/-- The variance is the mean of the squares minus the square of the mean. -/
theorem C78_moments (vs : List K) (h : vs ≠ []) :
    exactVariance vs = exactMean (vs.map fun x => x ^ 2) - exactMean vs ^ 2 := by
  have hn := length_cast_ne h
  rw [exactVariance, sum_map_sub_sq, exactMean, exactMean, List.length_map]
  field_simp
  ring

/-- Adding a constant to all values does not change the variance. -/
theorem C78_shift (c : K) (vs : List K) (h : vs ≠ []) :
    exactVariance (vs.map (· + c)) = exactVariance vs := by
  have hn := length_cast_ne h
  have e1 : (vs.map (· + c)).sum = vs.sum + vs.length * c := by
    clear h hn
    induction vs with
    | nil => simp
    | cons v vs ih => simp only [List.map_cons, List.sum_cons, ih, List.length_cons]; push_cast; ring
  have e2 : exactMean (vs.map (· + c)) = exactMean vs + c := by
    rw [exactMean, exactMean, e1, List.length_map]; field_simp
  rw [exactVariance, exactVariance, e2, squaresAbout, squaresAbout, List.map_map, List.length_map]
  congr 3
  funext x
  simp

/-- Multiplying all values by a factor multiplies the variance by its square. -/
theorem C78_scale (c : K) (vs : List K) :
    exactVariance (vs.map (c * ·)) = c ^ 2 * exactVariance vs := by
  have e2 : exactMean (vs.map (c * ·)) = c * exactMean vs := by
    rw [exactMean, exactMean, sum_map_factor c (fun x => x), List.map_id', List.length_map]; ring
  rw [exactVariance, exactVariance, e2, squaresAbout, squaresAbout, List.map_map, List.length_map]
  rw [show ((fun x => (x - c * exactMean vs) ^ 2) ∘ fun x => c * x) =
    fun x => c ^ 2 * (x - exactMean vs) ^ 2 from funext fun x => by simp; ring]
  rw [sum_map_factor]
  ring

/-- The sum of squared distances to any number exceeds that to the mean by a square. -/
theorem squaresAbout_mean (c : K) (vs : List K) (h : vs ≠ []) :
    squaresAbout c vs = squaresAbout (exactMean vs) vs + vs.length * (exactMean vs - c) ^ 2 := by
  have hn := length_cast_ne h
  rw [sum_map_sub_sq, sum_map_sub_sq, exactMean]
  field_simp
  ring

/-- The variance of merged accumulators in terms of the means and variances of the parts. -/
theorem C78_parts (xs ys : List K) (hx : xs ≠ []) (hy : ys ≠ []) :
    exactVariance (xs ++ ys) =
      (xs.length * exactVariance xs + ys.length * exactVariance ys) / (xs.length + ys.length) +
        xs.length * ys.length * (exactMean xs - exactMean ys) ^ 2 / (xs.length + ys.length) ^ 2 := by
  have hx' := length_cast_ne hx
  have hy' := length_cast_ne hy
  have hxy : (xs.length : K) + ys.length ≠ 0 := by
    rw [← Nat.cast_add, Nat.cast_ne_zero]
    have := List.length_pos_of_ne_nil hx
    omega
  rw [exactVariance, exactVariance, exactVariance, sum_map_sub_sq, sum_map_sub_sq, sum_map_sub_sq, exactMean,
    exactMean, exactMean]
  simp only [List.map_append, List.sum_append, List.length_append, Nat.cast_add]
  field_simp
  ring

/-- The result of merged accumulators in terms of the means and variances of the parts. -/
theorem C78_merged_result (xs ys : List K) (hx : xs ≠ []) (hy : ys ≠ []) :
    (merged (varianceAcc (exactSpreadOps K)) xs ys).bind (varianceAcc (exactSpreadOps K)).result =
      some ((xs.length * exactVariance xs + ys.length * exactVariance ys) / (xs.length + ys.length) +
        xs.length * ys.length * (exactMean xs - exactMean ys) ^ 2 / (xs.length + ys.length) ^ 2) := by
  rw [C78_merged, ← C78_parts xs ys hx hy]
  exact C78_variance (xs ++ ys) (by simp [hx])

end

section
variable {K : Type} [Field K] [LinearOrder K] [IsStrictOrderedRing K]

theorem squaresAbout_nonneg (c : K) (vs : List K) : 0 ≤ squaresAbout c vs := by
  rw [squaresAbout]
  apply List.sum_nonneg
  intro x hx
  obtain ⟨y, _, rfl⟩ := List.mem_map.1 hx
  exact sq_nonneg _

/-- The variance is not negative. -/
theorem C78_nonneg (vs : List K) : 0 ≤ exactVariance vs :=
  div_nonneg (squaresAbout_nonneg _ _) (Nat.cast_nonneg _)

theorem squaresAbout_eq_zero (c : K) (vs : List K) : squaresAbout c vs = 0 ↔ ∀ x ∈ vs, x = c := by
  induction vs with
  | nil => simp [squaresAbout]
  | cons v vs ih =>
    have e : squaresAbout c (v :: vs) = (v - c) ^ 2 + squaresAbout c vs := by simp [squaresAbout]
    rw [e, List.forall_mem_cons, ← ih]
    have h1 := sq_nonneg (v - c)
    have h2 := squaresAbout_nonneg c vs
    constructor
    · intro h
      have h3 : (v - c) ^ 2 = 0 := by linarith
      exact ⟨sub_eq_zero.1 (pow_eq_zero_iff (two_ne_zero) |>.1 h3), by linarith⟩
    · rintro ⟨rfl, h⟩
      rw [h]; simp

/-- The variance is zero iff all values are the same. -/
theorem C78_zero (vs : List K) (h : vs ≠ []) : exactVariance vs = 0 ↔ ∀ x ∈ vs, ∀ y ∈ vs, x = y := by
  have hn := length_cast_ne h
  rw [exactVariance, div_eq_zero_iff, or_iff_left hn, squaresAbout_eq_zero]
  constructor
  · intro h x hx y hy
    rw [h x hx, h y hy]
  · intro h0 x hx
    have e : vs.sum = vs.length * x := by
      have : ∀ l : List K, (∀ y ∈ l, y = x) → l.sum = l.length * x := by
        intro l
        induction l with
        | nil => simp
        | cons a l ih =>
          intro hl
          rw [List.sum_cons, hl a (by simp), ih fun y hy => hl y (by simp [hy]), List.length_cons]
          push_cast; ring
      exact this vs fun y hy => h0 y hy x hx
    rw [exactMean, e]
    field_simp

/-- The result is zero iff all values are the same, and otherwise positive. -/
theorem C78_result (vs : List K) (h : vs ≠ []) :
    ∃ v, resultOf (varianceAcc (exactSpreadOps K)) vs = some v ∧ 0 ≤ v ∧
      (v = 0 ↔ ∀ x ∈ vs, ∀ y ∈ vs, x = y) :=
  ⟨_, C78_variance vs h, C78_nonneg vs, C78_zero vs h⟩

/-- The variance is at most a quarter of the square of the range. -/
theorem C78_bound (vs : List K) (h : vs ≠ []) (a b : K) (hab : ∀ x ∈ vs, a ≤ x ∧ x ≤ b) :
    exactVariance vs ≤ (b - a) ^ 2 / 4 := by
  have hn : (0 : K) < vs.length := by
    rw [Nat.cast_pos]; exact List.length_pos_of_ne_nil h
  have h1 : squaresAbout ((a + b) / 2) vs ≤ vs.length * ((b - a) ^ 2 / 4) := by
    clear h hn
    induction vs with
    | nil => simp [squaresAbout]
    | cons v vs ih =>
      have e : squaresAbout ((a + b) / 2) (v :: vs) = (v - (a + b) / 2) ^ 2 + squaresAbout ((a + b) / 2) vs := by
        simp [squaresAbout]
      rw [e, List.length_cons]
      push_cast
      have h2 := ih fun x hx => hab x (List.mem_cons_of_mem _ hx)
      obtain ⟨h3, h4⟩ := hab v List.mem_cons_self
      have h5 : (v - (a + b) / 2) ^ 2 ≤ (b - a) ^ 2 / 4 := by nlinarith
      linarith
  have h2 := squaresAbout_mean ((a + b) / 2) vs h
  have h3 : 0 ≤ (vs.length : K) * (exactMean vs - (a + b) / 2) ^ 2 :=
    mul_nonneg hn.le (sq_nonneg _)
  rw [exactVariance, div_le_iff₀ hn]
  linarith

/-- With a square root that deserves the name, the square of the standard deviation is the variance. -/
theorem C78_standard_deviation_sq (sqrt : K → K) (hs : ∀ x, 0 ≤ x → 0 ≤ sqrt x ∧ sqrt x ^ 2 = x)
    (vs : List K) (h : vs ≠ []) :
    ∃ d, resultOf (standardDeviationAcc (exactSpreadOps K) sqrt) vs = some d ∧ 0 ≤ d ∧
      d ^ 2 = exactVariance vs :=
  ⟨_, C78_standard_deviation sqrt vs h, (hs _ (C78_nonneg vs)).1, (hs _ (C78_nonneg vs)).2⟩

end

/-! ### Examples, and integers -/

example : exactVariance [(2 : ℚ), 4, 4, 4, 5, 5, 7, 9] = 4 := by
  norm_num [exactVariance, squaresAbout, exactMean]

example : resultOf (varianceAcc (exactSpreadOps ℚ)) [2, 4, 4, 4, 5, 5, 7, 9] = some 4 := by
  rw [C78_variance _ (by simp)]
  norm_num [exactVariance, squaresAbout, exactMean]

/-- The bound is attained. -/
example : exactVariance [(1 : ℚ), 5] = (5 - 1) ^ 2 / 4 := by
  norm_num [exactVariance, squaresAbout, exactMean]

example : exactVariance ([(2 : ℚ), 4] ++ [9]) = (2 * 1 + 1 * 0) / (2 + 1) + 2 * 1 * (3 - 9) ^ 2 / (2 + 1) ^ 2 := by
  norm_num [exactVariance, squaresAbout, exactMean]

example : resultOf (varianceAcc (intSpreadOps .i32)) [2, 4, 4, 4, 5, 5, 7, 9] = some 4 := by decide +kernel

/-- For integers the mean is rounded before the distances are calculated: the variance of 0, 0, 0 and 3 is
1.6875, but the result is 2, not 1. -/
theorem C78_integers :
    resultOf (varianceAcc (intSpreadOps .i32)) [0, 0, 0, 3] = some 2 ∧
      exactVariance [(0 : ℚ), 0, 0, 3] = 27 / 16 := by
  refine ⟨by decide +kernel, by norm_num [exactVariance, squaresAbout, exactMean]⟩

/-- For integers, adding a constant changes the variance. -/
theorem C78_integers_shift :
    resultOf (varianceAcc (intSpreadOps .i32)) [0, 0, 0, 3] = some 2 ∧
    resultOf (varianceAcc (intSpreadOps .i32)) ([0, 0, 0, 3].map (· + -3)) = some 1 := by
  decide +kernel

end Fern
