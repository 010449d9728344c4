import Verif.Lemmas.SlopeError
import Verif.Props.PySlope

/-!
# C127: the accuracy of slopes
-/

namespace Fern.SlopeError

open Fern Fern.Domains Fern.Spec Fern.Casts Fern.FloatArith Fern.FloatArith.Spec
open Fern.PyFloat (arithmetic Raster square grid grid_wellFormed eightTimes_one eightTimes_iff C120_slope
  valueAt_some)
open Fern.PyOps (Out)
open Fern.Casts.Spec (OfType)
open Fern.FloatVector (round_represents round_some)
open _root_.Fern.PyFloat.Spec (Kept KeepsSlope weightsX weightsY EightTimes WellFormed Placed valueAt unlessReserved reserved
  weightedSum)
open _root_.Fern.SlopeError.Spec

/-- The differences that are computed are numbers, and close to the exact ones. -/
theorem C127_differences (t : FltTy) (dem : Raster) (h : WellFormed dem) (ht : dem.type = t.num) (hr : 3 ≤ dem.rows)
    (hc : 3 ≤ dem.cols) (b : Rat) (hb : Heights b dem) (hb0 : 0 ≤ b) (hlim : 64 * b ≤ limit t) (i j : Nat) :
    (∃ g, weightedSum (arithmetic t) (fun v => decide (v = reserved t.num)) weightsX dem.rows dem.cols dem.values i j =
      .fin g ∧ Represents t.num g ∧ |g - westEast dem i j| ≤ differenceError t b ∧ |westEast dem i j| ≤ 8 * b) ∧
    (∃ g, weightedSum (arithmetic t) (fun v => decide (v = reserved t.num)) weightsY dem.rows dem.cols dem.values i j =
      .fin g ∧ Represents t.num g ∧ |g - southNorth dem i j| ≤ differenceError t b ∧ |southNorth dem i j| ≤ 8 * b) := by
  have hf := fine hb0 hlim
  constructor
  · rw [← sum_westEast h ht]
    exact difference_near weightsX rfl (by decide) (by decide) h ht hr hc hb hf i j
  · rw [← sum_southNorth h ht]
    exact difference_near weightsY rfl (by decide) (by decide) h ht hr hc hb hf i j

/-- A value that is kept is a number. -/
theorem kept_fin {t : FltTy} {no v : Flt} (h : Kept (arithmetic t) no v) : ∃ q, v = .fin q := by
  cases v with
  | fin q => exact ⟨q, rfl⟩
  | _ => cases h.1

/-- The slopes that are computed: a cell of the result is masked, or its value is a number that is close to the exact slope. The
error is at most a few hundred times the unit of the type, times the largest height and divided by eight times the cell
size, plus a few units of the slope itself, whatever the execution and whatever is left of previous contents. -/
theorem C127_slope (t : FltTy) (pow : Flt → Flt → Flt) (sqrt : Flt → Flt) (hp : AccurateSquare t pow)
    (hs : ∀ v, OfType t.num v → OfType t.num (sqrt v)) (hroot : AccurateRoot t sqrt) (dem : Raster) (h : WellFormed dem)
    (ht : dem.type = t.num) (hr : 3 ≤ dem.rows) (hc : 3 ≤ dem.cols) (b : Rat) (hb : Heights b dem) (hb0 : 0 ≤ b)
    (hlim : 64 * b ≤ limit t) (width height : Rat) (hw : EightTimes t dem.cellSizes.1 (.fin width))
    (hh : EightTimes t dem.cellSizes.2 (.fin height)) (m : Execution) (hm : m.Ok) (garbageX garbageY garbage : Nat → Flt)
    (q : Raster) (hq : PyFloat.slope pow sqrt m garbageX garbageY garbage dem (.ok q)) (i j : Nat) (hi : i < dem.rows)
    (hj : j < dem.cols) (v : Flt) (hv : valueAt q (i * dem.cols + j) = some v) :
    valueAt dem (i * dem.cols + j) ≠ none ∧
    ∃ s : Rat, v = .fin s ∧ 0 ≤ s ∧
      |(s : Real) - exactSlope (westEast dem i j) width (southNorth dem i j) height| ≤
        2 * ((gradientError t b width : Rat) + (gradientError t b height : Rat)) +
          5 * (unit t : Rat) * exactSlope (westEast dem i j) width (southNorth dem i j) height + (lost t : Rat) := by
  obtain ⟨q', g1, -, -, -, g2⟩ := C120_slope t pow sqrt dem h ht hr hc hs (.fin width) (.fin height) hw hh
  obtain rfl : q = q' := by
    have := (g1 m hm garbageX garbageY garbage (.ok q)).1 hq
    exact Out.ok.inj this
  obtain ⟨⟨gx, x1, x2, x3, x4⟩, gy, y1, y2, y3, y4⟩ := C127_differences t dem h ht hr hc b hb hb0 hlim i j
  obtain ⟨k1, k2, k3⟩ := g2 i hi j hj _ _ x1.symm y1.symm
  have hvalid : valueAt dem (i * dem.cols + j) ≠ none := fun h0 => by
    rw [k1 h0] at hv
    cases hv
  have hkeep : KeepsSlope (arithmetic t) (reserved t.num) pow (.fin width) (.fin height) (.fin gx) (.fin gy) := by
    by_contra hn
    rw [k2 hn] at hv
    cases hv
  rw [k3 hvalid hkeep] at hv
  refine ⟨hvalid, ?_⟩
  have hw0 : width ≠ 0 := by
    rintro rfl
    have := hkeep.widthNotZero
    simp [arithmetic, Flt.eq] at this
  have hh0 : height ≠ 0 := by
    rintro rfl
    have := hkeep.heightNotZero
    simp [arithmetic, Flt.eq] at this
  have dx : (arithmetic t).div (.fin gx) (.fin width) = t.round (gx / width) := by
    show (over t (.fin gx) (.fin width)).getD .nan = _
    simp [over, hw0]
  have dy : (arithmetic t).div (.fin gy) (.fin height) = t.round (gy / height) := by
    show (over t (.fin gy) (.fin height)).getD .nan = _
    simp [over, hh0]
  have two : (arithmetic t).ofInt 2 = .fin 2 := by
    have := ofInt_small t (i := 2) (by decide)
    simpa using this
  have hX := hkeep.quotientX
  have hY := hkeep.quotientY
  have hX2 := hkeep.squareX
  have hY2 := hkeep.squareY
  have hS := hkeep.sum
  unfold slopeValue at hv
  rw [dx] at hX hX2 hS hv
  rw [dy] at hY hY2 hS hv
  rw [two] at hX2 hY2 hS hv
  obtain ⟨x, hx⟩ := kept_fin hX
  obtain ⟨y, hy⟩ := kept_fin hY
  rw [hx] at hX2 hS hv
  rw [hy] at hY2 hS hv
  obtain ⟨px, hpx⟩ := kept_fin hX2
  obtain ⟨py, hpy⟩ := kept_fin hY2
  rw [hpx, hpy] at hS hv
  obtain ⟨a1, a2, a3⟩ := hp x px (round_represents hx) hpx
  obtain ⟨b1, b2, b3⟩ := hp y py (round_represents hy) hpy
  have hadd : (arithmetic t).add (.fin px) (.fin py) = t.round (px + py) := rfl
  rw [hadd] at hS hv
  obtain ⟨r, hr'⟩ := kept_fin hS
  rw [hr'] at hv
  have hrep := round_represents hr'
  have hre := sum_error a1 b1 hr'
  have hr0 : 0 ≤ r := by
    have e : |px + py| = px + py := abs_of_nonneg (by linarith)
    rw [e] at hre
    have := (abs_le.1 hre).2
    have := mul_le_mul_of_nonneg_right (unit_lt_one t).le (by linarith : 0 ≤ px + py)
    linarith
  obtain ⟨s, s1, s2, s3⟩ := hroot r hrep hr0
  rw [s1] at hv
  have hvs : v = .fin s := by
    unfold unlessReserved at hv
    split at hv
    · cases hv
    · exact (Option.some.inj hv).symm
  refine ⟨s, hvs, s2, ?_⟩
  rw [abs_sub_comm] at hre
  exact slope_near a3 b3 hr0 hre s3 (gradient_near hb0 x3 x4 hx) (gradient_near hb0 y3 y4 hy)

/-- Values that aren't very small aren't the reserved one. -/
theorem not_reserved (t : FltTy) {q : Rat} (h : 1 / 2 ^ 124 ≤ |q|) : Flt.fin q ≠ reserved t.num := by
  intro he
  cases t
  · have : q = (2 : Rat) ^ (-126 : Int) := Flt.fin.inj he
    rw [this, abs_of_pos (by positivity)] at h
    norm_num at h
  · have : q = (2 : Rat) ^ (-1022 : Int) := Flt.fin.inj he
    rw [this, abs_of_pos (by positivity)] at h
    have h1 : (2 : Rat) ^ (-1022 : Int) ≤ 2 ^ (-126 : Int) := zpow_le_zpow_right₀ (by norm_num) (by norm_num)
    have h2 : (1 : Rat) / 2 ^ 124 ≤ 2 ^ (-126 : Int) := h.trans h1
    norm_num at h2

theorem kept (t : FltTy) {q : Rat} (h : 1 / 2 ^ 124 ≤ |q|) : Kept (arithmetic t) (reserved t.num) (.fin q) :=
  ⟨rfl, not_reserved t h⟩

theorem large_limit (t : FltTy) : (2 : Rat) ^ 123 ≤ limit t := by
  have h : limit .single ≤ limit t := by
    cases t
    · exact le_rfl
    · exact FloatGradient.limit_le_double .single
  refine le_trans ?_ h
  rw [limit_eq]
  norm_num [FltTy.bits, FltTy.hi]

theorem tiny_le (t : FltTy) : tiny t ≤ 1 / 2 ^ 150 := by
  cases t
  · exact le_rfl
  · exact tiny_double_le' .single

/-- One of the gradients, and its square: if the exact one is neither very small nor very large. -/
theorem gradient_kept {t : FltTy} {pow : Flt → Flt → Flt} (hp : AccurateSquare t pow)
    (hpf : ∀ x, Represents t.num x → x ^ 2 ≤ limit t / 2 → ∃ p, pow (.fin x) (.fin 2) = .fin p) {b g d w : Rat} (hb : 0 ≤ b)
    (hg : |g - d| ≤ differenceError t b) (hd : |d| ≤ 8 * b) (h1 : 1 / 2 ^ 60 + differenceError t b ≤ |d|)
    (h2 : 1 / 2 ^ 60 + gradientError t b w ≤ |d / w|) (h3 : |d / w| + gradientError t b w ≤ 2 ^ 60) (hw : w ≠ 0) :
    Kept (arithmetic t) (reserved t.num) (.fin g) ∧
    Kept (arithmetic t) (reserved t.num) ((arithmetic t).div (.fin g) (.fin w)) ∧
    ∃ p, pow ((arithmetic t).div (.fin g) (.fin w)) ((arithmetic t).ofInt 2) = .fin p ∧ Represents t.num p ∧
      1 / 2 ^ 121 ≤ p ∧ p ≤ 2 ^ 121 := by
  have hτ := tiny_pos t
  have hτ' := tiny_le t
  have hlim := large_limit t
  have hu := unit_le t
  have hu0 := unit_pos t
  have dx : (arithmetic t).div (.fin g) (.fin w) = t.round (g / w) := by
    show (over t (.fin g) (.fin w)).getD .nan = _
    simp [over, hw]
  have two : (arithmetic t).ofInt 2 = .fin 2 := by
    have := ofInt_small t (i := 2) (by decide)
    simpa using this
  have hg1 : 1 / 2 ^ 124 ≤ |g| := by
    have : |d| ≤ |g| + |g - d| := by
      have : d = g + -(g - d) := by ring
      calc |d| = |g + -(g - d)| := by rw [← this]
        _ ≤ |g| + |-(g - d)| := abs_add_le _ _
        _ = _ := by rw [abs_neg]
    have : (1 : Rat) / 2 ^ 124 ≤ 1 / 2 ^ 60 := by norm_num
    linarith
  have hE : differenceError t b / |w| ≤ gradientError t b w := by
    unfold differenceError gradientError
    have : (224 * unit t * b + 40 * tiny t) / |w| ≤ (240 * unit t * b + 48 * tiny t) / |w| := by
      refine div_le_div_of_nonneg_right ?_ (abs_nonneg _)
      have := mul_nonneg hu0.le hb
      linarith
    linarith
  have hgw : |g / w| ≤ 2 ^ 60 := by
    have e : g / w = (g - d) / w + d / w := by ring
    rw [e]
    refine (abs_add_le _ _).trans ?_
    rw [abs_div (g - d)]
    have := div_le_div_of_nonneg_right hg (abs_nonneg w)
    linarith
  obtain ⟨x, hx⟩ := round_some (t := t) (x := g / w) (lt_of_le_of_lt hgw (lt_of_lt_of_le (by norm_num) hlim))
  have hxe := gradient_near hb hg hd hx
  have hx1 : 1 / 2 ^ 60 ≤ |x| := by
    have e : d / w = x + -(x - d / w) := by ring
    have : |d / w| ≤ |x| + |x - d / w| := by
      calc |d / w| = |x + -(x - d / w)| := by rw [← e]
        _ ≤ |x| + |-(x - d / w)| := abs_add_le _ _
        _ = _ := by rw [abs_neg]
    linarith
  have hx2 : |x| ≤ 2 ^ 60 := by
    have e : x = (x - d / w) + d / w := by ring
    rw [e]
    refine (abs_add_le _ _).trans ?_
    linarith
  have hs1 : (1 / 2 ^ 60) ^ 2 ≤ x ^ 2 := by
    rw [← sq_abs x]
    exact pow_le_pow_left₀ (by positivity) hx1 2
  have hs2 : x ^ 2 ≤ (2 ^ 60) ^ 2 := by
    rw [← sq_abs x]
    exact pow_le_pow_left₀ (abs_nonneg _) hx2 2
  norm_num at hs1 hs2
  obtain ⟨p, hp1⟩ := hpf x (round_represents hx) (by
    norm_num at hlim
    linarith)
  obtain ⟨p2, p3, p4⟩ := hp x p (round_represents hx) hp1
  have hux : unit t * x ^ 2 ≤ 1 / 2 ^ 24 * x ^ 2 := mul_le_mul_of_nonneg_right hu (sq_nonneg x)
  have hux' : 2 * unit t * x ^ 2 = 2 * (unit t * x ^ 2) := by ring
  rw [hux'] at p4
  obtain ⟨p5, p6⟩ := abs_le.1 p4
  norm_num at hux hτ'
  refine ⟨kept t hg1, ?_, p, ?_, p2, ?_, ?_⟩
  · rw [dx, hx]
    exact kept t (le_trans (by norm_num) hx1)
  · rw [dx, hx, two]
    exact hp1
  · norm_num
    linarith
  · norm_num
    linarith

/-- Which cells have a slope: all valid ones for which the exact differences and gradients are neither very small nor very large. -/
theorem C127_value (t : FltTy) (pow : Flt → Flt → Flt) (sqrt : Flt → Flt) (hp : AccurateSquare t pow)
    (hpf : ∀ x, Represents t.num x → x ^ 2 ≤ limit t / 2 → ∃ p, pow (.fin x) (.fin 2) = .fin p)
    (hs : ∀ v, OfType t.num v → OfType t.num (sqrt v)) (hroot : AccurateRoot t sqrt) (dem : Raster) (h : WellFormed dem)
    (ht : dem.type = t.num) (hr : 3 ≤ dem.rows) (hc : 3 ≤ dem.cols) (b : Rat) (hb : Heights b dem) (hb0 : 0 ≤ b)
    (hlim : 64 * b ≤ limit t) (width height : Rat) (hw : EightTimes t dem.cellSizes.1 (.fin width))
    (hh : EightTimes t dem.cellSizes.2 (.fin height)) (hw0 : width ≠ 0) (hh0 : height ≠ 0) :
    ∃ q, (∀ m : Execution, m.Ok → ∀ garbageX garbageY garbage o,
        PyFloat.slope pow sqrt m garbageX garbageY garbage dem o ↔ o = .ok q) ∧
      ∀ i < dem.rows, ∀ j < dem.cols, valueAt dem (i * dem.cols + j) ≠ none →
        1 / 2 ^ 60 + differenceError t b ≤ |westEast dem i j| → 1 / 2 ^ 60 + differenceError t b ≤ |southNorth dem i j| →
        1 / 2 ^ 60 + gradientError t b width ≤ |westEast dem i j / width| →
        1 / 2 ^ 60 + gradientError t b height ≤ |southNorth dem i j / height| →
        |westEast dem i j / width| + gradientError t b width ≤ 2 ^ 60 →
        |southNorth dem i j / height| + gradientError t b height ≤ 2 ^ 60 →
        ∃ v, valueAt q (i * dem.cols + j) = some v := by
  obtain ⟨q, g1, -, -, -, g2⟩ := C120_slope t pow sqrt dem h ht hr hc hs (.fin width) (.fin height) hw hh
  refine ⟨q, g1, fun i hi j hj hvalid a1 b1 a2 b2 a3 b3 => ?_⟩
  obtain ⟨⟨gx, x1, x2, x3, x4⟩, gy, y1, y2, y3, y4⟩ := C127_differences t dem h ht hr hc b hb hb0 hlim i j
  obtain ⟨k1, k2, k3⟩ := g2 i hi j hj _ _ x1.symm y1.symm
  obtain ⟨p1, p2, px, p3, p4, p5, p6⟩ := gradient_kept hp hpf hb0 x3 x4 a1 a2 a3 hw0
  obtain ⟨q1, q2, py, q3, q4, q5, q6⟩ := gradient_kept hp hpf hb0 y3 y4 b1 b2 b3 hh0
  have hlim' := large_limit t
  norm_num at p5 p6 q5 q6 hlim'
  have hsum : |px + py| < limit t := by
    rw [abs_of_nonneg (by linarith)]
    linarith
  obtain ⟨r, hr'⟩ := round_some (t := t) hsum
  have hre := sum_error p4 q4 hr'
  rw [abs_of_nonneg (by linarith : 0 ≤ px + py)] at hre
  have hu := unit_le t
  have hus : unit t * (px + py) ≤ 1 / 2 ^ 24 * (px + py) := mul_le_mul_of_nonneg_right hu (by linarith)
  norm_num at hus
  have hr1 : 1 / 2 ^ 122 ≤ r := by
    have := (abs_le.1 hre).2
    norm_num
    linarith
  have hr0 : 0 ≤ r := le_trans (by norm_num) hr1
  have hkeep : KeepsSlope (arithmetic t) (reserved t.num) pow (.fin width) (.fin height) (.fin gx) (.fin gy) := by
    refine ⟨by simp [arithmetic, Flt.eq, hw0], by simp [arithmetic, Flt.eq, hh0], p1, q1, p2, q2, ?_, ?_, ?_⟩
    · rw [p3]
      refine kept t ?_
      rw [abs_of_nonneg (by linarith)]
      norm_num
      linarith
    · rw [q3]
      refine kept t ?_
      rw [abs_of_nonneg (by linarith)]
      norm_num
      linarith
    · rw [p3, q3]
      show Kept _ _ (t.round (px + py))
      rw [hr']
      refine kept t ?_
      rw [abs_of_nonneg hr0]
      refine le_trans ?_ hr1
      norm_num
  rw [k3 hvalid hkeep]
  unfold slopeValue
  rw [p3, q3]
  have hadd : (arithmetic t).add (.fin px) (.fin py) = t.round (px + py) := rfl
  rw [hadd, hr']
  obtain ⟨s, s1, s2, s3⟩ := hroot r (round_represents hr') hr0
  rw [s1]
  have hs' : 1 / 2 ^ 124 ≤ |s| := by
    rw [abs_of_nonneg s2]
    have hR : (1 : Real) / 2 ^ 61 ≤ √(r : Real) := by
      rw [Real.le_sqrt (by positivity) (by exact_mod_cast hr0)]
      have : (((1 / 2 ^ 122 : Rat)) : Real) ≤ r := by exact_mod_cast hr1
      refine le_trans (le_of_eq ?_) this
      norm_num
    have hu' : (unit t : Real) ≤ 1 / 100 := by
      have : unit t ≤ 1 / 100 := hu.trans (by norm_num)
      have : ((unit t : Rat) : Real) ≤ ((1 / 100 : Rat) : Real) := by exact_mod_cast this
      refine this.trans (le_of_eq ?_)
      norm_num
    have huR := mul_le_mul_of_nonneg_right hu' (Real.sqrt_nonneg (r : Real))
    have := (abs_le.1 s3).1
    have : (1 : Real) / 2 ^ 62 ≤ s := by
      norm_num at hR ⊢
      linarith
    have : ((1 / 2 ^ 62 : Rat) : Real) ≤ s := by
      refine le_trans (le_of_eq ?_) this
      norm_num
    have : (1 : Rat) / 2 ^ 62 ≤ s := by exact_mod_cast this
    refine le_trans ?_ this
    norm_num
  refine ⟨.fin s, ?_⟩
  unfold unlessReserved
  rw [if_neg (not_reserved t hs')]

/-- The differences of a plane are eight times its gradients: if the heights around a cell differ by `x` from column to column
and by `y` from row to row. -/
theorem C127_plane (dem : Raster) (i j : Nat) (z x y : Rat) (hi : 1 ≤ i) (hi' : i + 1 < dem.rows) (hj : 1 ≤ j)
    (hj' : j + 1 < dem.cols)
    (h : ∀ k l : Nat, k ≤ 2 → l ≤ 2 → valueAt dem ((i - 1 + k) * dem.cols + (j - 1 + l)) = some (.fin (z + k * y + l * x))) :
    westEast dem i j = -8 * x ∧ southNorth dem i j = 8 * y ∧
      ∀ width height : Rat, exactSlope (westEast dem i j) width (southNorth dem i j) height =
        √((8 * x / width : Rat) ^ 2 + (8 * y / height : Rat) ^ 2) := by
  have e : ∀ k l : Nat, k ≤ 2 → l ≤ 2 → heightAt dem ((i : Int) - 1 + k) ((j : Int) - 1 + l) = z + k * y + l * x := by
    intro k l hk hl
    have h1 : validAt dem ((i : Int) - 1 + k) ((j : Int) - 1 + l) = some (z + k * y + l * x) := by
      unfold validAt
      rw [if_pos (by omega)]
      have e1 : ((i : Int) - 1 + k).toNat = i - 1 + k := by omega
      have e2 : ((j : Int) - 1 + l).toNat = j - 1 + l := by omega
      rw [e1, e2, h k l hk hl]
      rfl
    unfold heightAt
    rw [h1]
  have c0 : ∀ n : Nat, (n : Int) - 1 + ((0 : Nat) : Int) = n - 1 := by intro n; omega
  have c1 : ∀ n : Nat, (n : Int) - 1 + ((1 : Nat) : Int) = n := by intro n; omega
  have c2 : ∀ n : Nat, (n : Int) - 1 + ((2 : Nat) : Int) = n + 1 := by intro n; omega
  have e00 := e 0 0 (by omega) (by omega)
  have e01 := e 0 1 (by omega) (by omega)
  have e02 := e 0 2 (by omega) (by omega)
  have e10 := e 1 0 (by omega) (by omega)
  have e12 := e 1 2 (by omega) (by omega)
  have e20 := e 2 0 (by omega) (by omega)
  have e21 := e 2 1 (by omega) (by omega)
  have e22 := e 2 2 (by omega) (by omega)
  rw [c0, c0] at e00
  rw [c0, c1] at e01
  rw [c0, c2] at e02
  rw [c1, c0] at e10
  rw [c1, c2] at e12
  rw [c2, c0] at e20
  rw [c2, c1] at e21
  rw [c2, c2] at e22
  have w : westEast dem i j = -8 * x := by
    unfold westEast
    rw [e00, e02, e10, e12, e20, e22]
    push_cast
    ring
  have s : southNorth dem i j = 8 * y := by
    unfold southNorth
    rw [e00, e01, e02, e20, e21, e22]
    push_cast
    ring
  refine ⟨w, s, fun width height => ?_⟩
  rw [w, s]
  unfold exactSlope
  congr 2
  push_cast
  ring

/-- Rounded products are accurate squares. -/
theorem square_accurate (t : FltTy) : AccurateSquare t (square t) := by
  intro x p hx hp
  have hp' : t.round (x * x) = .fin p := hp
  have he := round_error hp'
  have h0 : 0 ≤ x * x := mul_self_nonneg x
  have hu := unit_pos t
  have hτ := tiny_pos t
  refine ⟨round_represents hp', ?_, ?_⟩
  · by_contra hn
    have hn := not_le.1 hn
    -- zero would be nearer
    have := (C91_round_nearest t.bits_pos t.lo_le_hi _ _ hp').2 0 (by
      exact (represents_num t 0).1 (FloatConvolve.zero_represents t))
    rw [sub_zero, abs_of_nonneg h0, abs_of_pos (by linarith)] at this
    linarith
  · rw [abs_sub_comm, pow_two]
    refine he.trans (max_le ?_ ?_)
    · rw [abs_of_nonneg h0]
      have := mul_nonneg hu.le h0
      linarith
    · have := mul_nonneg hu.le h0
      linarith

/-- A number of the type that is close to the square root. -/
theorem near_root (t : FltTy) {r : Rat} (hr : Represents t.num r) (h0 : 0 < r) :
    ∃ s : Rat, Represents t.num s ∧ 0 ≤ s ∧ |(s : Real) - √(r : Real)| ≤ 2 * (unit t : Real) * √(r : Real) := by
  have hu : (0 : Real) < unit t := by exact_mod_cast unit_pos t
  have hu' : (unit t : Real) ≤ 1 / 100 := by
    have : unit t ≤ 1 / 100 := (unit_le t).trans (by norm_num)
    have : ((unit t : Rat) : Real) ≤ ((1 / 100 : Rat) : Real) := by exact_mod_cast this
    refine this.trans (le_of_eq ?_)
    norm_num
  have hr0 : (0 : Real) < r := by exact_mod_cast h0
  have hR : 0 < √(r : Real) := Real.sqrt_pos.2 hr0
  have hsq := Real.sq_sqrt hr0.le
  obtain ⟨q, q1, q2⟩ := exists_rat_btwn (show √(r : Real) < √(r : Real) + 1 / 4 * (unit t : Real) * √(r : Real) by
    have := mul_pos (mul_pos (by norm_num : (0 : Real) < 1 / 4) hu) hR
    linarith)
  have huR : (unit t : Real) * √(r : Real) ≤ 1 / 100 * √(r : Real) := mul_le_mul_of_nonneg_right hu' hR.le
  have huR0 : 0 < (unit t : Real) * √(r : Real) := mul_pos hu hR
  have e4 : 1 / 4 * (unit t : Real) * √(r : Real) = 1 / 4 * ((unit t : Real) * √(r : Real)) := by ring
  rw [e4] at q2
  have hrlim : r < limit t := by
    have := (round_finite t r).1 (by rw [round_exact t hr]; rfl)
    rw [TooLarge] at this
    have := not_le.1 this
    rwa [abs_of_pos h0] at this
  have hq0 : 0 < q := by
    have : (0 : Real) < q := hR.trans q1
    exact_mod_cast this
  have hq : |q| < limit t := by
    rw [abs_of_pos hq0]
    rcases le_or_gt r 4 with h4 | h4
    · have : √(r : Real) ≤ 2 := by
        rw [Real.sqrt_le_iff]
        refine ⟨by norm_num, ?_⟩
        have : (r : Real) ≤ 4 := by exact_mod_cast h4
        linarith
      have h3 : (q : Real) < 3 := by linarith
      have h3 : q < 3 := by exact_mod_cast h3
      have : (3 : Rat) ≤ limit t := by
        have := represents_small t (i := 3) (by cases t <;> decide)
        have := (round_finite t 3).1 (by
          have e := round_exact t this
          have e' : (((3 : Int)) : Rat) = 3 := by norm_num
          rw [e'] at e
          rw [e]
          rfl)
        rw [TooLarge] at this
        have := not_le.1 this
        rw [abs_of_pos (by norm_num)] at this
        exact this.le
      linarith
    · have h4' : (4 : Real) < r := by exact_mod_cast h4
      have h2 : 2 ≤ √(r : Real) := by
        rw [Real.le_sqrt (by norm_num) hr0.le]
        linarith
      have : √(r : Real) * 2 ≤ r := by
        have := mul_le_mul_of_nonneg_left h2 hR.le
        rwa [← pow_two, hsq] at this
      have : (q : Real) < r := by linarith
      have : q < r := by exact_mod_cast this
      linarith
  obtain ⟨s, hs⟩ := round_some (t := t) hq
  have he := round_error hs
  rw [abs_of_pos hq0] at he
  have hτ : (tiny t : Real) ≤ (unit t : Real) * √(r : Real) := by
    obtain ⟨n, hn⟩ := floatValue_multiple ((represents_num t r).1 hr)
    have hpos : (0 : Rat) < 2 ^ t.lo := two_zpow_pos t.lo
    have hn1 : 1 ≤ n := by
      by_contra hc
      have : n ≤ 0 := by omega
      have : (n : Rat) ≤ 0 := by exact_mod_cast this
      have := mul_nonpos_of_nonpos_of_nonneg this hpos.le
      linarith
    have hr2 : 2 * tiny t ≤ r := by
      rw [hn, tiny_eq]
      have : (1 : Rat) ≤ n := by exact_mod_cast hn1
      have := mul_le_mul_of_nonneg_right this hpos.le
      linarith
    have hut : (tiny t / unit t) ^ 2 ≤ r := by
      refine le_trans ?_ hr2
      rw [div_pow, div_le_iff₀ (pow_pos (unit_pos t) 2)]
      have h1 : tiny t ≤ 2 * unit t ^ 2 := by
        cases t
        · norm_num [tiny, unit]
        · refine (tiny_double_le' .single).trans ?_
          norm_num [tiny, unit]
      have := mul_le_mul_of_nonneg_left h1 (tiny_pos t).le
      rw [pow_two]
      linarith
    have hut' : ((tiny t : Real) / unit t) ^ 2 ≤ r := by exact_mod_cast hut
    have hut0 : 0 ≤ (tiny t : Real) / unit t := by
      have : 0 ≤ tiny t / unit t := (div_pos (tiny_pos t) (unit_pos t)).le
      exact_mod_cast this
    have := (Real.le_sqrt hut0 hr0.le).2 hut'
    rw [div_le_iff₀ hu] at this
    linarith
  have he' : |(q : Real) - s| ≤ max ((unit t : Real) * q) (tiny t) := by exact_mod_cast he
  have hmax : max ((unit t : Real) * q) (tiny t) ≤ 3 / 2 * ((unit t : Real) * √(r : Real)) := by
    refine max_le ?_ (by linarith)
    have := mul_le_mul_of_nonneg_left q2.le hu.le
    have e : (unit t : Real) * ((unit t : Real) * √(r : Real)) ≤ 1 / 100 * ((unit t : Real) * √(r : Real)) :=
      mul_le_mul_of_nonneg_right hu' huR0.le
    linarith
  have hfinal : |(s : Real) - √(r : Real)| ≤ 2 * (unit t : Real) * √(r : Real) := by
    have : (s : Real) - √(r : Real) = -((q : Real) - s) + (q - √(r : Real)) := by ring
    rw [this]
    refine (abs_add_le _ _).trans ?_
    rw [abs_neg, abs_of_pos (by linarith : (0 : Real) < q - √(r : Real))]
    linarith
  refine ⟨s, round_represents hs, ?_, hfinal⟩
  have := (abs_le.1 hfinal).1
  have : (0 : Real) ≤ s := by linarith
  exact_mod_cast this

/-- There are functions that compute square roots this accurately, for both types. -/
theorem exists_root (t : FltTy) : ∃ sqrt : Flt → Flt, (∀ v, OfType t.num v → OfType t.num (sqrt v)) ∧ AccurateRoot t sqrt := by
  classical
  have hflt : t.num = .f32 ∨ t.num = .f64 := by cases t <;> simp [FltTy.num]
  refine ⟨fun v => match v with
    | .fin r => if h : Represents t.num r ∧ 0 < r then .fin (near_root t h.1 h.2).choose else .fin 0
    | _ => .nan, ?_, ?_⟩
  · intro v hv
    cases v with
    | fin r =>
      dsimp only
      split_ifs with h
      · exact (near_root t h.1 h.2).choose_spec.1
      · exact FloatConvolve.zero_represents t
    | _ => exact hflt
  · intro r hr h0
    dsimp only
    rcases h0.eq_or_lt with rfl | hpos
    · refine ⟨0, ?_, le_rfl, by simp⟩
      rw [dif_neg (by simp)]
    · rw [dif_pos ⟨hr, hpos⟩]
      exact ⟨_, rfl, (near_root t hr hpos).choose_spec.2⟩

/-- A plane of 3 x 3 cells. -/
def plane (t : FltTy) : Raster := grid t ([1, 2, 3, 4, 5, 6, 7, 8, 9].map fun v : Int => (v : Rat))

theorem plane_values (t : FltTy) (k l : Nat) (hk : k ≤ 2) (hl : l ≤ 2) :
    valueAt (plane t) ((1 - 1 + k) * 3 + (1 - 1 + l)) = some (.fin (1 + k * 3 + l * 1)) := by
  have hk' : k = 0 ∨ k = 1 ∨ k = 2 := by omega
  have hl' : l = 0 ∨ l = 1 ∨ l = 2 := by omega
  rcases hk' with rfl | rfl | rfl <;> rcases hl' with rfl | rfl | rfl <;> cases t <;> decide +kernel

theorem plane_heights (t : FltTy) : Heights 9 (plane t) := by
  intro i v hv
  have hm := List.mem_of_getElem? (valueAt_some.1 hv).1
  simp only [plane, grid, List.map_cons, List.map_nil, List.mem_cons, List.not_mem_nil, or_false] at hm
  rcases hm with rfl | rfl | rfl | rfl | rfl | rfl | rfl | rfl | rfl <;> exact ⟨_, rfl, by norm_num [abs_of_pos]⟩

/-- Heights from 1 to 9: the hypotheses hold for both types, and the slope of the central cell is about the root of ten. -/
example (t : FltTy) : ∃ sqrt q s, PyFloat.slope (square t) sqrt .sequential (fun _ => .fin 0) (fun _ => .fin 0) (fun _ => .fin 0)
      (plane t) (.ok q) ∧ valueAt q 4 = some (.fin s) ∧ |(s : Real) - √10| ≤ 1 / 1000 := by
  obtain ⟨sqrt, r1, r2⟩ := exists_root t
  have hwf : WellFormed (plane t) := grid_wellFormed t _ rfl (by decide)
  have hlim : 64 * 9 ≤ limit t := by
    have := large_limit t
    norm_num at this ⊢
    linarith
  have hu := unit_le t
  have hu0 := unit_pos t
  have hτ := tiny_le t
  have hτ0 := tiny_pos t
  norm_num at hu hτ
  obtain ⟨p1, p2, p3⟩ := C127_plane (plane t) 1 1 1 1 3 le_rfl (by show 1 + 1 < 3; decide) le_rfl (by show 1 + 1 < 3; decide)
    (plane_values t)
  have hd : differenceError t 9 ≤ 1 / 1000 := by
    unfold differenceError
    linarith
  have hg0 : gradientError t 9 8 = (240 * unit t * 9 + 48 * tiny t) / 8 + tiny t := by
    unfold gradientError
    rw [abs_of_pos (by norm_num)]
  have hg : gradientError t 9 8 ≤ 1 / 20000 := by
    rw [hg0]
    linarith
  obtain ⟨q, q1, q2⟩ := C127_value t (square t) sqrt (square_accurate t) (by
    intro x _ hx
    have : |x * x| < limit t := by
      rw [abs_of_nonneg (mul_self_nonneg x), ← pow_two]
      have := large_limit t
      norm_num at this
      linarith
    exact round_some this) r1 r2 (plane t) hwf rfl (by show 3 ≤ 3; decide) (by show 3 ≤ 3; decide) 9 (plane_heights t)
    (by norm_num) hlim 8 8 (eightTimes_one t) (eightTimes_one t) (by norm_num) (by norm_num)
  have hq : PyFloat.slope (square t) sqrt .sequential (fun _ => .fin 0) (fun _ => .fin 0) (fun _ => .fin 0) (plane t) (.ok q) :=
    (q1 .sequential trivial _ _ _ _).2 rfl
  obtain ⟨v, hv⟩ := q2 1 (by show 1 < 3; decide) 1 (by show 1 < 3; decide) (by
      have := plane_values t 1 1 (by decide) (by decide)
      rw [show (plane t).cols = 3 from rfl]
      norm_num at this ⊢
      rw [this]
      simp)
    (by rw [p1]; norm_num; linarith) (by rw [p2]; norm_num; linarith) (by rw [p1]; norm_num; linarith)
    (by rw [p2]; norm_num; linarith) (by rw [p1]; norm_num; linarith) (by rw [p2]; norm_num; linarith)
  obtain ⟨-, s, rfl, s0, s1⟩ := C127_slope t (square t) sqrt (square_accurate t) r1 r2 (plane t) hwf rfl (by show 3 ≤ 3; decide)
    (by show 3 ≤ 3; decide) 9 (plane_heights t) (by norm_num) hlim 8 8 (eightTimes_one t) (eightTimes_one t) .sequential trivial _ _ _
    q hq 1 1 (by show 1 < 3; decide) (by show 1 < 3; decide) v hv
  refine ⟨sqrt, q, s, hq, hv, ?_⟩
  rw [p3] at s1
  have e : √((((8 * 1 / 8 : Rat)) : Real) ^ 2 + (((8 * 3 / 8 : Rat)) : Real) ^ 2) = √10 := by norm_num
  rw [e] at s1
  have h10 : √(10 : Real) ≤ 4 := by
    rw [Real.sqrt_le_iff]
    norm_num
  have hg' : ((gradientError t 9 8 : Rat) : Real) ≤ 1 / 20000 := by
    have : ((gradientError t 9 8 : Rat) : Real) ≤ ((1 / 20000 : Rat) : Real) := by exact_mod_cast hg
    refine this.trans (le_of_eq ?_)
    norm_num
  have hu' : (unit t : Real) ≤ 1 / 1000000 := by
    have : unit t ≤ 1 / 1000000 := (unit_le t).trans (by norm_num)
    have : ((unit t : Rat) : Real) ≤ ((1 / 1000000 : Rat) : Real) := by exact_mod_cast this
    refine this.trans (le_of_eq ?_)
    norm_num
  have hl : (lost t : Real) ≤ 1 / 1000000 := by
    have : lost t ≤ 1 / 1000000 := by
      cases t
      · norm_num [lost]
      · refine le_trans (b := (1 : Rat) / 2 ^ 73) ?_ (by norm_num)
        exact one_div_le_one_div_of_le (by positivity) (pow_le_pow_right₀ (by norm_num) (by norm_num))
    have : ((lost t : Rat) : Real) ≤ ((1 / 1000000 : Rat) : Real) := by exact_mod_cast this
    refine this.trans (le_of_eq ?_)
    norm_num
  have := mul_le_mul hu' h10 (Real.sqrt_nonneg _) (by norm_num)
  have e5 : 5 * (unit t : Real) * √10 = 5 * ((unit t : Real) * √10) := by ring
  rw [e5] at s1
  linarith

end Fern.SlopeError
