import Verif.Lemmas.FloatGradient
import Verif.Lemmas.PySlopeExact
import Verif.Lemmas.Outcomes

/-!
# C124: gradients of floating point numbers
-/

namespace Fern.FloatGradient

open Fern Fern.Domains Fern.Spec Fern.Casts Fern.Casts.Spec Fern.FloatArith Fern.FloatArith.Spec
open Fern.FloatConvolve (quotient store store_fin quotient_divided round_zero)
open Fern.FloatConvolve.Spec (Divided)
open Fern.FloatVector (round_some)
open _root_.Fern.FloatGradient.Spec

/-- All executions have the same result, of which the valid cells are known. -/
theorem gradient_cells (axis : Axis) (t : FltTy) (a : GradientArgs Flt) (ha : RasterOk a) (hn : Numbers t a)
    (he : 2 ≤ extent axis a) (outp : OutPolicy Flt) (s : Rat) (hs : s ≠ 0) (hrep : Represents .f64 s)
    (hs2 : ¬ TooLarge .double (2 * s)) (res : List (Cell Flt)) (hres : res.length = a.rows * a.cols) :
    ∃ out, (∀ m : Execution, m.Ok → ∀ o, gradientOf axis m t (.fin s) a outp (a.rows, a.cols) res o ↔ o = some out) ∧
      ∀ i < a.rows, ∀ j < a.cols, ∃ d d', res[i * a.cols + j]? = some d ∧ out[i * a.cols + j]? = some d' ∧
        (at' axis a i j 0 = none → Marked outp d d') ∧
        ∀ c, at' axis a i j 0 = some c →
          d' = ⟨stored t s (at' axis a i j (-1)) c (at' axis a i j 1), d.masked⟩ := by
  have hnum : ∀ x y v, validValue a x y = some v → ∃ q, v = .fin q := fun x y v h => by
    obtain ⟨q, h1, -⟩ := hn x y v h
    exact ⟨q, h1⟩
  cases axis with
  | x =>
    obtain ⟨out, h1, ⟨-, h2⟩, h3⟩ := C72_x (fltGradientOps t (.fin s)) ha outp he res hres
    refine ⟨out, ?_, ?_⟩
    · intro m hm
      cases m with
      | sequential => exact Gives.one h1
      | parallel n => exact h3 n hm
    · intro i hi j hj
      have hlt : i * a.cols + j < res.length := by rw [hres]; nlinarith
      obtain ⟨d', h4, h5⟩ := h2 i j hi hj _ (List.getElem?_eq_getElem hlt)
      refine ⟨_, d', List.getElem?_eq_getElem hlt, h4, fun hc => h5.noData ?_, fun c hc => ?_⟩
      · simpa [at'] using hc
      · exact cell_value hs hrep hs2 h5 (fun v hv => hnum _ _ v hv) (fun v hv => hnum _ _ v hv) (fun v hv => hnum _ _ v hv)
          (by simpa [at'] using hc)
  | y =>
    obtain ⟨out, h1, ⟨-, h2⟩, h3⟩ := C72_y (fltGradientOps t (.fin s)) ha outp he res hres
    refine ⟨out, ?_, ?_⟩
    · intro m hm
      cases m with
      | sequential => exact Gives.one h1
      | parallel n => exact h3 n hm
    · intro i hi j hj
      have hlt : i * a.cols + j < res.length := by rw [hres]; nlinarith
      obtain ⟨d', h4, h5⟩ := h2 i j hi hj _ (List.getElem?_eq_getElem hlt)
      refine ⟨_, d', List.getElem?_eq_getElem hlt, h4, fun hc => h5.noData ?_, fun c hc => ?_⟩
      · simpa [at'] using hc
      · exact cell_value hs hrep hs2 h5 (fun v hv => hnum _ _ v hv) (fun v hv => hnum _ _ v hv) (fun v hv => hnum _ _ v hv)
          (by simpa [at'] using hc)

theorem at_represents {axis : Axis} {t : FltTy} {a : GradientArgs Flt} (hn : Numbers t a) {i j : Nat} {k : Int} {q : Rat}
    (h : at' axis a i j k = some q) : Represents t.num q := by
  cases axis with
  | x =>
    obtain ⟨v, h1, rfl⟩ := Option.map_eq_some_iff.1 h
    obtain ⟨r, rfl, h2⟩ := hn _ _ _ h1
    exact h2
  | y =>
    obtain ⟨v, h1, rfl⟩ := Option.map_eq_some_iff.1 h
    obtain ⟨r, rfl, h2⟩ := hn _ _ _ h1
    exact h2

theorem getD_represents {t : FltTy} {o : Option Rat} {c : Rat} (h : ∀ q, o = some q → Represents t.num q)
    (hc : Represents t.num c) : Represents t.num (o.getD c) := by
  cases o with
  | none => exact hc
  | some q => exact h q rfl

theorem steps_ne {p n : Option Rat} : steps p n ≠ 0 := by
  unfold steps
  split <;> norm_num

/-- **C124**: no-data cells are marked. In other cells the difference of the neighbours, rounded to the type of the values, is
divided by the distance, rounded to `double`, and rounded to the type of the values again. What is stored differs from the
exact gradient by a few units in the last place, unless the difference is too large for the type of the values. In that case
an infinite value is stored. -/
theorem C124_error (axis : Axis) (t : FltTy) (a : GradientArgs Flt) (ha : RasterOk a) (hn : Numbers t a)
    (he : 2 ≤ extent axis a) (outp : OutPolicy Flt) (s : Rat) (hs : s ≠ 0) (hrep : Represents .f64 s)
    (hs2 : ¬ TooLarge .double (2 * s)) (res : List (Cell Flt)) (hres : res.length = a.rows * a.cols) :
    ∃ out, (∀ m : Execution, m.Ok → ∀ o, gradientOf axis m t (.fin s) a outp (a.rows, a.cols) res o ↔ o = some out) ∧
      ∀ i < a.rows, ∀ j < a.cols, ∃ d d', res[i * a.cols + j]? = some d ∧ out[i * a.cols + j]? = some d' ∧
        (at' axis a i j 0 = none → Marked outp d d') ∧
        ∀ c prev next, at' axis a i j 0 = some c → prev = at' axis a i j (-1) → next = at' axis a i j 1 →
          d'.masked = d.masked ∧
          (∃ D, Rounded t (difference prev c next) D ∧ ∀ x, D = .fin x → Divided t x (steps prev next * s) d'.val) ∧
          (TooLarge t (difference prev c next) → d'.val = if 0 < difference prev c next * s then .inf else .negInf) ∧
          (¬ TooLarge t (difference prev c next) → |exactGradient s prev c next| ≤ limit t / 2 →
            ∃ r, d'.val = .fin r ∧ |r - exactGradient s prev c next| ≤ gradientError t (exactGradient s prev c next)) := by
  obtain ⟨out, h1, h2⟩ := gradient_cells axis t a ha hn he outp s hs hrep hs2 res hres
  refine ⟨out, h1, fun i hi j hj => ?_⟩
  obtain ⟨d, d', h3, h4, h5, h6⟩ := h2 i hi j hj
  refine ⟨d, d', h3, h4, h5, fun c prev next hc hp hx => ?_⟩
  have h7 := h6 c hc
  rw [← hp, ← hx] at h7
  rw [h7]
  have hS : steps prev next * s ≠ 0 := mul_ne_zero steps_ne hs
  refine ⟨rfl, ⟨_, round_rounded t _, fun x hD => ?_⟩, fun hl => ?_, fun hd hg => ?_⟩
  · show Divided t x _ (stored t s prev c next)
    rw [stored, hD]
    exact quotient_divided t x _
  · show stored t s prev c next = _
    have hr := (round_rounded t (difference prev c next)).1 hl
    have hne : difference prev c next ≠ 0 := by
      intro h0
      rw [h0, TooLarge, abs_zero] at hl
      exact absurd (limit_pos t) (not_lt.2 hl)
    rw [stored, hr]
    have hst : 0 < steps prev next := by unfold steps; split <;> norm_num
    generalize difference prev c next = D at *
    have key : ∀ p : Rat, 0 < p * s ↔ 0 < p * (steps prev next * s) := fun p => by
      rw [show p * (steps prev next * s) = steps prev next * (p * s) by ring]
      exact (mul_pos_iff_of_pos_left hst).symm
    generalize steps prev next * s = S at *
    rcases lt_or_gt_of_ne hne with h0 | h0 <;> rcases lt_or_gt_of_ne hS with h8 | h8
    · rw [if_neg (by linarith), if_pos ((key D).2 (mul_pos_of_neg_of_neg h0 h8))]
      cases t <;> simp [quotient, over, hS, infinite, h8, h8.le, not_lt.2 h8.le] <;> rfl
    · rw [if_neg (by linarith), if_neg (fun h => absurd ((key D).1 h) (not_lt.2 (mul_nonpos_of_nonpos_of_nonneg h0.le h8.le)))]
      cases t <;> simp [quotient, over, hS, infinite, h8, h8.le, not_lt.2 h8.le] <;> rfl
    · rw [if_pos h0, if_neg (fun h => absurd ((key D).1 h) (not_lt.2 (mul_nonpos_of_nonneg_of_nonpos h0.le h8.le)))]
      cases t <;> simp [quotient, over, hS, infinite, h8, h8.le, not_lt.2 h8.le] <;> rfl
    · rw [if_pos h0, if_pos ((key D).2 (mul_pos h0 h8))]
      cases t <;> simp [quotient, over, hS, infinite, h8, h8.le, not_lt.2 h8.le] <;> rfl
  · have r0 := at_represents hn hc
    exact stored_error (getD_represents (fun q h => at_represents hn (hp ▸ h)) r0)
      (getD_represents (fun q h => at_represents hn (hx ▸ h)) r0) hS hd hg

/-- **C124**: the sign of a gradient is never wrong. -/
theorem C124_sign (axis : Axis) (t : FltTy) (a : GradientArgs Flt) (ha : RasterOk a) (hn : Numbers t a)
    (he : 2 ≤ extent axis a) (outp : OutPolicy Flt) (s : Rat) (hs : 0 < s) (hrep : Represents .f64 s)
    (hs2 : ¬ TooLarge .double (2 * s)) (res : List (Cell Flt)) (hres : res.length = a.rows * a.cols)
    (m : Execution) (hm : m.Ok) (out : List (Cell Flt))
    (hout : gradientOf axis m t (.fin s) a outp (a.rows, a.cols) res (some out)) (i j : Nat) (hi : i < a.rows) (hj : j < a.cols)
    (c : Rat) (hc : at' axis a i j 0 = some c) (D : Rat) (hD : D = difference (at' axis a i j (-1)) c (at' axis a i j 1)) :
    ∃ d', out[i * a.cols + j]? = some d' ∧ (0 ≤ D → Flt.le (.fin 0) d'.val = true) ∧ (D ≤ 0 → Flt.le d'.val (.fin 0) = true) := by
  obtain ⟨out', h1, h2⟩ := gradient_cells axis t a ha hn he outp s hs.ne' hrep hs2 res hres
  obtain rfl : out = out' := by simpa using (h1 m hm _).1 hout
  obtain ⟨d, d', h3, h4, h5, h6⟩ := h2 i hi j hj
  refine ⟨d', h4, ?_⟩
  rw [h6 c hc]
  have hst : 0 < steps (at' axis a i j (-1)) (at' axis a i j 1) := by unfold steps; split <;> norm_num
  have hS := mul_pos hst hs
  show (0 ≤ D → Flt.le (.fin 0) (stored t s _ c _) = true) ∧ (D ≤ 0 → Flt.le (stored t s _ c _) (.fin 0) = true)
  rw [stored, ← hD]
  generalize steps (at' axis a i j (-1)) (at' axis a i j 1) * s = S at *
  have up : ∀ (t : FltTy) (x : Rat), 0 ≤ x → Flt.le (.fin 0) (t.round x) = true := fun t x h => by
    have := round_mono t h
    rwa [round_zero] at this
  have down : ∀ (t : FltTy) (x : Rat), x ≤ 0 → Flt.le (t.round x) (.fin 0) = true := fun t x h => by
    have := round_mono t h
    rwa [round_zero] at this
  have upS : ∀ f : Flt, Flt.le (.fin 0) f = true → Flt.le (.fin 0) (store t f) = true := fun f h => by
    cases f with
    | fin x => rw [store_fin]; exact up t x (by simpa [Flt.le] using h)
    | inf => cases t <;> rfl
    | negInf => simp [Flt.le] at h
    | nan => simp [Flt.le] at h
  have downS : ∀ f : Flt, Flt.le f (.fin 0) = true → Flt.le (store t f) (.fin 0) = true := fun f h => by
    cases f with
    | fin x => rw [store_fin]; exact down t x (by simpa [Flt.le] using h)
    | negInf => cases t <;> rfl
    | inf => simp [Flt.le] at h
    | nan => simp [Flt.le] at h
  constructor
  · intro h
    refine upS _ ?_
    have := up t D h
    cases hx : t.round D with
    | fin x =>
      rw [hx] at this
      rw [quotient_fin hS.ne']
      exact up _ _ (div_nonneg (by simpa [Flt.le] using this) hS.le)
    | inf => simp [quotient, over, hS.ne', infinite, hS, Flt.le]
    | negInf => rw [hx] at this; simp [Flt.le] at this
    | nan => rw [hx] at this; simp [Flt.le] at this
  · intro h
    refine downS _ ?_
    have := down t D h
    cases hx : t.round D with
    | fin x =>
      rw [hx] at this
      rw [quotient_fin hS.ne']
      exact down _ _ (div_nonpos_of_nonpos_of_nonneg (by simpa [Flt.le] using this) hS.le)
    | negInf => simp [quotient, over, hS.ne', infinite, hS, hS.le, not_lt.2 hS.le, Flt.le]
    | inf => rw [hx] at this; simp [Flt.le] at this
    | nan => rw [hx] at this; simp [Flt.le] at this

/-- **C124**: the gradient of a flat raster is zero. -/
theorem C124_flat (axis : Axis) (t : FltTy) (a : GradientArgs Flt) (ha : RasterOk a) (q : Rat) (hq : Represents t.num q)
    (hn : ∀ x y v, validValue a x y = some v → v = .fin q)
    (he : 2 ≤ extent axis a) (outp : OutPolicy Flt) (s : Rat) (hs : s ≠ 0) (hrep : Represents .f64 s)
    (hs2 : ¬ TooLarge .double (2 * s)) (res : List (Cell Flt)) (hres : res.length = a.rows * a.cols) :
    ∃ out, (∀ m : Execution, m.Ok → ∀ o, gradientOf axis m t (.fin s) a outp (a.rows, a.cols) res o ↔ o = some out) ∧
      ∀ i < a.rows, ∀ j < a.cols, ∃ d d', res[i * a.cols + j]? = some d ∧ out[i * a.cols + j]? = some d' ∧
        (validValue a i j ≠ none → d' = ⟨.fin 0, d.masked⟩) := by
  obtain ⟨out, h1, h2⟩ := gradient_cells axis t a ha (fun x y v h => ⟨q, hn x y v h, hq⟩) he outp s hs hrep hs2 res hres
  refine ⟨out, h1, fun i hi j hj => ?_⟩
  obtain ⟨d, d', h3, h4, h5, h6⟩ := h2 i hi j hj
  refine ⟨d, d', h3, h4, fun hv => ?_⟩
  obtain ⟨v, hv⟩ := Option.ne_none_iff_exists'.1 hv
  have hat : ∀ k r, at' axis a i j k = some r → r = q := by
    intro k r h
    cases axis with
    | x =>
      obtain ⟨v, h1, rfl⟩ := Option.map_eq_some_iff.1 h
      rw [hn _ _ _ h1]; rfl
    | y =>
      obtain ⟨v, h1, rfl⟩ := Option.map_eq_some_iff.1 h
      rw [hn _ _ _ h1]; rfl
  have h0 : at' axis a i j 0 = some q := by
    cases axis <;> simp [at', hv, hn _ _ _ hv, number]
  rw [h6 q h0]
  have hg : ∀ o : Option Rat, (∀ r, o = some r → r = q) → o.getD q = q := fun o h => by
    cases o with
    | none => rfl
    | some r => exact h r rfl
  have hS : steps (at' axis a i j (-1)) (at' axis a i j 1) * s ≠ 0 := mul_ne_zero steps_ne hs
  rw [stored, difference, hg _ (hat _), hg _ (hat _), sub_self, round_zero, quotient_fin hS, zero_div, round_zero, store_fin,
    round_zero]

/-- **C124**: a field that increases linearly along the axis, by a number with few digits, has the same gradient everywhere,
next to no-data and along the borders too, except in cells without valid neighbours: the increase divided by the cell size,
rounded to `double` and to the type of the values. -/
theorem C124_linear (axis : Axis) (t : FltTy) (a : GradientArgs Flt) (ha : RasterOk a) (hn : Numbers t a)
    (he : 2 ≤ extent axis a) (outp : OutPolicy Flt) (s : Rat) (hs : s ≠ 0) (hrep : Represents .f64 s)
    (hs2 : ¬ TooLarge .double (2 * s)) (res : List (Cell Flt)) (hres : res.length = a.rows * a.cols)
    (e k : Int) (h1e : t.lo ≤ e) (h2e : e ≤ t.hi) (hk : 2 * |k| < 2 ^ t.bits) (base : Int → Rat)
    (hlin : ∀ x y v, validValue a x y = some v → v = .fin (match axis with
      | .x => base x + y * (k * 2 ^ e)
      | .y => base y + x * (k * 2 ^ e))) :
    ∃ out g, (∀ m : Execution, m.Ok → ∀ o, gradientOf axis m t (.fin s) a outp (a.rows, a.cols) res o ↔ o = some out) ∧
      Divided t (k * 2 ^ e) s g ∧
      ∀ i < a.rows, ∀ j < a.cols, ∃ d d', res[i * a.cols + j]? = some d ∧ out[i * a.cols + j]? = some d' ∧
        (at' axis a i j 0 ≠ none → at' axis a i j (-1) ≠ none ∨ at' axis a i j 1 ≠ none → d' = ⟨g, d.masked⟩) := by
  obtain ⟨out, h1, h2⟩ := gradient_cells axis t a ha hn he outp s hs hrep hs2 res hres
  refine ⟨out, _, h1, quotient_divided t _ s, fun i hi j hj => ?_⟩
  obtain ⟨d, d', h3, h4, h5, h6⟩ := h2 i hi j hj
  refine ⟨d, d', h3, h4, fun hc hor => ?_⟩
  obtain ⟨c, hc⟩ := Option.ne_none_iff_exists'.1 hc
  rw [h6 c hc]
  congr 1
  obtain ⟨b, hb⟩ : ∃ b : Rat, ∀ l r, at' axis a i j l = some r → r = b + l * (k * 2 ^ e) := by
    cases axis with
    | x =>
      refine ⟨base i + j * (k * 2 ^ e), fun l r h => ?_⟩
      obtain ⟨v, h1, rfl⟩ := Option.map_eq_some_iff.1 h
      rw [hlin _ _ _ h1, number]
      push_cast
      ring
    | y =>
      refine ⟨base j + i * (k * 2 ^ e), fun l r h => ?_⟩
      obtain ⟨v, h1, rfl⟩ := Option.map_eq_some_iff.1 h
      rw [hlin _ _ _ h1, number]
      push_cast
      ring
  have hsc : PyFloat.Scale t e := ⟨h1e, h2e⟩
  have hkk := abs_nonneg k
  have r1 : t.round (k * 2 ^ e) = .fin (k * 2 ^ e) := PyFloat.round_scaled hsc (by linarith)
  have r2 : t.round (2 * (k * 2 ^ e)) = .fin (2 * (k * 2 ^ e)) := by
    have := PyFloat.round_scaled (k := 2 * k) hsc (by rw [abs_mul]; simpa using hk)
    rw [show (2 : Rat) * (k * 2 ^ e) = ((2 * k : Int) : Rat) * 2 ^ e by push_cast; ring]
    exact this
  have hc' := hb 0 c hc
  rw [Int.cast_zero, zero_mul, add_zero] at hc'
  rw [stored, quotient_fin hs]
  cases hp : at' axis a i j (-1) with
  | none =>
    cases hx : at' axis a i j 1 with
    | none => simp [hp, hx] at hor
    | some n =>
      have hn' := hb 1 n hx
      have : difference none c (some n) = k * 2 ^ e := by
        simp only [difference, Option.getD_some, Option.getD_none, hc', hn']
        push_cast
        ring
      rw [this, r1]
      simp [steps, quotient_fin hs]
  | some p =>
    have hp' := hb (-1) p hp
    cases hx : at' axis a i j 1 with
    | none =>
      have : difference (some p) c none = k * 2 ^ e := by
        simp only [difference, Option.getD_some, Option.getD_none, hc', hp']
        push_cast
        ring
      rw [this, r1]
      simp [steps, quotient_fin hs]
    | some n =>
      have hn' := hb 1 n hx
      have : difference (some p) c (some n) = 2 * (k * 2 ^ e) := by
        simp only [difference, Option.getD_some, hp', hn']
        push_cast
        ring
      rw [this, r2]
      simp only [steps, Option.isSome_some, and_self, if_true]
      rw [quotient_fin (by simpa using hs)]
      congr 2
      field_simp

/-! ### What does not hold -/

/-- A row of values, all valid, and a cell size. -/
def row (t : FltTy) (cellSize : Flt) (vs : List Flt) : Option (List (Cell Flt)) :=
  gradientX (fltGradientOps t cellSize) ⟨1, vs.length, vs, .skip⟩ .dontMark (1, vs.length) (vs.map fun _ => ⟨.fin 7, false⟩)

/-- **C124**: the gradient of a linear field of 0, 0.1, 0.2, 0.3 is not the same everywhere. -/
theorem C124_linear_false :
    let g := row .double (.fin 1) [.fin 0, .fin (3602879701896397 / 2 ^ 55), .fin (3602879701896397 / 2 ^ 54),
      .fin (5404319552844595 / 2 ^ 54)]
    ∃ a b c, g = some [⟨.fin a, false⟩, ⟨.fin a, false⟩, ⟨.fin b, false⟩, ⟨.fin c, false⟩] ∧ a ≠ b ∧ a ≠ c ∧ b ≠ c := by
  refine ⟨3602879701896397 / 2 ^ 55, 7205759403792793 / 2 ^ 56, 900719925474099 / 2 ^ 53, ?_, ?_⟩ <;> decide +kernel

/-- **C124**: differences that are too large give infinite values in cells that are not marked, although the gradient is in
range. -/
theorem C124_overflow :
    row .single (.fin 4) [.fin (-2 ^ 127), .fin 0, .fin (2 ^ 127)] =
      some [⟨.fin (2 ^ 125), false⟩, ⟨.inf, false⟩, ⟨.fin (2 ^ 125), false⟩] := by
  decide +kernel

/-- **C124**: infinite values give NaN, a cell size of zero gives infinite values and NaN. No cell is marked. -/
theorem C124_not_a_number :
    row .double (.fin 1) [.inf, .inf] = some [⟨.nan, false⟩, ⟨.nan, false⟩] ∧
    row .double (.fin 0) [.fin 1, .fin 2, .fin 1] = some [⟨.inf, false⟩, ⟨.nan, false⟩, ⟨.negInf, false⟩] := by
  decide +kernel

/-- **C124**: if twice the cell size is too large, the gradient of cells with two neighbours is zero, and that of cells with
one neighbour isn't. -/
theorem C124_large_cells :
    row .double (.fin (2 ^ 1023)) [.fin 0, .fin (2 ^ 1000), .fin (2 ^ 1001)] =
      some [⟨.fin (1 / 2 ^ 23), false⟩, ⟨.fin 0, false⟩, ⟨.fin (1 / 2 ^ 23), false⟩] := by
  decide +kernel

/-- **C124**: the gradient of floats is rounded twice, and is not always the float that is nearest to the exact gradient, even
if the difference isn't rounded. -/
theorem C124_rounded_twice :
    let s : Rat := 281474926379017 / 2 ^ 48
    row .single (.fin s) [.fin 0, .fin 1] = some [⟨.fin (1 + 1 / 2 ^ 22), false⟩, ⟨.fin (1 + 1 / 2 ^ 22), false⟩] ∧
    FltTy.single.round (1 / s) = .fin (1 + 1 / 2 ^ 23) ∧ FltTy.double.round s = .fin s := by
  decide +kernel

example : row .double (.fin 2) [.fin 1, .fin 2, .fin 5] =
    some [⟨.fin (1 / 2), false⟩, ⟨.fin 1, false⟩, ⟨.fin (3 / 2), false⟩] := by
  decide +kernel

/-- The hypotheses of the theorems are met: a raster of floats, and a cell size of 25. -/
example : let a : GradientArgs Flt := ⟨1, 3, [.fin 1, .fin 2, .fin 5], .skip⟩
    RasterOk a ∧ Numbers .single a ∧ 2 ≤ extent .x a ∧ Represents .f64 25 ∧ ¬ TooLarge .double (2 * 25) := by
  refine ⟨⟨rfl, trivial⟩, ?_, by decide, ?_, ?_⟩
  · intro x y v h
    have hv : v ∈ [Flt.fin 1, .fin 2, .fin 5] := by
      unfold validValue at h
      split at h
      · exact List.mem_of_getElem? h
      · simp at h
    simp only [List.mem_cons, List.not_mem_nil, or_false] at hv
    rcases hv with rfl | rfl | rfl
    · exact ⟨1, rfl, by simpa using represents_small .single (i := 1) (by decide)⟩
    · exact ⟨2, rfl, by simpa using represents_small .single (i := 2) (by decide)⟩
    · exact ⟨5, rfl, by simpa using represents_small .single (i := 5) (by decide)⟩
  · have : Represents FltTy.double.num (25 : Rat) := by simpa using represents_small .double (i := 25) (by decide)
    exact this
  · rw [TooLarge, not_le]
    have := FloatVector.limit_large .double
    norm_num
    linarith

end Fern.FloatGradient
