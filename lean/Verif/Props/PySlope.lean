import Verif.Lemmas.PySlopeExact
import Verif.Props.PyFloat

/-!
# C120: slope in the Python extension
-/

namespace Fern.PyFloat

open Fern Fern.Spec Fern.Domains Fern.Casts Fern.FloatArith
open Fern.PyOps (Out)
open Fern.Casts.Spec (OfType)
open Fern.FloatArith.Spec (Rounded)
open _root_.Fern.FloatRaster.Spec (IsNumber Result)
open _root_.Fern.PyFloat.Spec (Kept KeepsSlope weightedSum weightsX weightsY EightTimes WellFormed Placed valueAt
  unlessReserved reserved)

/-- The arithmetic used is that of the standard: exact results are rounded. Sums and averages of `float` values are of type
`double`, until they are converted. -/
theorem C120_arithmetic (t : FltTy) :
    (∀ i : Int, Rounded t i ((arithmetic t).ofInt i)) ∧
    (∀ a b, Result t .add a b ((arithmetic t).add a b)) ∧
    (∀ a b, Result t .multiply a b ((arithmetic t).mul a b)) ∧
    (∀ a b, (arithmetic t).isZero b = false → Result t .divide a b ((arithmetic t).div a b)) ∧
    (∀ a b, Result .double .add a b ((arithmetic t).accAdd a b)) ∧
    (∀ a b, (arithmetic t).isZero b = false → Result .double .divide a b ((arithmetic t).accDiv a b)) ∧
    (∀ a, FloatRaster.Spec.Operand t a ((arithmetic t).narrow a)) ∧
    (∀ a, (arithmetic t).finite a = true ↔ IsNumber a) ∧
    (∀ a, (arithmetic t).isZero a = true ↔ a = .fin 0) := by
  have hb : ∀ b, (arithmetic t).isZero b = false → b ≠ .fin 0 := by
    rintro b h rfl
    simp [arithmetic, Flt.eq] at h
  refine ⟨fun i => round_rounded t i, fun a b => FloatRaster.result_plus t a b,
    fun a b => FloatRaster.result_times t a b, fun a b h => ?_, fun a b => FloatRaster.result_plus .double a b,
    fun a b h => ?_, fun a => ?_, fun a => FloatRaster.finite_iff, fun a => eq_zero⟩
  · obtain ⟨z, hz⟩ := FloatRaster.over_isSome t (a := a) (hb b h)
    have : (arithmetic t).div a b = z := by simp [arithmetic, hz]
    rw [this]
    exact FloatRaster.result_over t hz
  · obtain ⟨z, hz⟩ := FloatRaster.over_isSome .double (a := a) (hb b h)
    have : (arithmetic t).accDiv a b = z := by simp [arithmetic, hz]
    rw [this]
    exact FloatRaster.result_over .double hz
  · obtain ⟨w, hw, ho⟩ := cast_some .f64 t a
    have : (arithmetic t).narrow a = w := by simp [arithmetic, hw]
    rwa [this]

theorem eightTimes_iff (t : FltTy) (s : Rat) (w : Flt) : EightTimes t s w ↔ w = eightTimes t s := by
  have h1 : times .double (.fin 8) (.fin s) = FltTy.double.round (8 * s) := rfl
  obtain ⟨v, hv, ho⟩ := cast_some .f64 t (FltTy.double.round (8 * s))
  have e : eightTimes t s = v := by rw [eightTimes, h1, hv]; rfl
  constructor
  · rintro ⟨d, hd, hw⟩
    have : d = FltTy.double.round (8 * s) := C95_determined .double (8 * s) _ _ hd (round_rounded _ _)
    rw [e, operand_unique hw (this ▸ ho)]
  · rintro rfl
    exact ⟨_, round_rounded _ _, e ▸ ho⟩

theorem weights_not_zero (t : FltTy) : WeightsNotZero (arithmetic t) := by
  cases t <;> exact ⟨by decide +kernel, by decide +kernel⟩

/-- The value of a cell of the result. -/
noncomputable def slopeAt (t : FltTy) (pow : Flt → Flt → Flt) (sqrt : Flt → Flt) (dem : Raster) (width height : Flt)
    (i j : Nat) : Flt :=
  open Classical in
  let gx := weightedSum (arithmetic t) (isNoData t.num) weightsX dem.rows dem.cols dem.values i j
  let gy := weightedSum (arithmetic t) (isNoData t.num) weightsY dem.rows dem.cols dem.values i j
  if valueAt dem (i * dem.cols + j) = none ∨ ¬ KeepsSlope (arithmetic t) (reserved t.num) pow width height gx gy then
    reserved t.num
  else slopeValue (arithmetic t) pow sqrt width height gx gy

theorem slopeCells_eq (t : FltTy) (pow : Flt → Flt → Flt) (sqrt : Flt → Flt) {dem : Raster} (h : WellFormed dem)
    (ht : dem.type = t.num) (hr : 3 ≤ dem.rows) (hc : 3 ≤ dem.cols) (width height : Flt)
    (garbageX garbageY garbage : Nat → Flt) :
    ∃ out, (∀ m : Execution, m.Ok → Fern.Gives (slopeCells (arithmetic t) (isNoData t.num) (noData t.num) pow sqrt m
        (dem.rows, dem.cols) dem.values width height (uninitialised garbageX dem.rows dem.cols)
        (uninitialised garbageY dem.rows dem.cols) (uninitialised garbage dem.rows dem.cols)) out) ∧
      out.map Cell.val = (List.range (dem.rows * dem.cols)).map fun k =>
        slopeAt t pow sqrt dem width height (k / dem.cols) (k % dem.cols) := by
  obtain ⟨out, g, len, c⟩ := slopeCells_steps (arithmetic t) (isNoData t.num) (noData t.num) pow sqrt dem.rows dem.cols
    hr hc dem.values h.size width height _ _ _ (uninitialised_length garbageX dem.rows dem.cols)
    (uninitialised_length garbageY dem.rows dem.cols) (uninitialised_length garbage dem.rows dem.cols)
  refine ⟨out, g, List.ext_getElem (by simp [len]) fun k h1 h2 => ?_⟩
  have hk : k < dem.rows * dem.cols := by simpa using h2
  have hcols : 0 < dem.cols := by omega
  have hi : k / dem.cols < dem.rows := by rw [Nat.div_lt_iff_lt_mul hcols]; exact hk
  have hj : k % dem.cols < dem.cols := Nat.mod_lt _ hcols
  have ek : k / dem.cols * dem.cols + k % dem.cols = k := by rw [Nat.mul_comm]; exact Nat.div_add_mod k dem.cols
  obtain ⟨c', hc', s⟩ := c _ hi _ hj
  rw [ek] at hc' s
  have e1 : (out.map Cell.val)[k] = c'.val := by
    rw [List.getElem_map, (List.getElem?_eq_some_iff.1 hc').2]
  obtain ⟨v, hv⟩ := has_value h hk
  have hnd : NoDataAt (.detect (isNoData t.num)) dem.values k ↔ valueAt dem k = none := by
    rw [valueAt, hv, ht]
    have : NoDataAt (.detect (isNoData t.num)) dem.values k ↔ isNoData t.num v = true := by simp [NoDataAt, hv]
    rw [this, isNoData_iff]
    simp
  have hx : ¬ NoDataAt (.detect (isNoData t.num)) dem.values k → slopeTerms (arithmetic t) (arithmetic t).averageOps
      (slopeKernelX (arithmetic t)) dem.rows dem.cols (.detect (isNoData t.num)) dem.values (k / dem.cols)
      (k % dem.cols) ≠ [] := fun hn =>
    slopeTerms_ne_nil _ (by simp [slopeKernelX]) hr h.size hi hj (by rw [ek]; exact hn) trivial hc
      (p := 0) (.inl rfl) (q := 0) (by omega) (by
        intro w h
        have : (arithmetic t).ofInt 1 = w := Option.some.inj h
        rw [← this]; exact (weights_not_zero t).1)
  have hy : ¬ NoDataAt (.detect (isNoData t.num)) dem.values k → slopeTerms (arithmetic t) (arithmetic t).averageOps
      (slopeKernelY (arithmetic t)) dem.rows dem.cols (.detect (isNoData t.num)) dem.values (k / dem.cols)
      (k % dem.cols) ≠ [] := fun hn =>
    slopeTerms_ne_nil _ (by simp [slopeKernelY]) hr h.size hi hj (by rw [ek]; exact hn) trivial hc
      (p := 0) (.inl rfl) (q := 0) (by omega) (by
        intro w h
        have : (arithmetic t).ofInt (-1) = w := Option.some.inj h
        rw [← this]; exact (weights_not_zero t).2)
  obtain ⟨a1, a2⟩ := steps_value (fun v => by rw [isNoData_iff, noData_eq]) hx hy s
  rw [e1, List.getElem_map, List.getElem_range, slopeAt, ek, ← noData_eq]
  split_ifs with hh
  · refine a2 ?_
    rcases hh with hh | hh
    · exact .inl (hnd.2 hh)
    · exact .inr hh
  · rw [not_or, not_not] at hh
    exact a1 (fun hn => hh.1 (hnd.1 hn)) hh.2

/-- **C120**: the slope of a raster of floating point numbers is a raster of the same type at the same place. All
executions give the same one, whatever uninitialised memory contains. A cell is masked if the one of the raster is, or an
intermediate value isn't finite or happens to be the value that marks masked cells, or the slope is this value. Otherwise it is
the slope. -/
theorem C120_slope (t : FltTy) (pow : Flt → Flt → Flt) (sqrt : Flt → Flt) (dem : Raster) (h : WellFormed dem)
    (ht : dem.type = t.num) (hr : 3 ≤ dem.rows) (hc : 3 ≤ dem.cols)
    (hs : ∀ v, OfType t.num v → OfType t.num (sqrt v)) (width height : Flt)
    (hw : EightTimes t dem.cellSizes.1 width) (hh : EightTimes t dem.cellSizes.2 height) :
    ∃ q, (∀ m : Execution, m.Ok → ∀ garbageX garbageY garbage o,
        slope pow sqrt m garbageX garbageY garbage dem o ↔ o = .ok q) ∧
      q.type = t.num ∧ Placed q dem ∧ WellFormed q ∧
      ∀ i < dem.rows, ∀ j < dem.cols, ∀ gx gy,
        gx = weightedSum (arithmetic t) (fun v => decide (v = reserved t.num)) weightsX dem.rows dem.cols dem.values i j →
        gy = weightedSum (arithmetic t) (fun v => decide (v = reserved t.num)) weightsY dem.rows dem.cols dem.values i j →
        (valueAt dem (i * dem.cols + j) = none → valueAt q (i * dem.cols + j) = none) ∧
        (¬ KeepsSlope (arithmetic t) (reserved t.num) pow width height gx gy → valueAt q (i * dem.cols + j) = none) ∧
        (valueAt dem (i * dem.cols + j) ≠ none → KeepsSlope (arithmetic t) (reserved t.num) pow width height gx gy →
          valueAt q (i * dem.cols + j) =
            unlessReserved t.num (slopeValue (arithmetic t) pow sqrt width height gx gy)) := by
  obtain rfl := (eightTimes_iff _ _ _).1 hw
  obtain rfl := (eightTimes_iff _ _ _).1 hh
  have hno : (fun v => decide (v = reserved t.num)) = isNoData t.num := by
    funext v
    rw [Bool.eq_iff_iff, isNoData_iff, decide_eq_true_iff]
  simp only [hno]
  let vals := (List.range (dem.rows * dem.cols)).map fun k =>
    slopeAt t pow sqrt dem (eightTimes t dem.cellSizes.1) (eightTimes t dem.cellSizes.2) (k / dem.cols) (k % dem.cols)
  let q : Raster := ⟨t.num, dem.rows, dem.cols, dem.origin, dem.cellSizes, vals⟩
  have hval : ∀ k, k < dem.rows * dem.cols → valueAt q k = unlessReserved t.num (slopeAt t pow sqrt dem
      (eightTimes t dem.cellSizes.1) (eightTimes t dem.cellSizes.2) (k / dem.cols) (k % dem.cols)) := by
    intro k hk
    have : q.values[k]? = some (slopeAt t pow sqrt dem (eightTimes t dem.cellSizes.1) (eightTimes t dem.cellSizes.2)
        (k / dem.cols) (k % dem.cols)) := by
      show vals[k]? = _
      simp [vals, hk]
    rw [valueAt, this]
    rfl
  refine ⟨q, fun m hm garbageX garbageY garbage o => ?_, rfl, ⟨rfl, rfl, rfl, rfl⟩, ⟨by simp [q, vals], ?_⟩, ?_⟩
  · obtain ⟨out, g, e⟩ := slopeCells_eq t pow sqrt h ht hr hc (eightTimes t dem.cellSizes.1)
      (eightTimes t dem.cellSizes.2) garbageX garbageY garbage
    have hof : slope pow sqrt m garbageX garbageY garbage dem o ↔
        slopeOf t pow sqrt m garbageX garbageY garbage dem o := by
      unfold slope
      rw [ht]
      cases t <;> rfl
    rw [hof]
    have hfin : finish (some out) t.num dem.rows dem.cols dem.origin dem.cellSizes = .ok q := by
      simp only [finish, e]
      rfl
    constructor
    · rintro ⟨cells, h1, rfl⟩
      obtain rfl := (g m hm cells).1 h1
      exact hfin
    · rintro rfl
      exact ⟨some out, (g m hm _).2 rfl, hfin.symm⟩
  · intro v hv
    obtain ⟨k, -, rfl⟩ := List.mem_map.1 hv
    show OfType t.num _
    unfold slopeAt
    simp only []
    split_ifs with hh
    · exact reserved_ofType (supported_num t)
    · exact hs _ (plus_ofType t _ _)
  · intro i hi j hj gx gy hgx hgy
    have hk : i * dem.cols + j < dem.rows * dem.cols := rowMajor_lt hi hj
    have e1 : (i * dem.cols + j) / dem.cols = i := by
      rw [Nat.mul_comm, Nat.mul_add_div (by omega), Nat.div_eq_of_lt hj, Nat.add_zero]
    have e2 : (i * dem.cols + j) % dem.cols = j := by
      rw [Nat.mul_comm, Nat.mul_add_mod, Nat.mod_eq_of_lt hj]
    have hq := hval _ hk
    rw [e1, e2, slopeAt] at hq
    subst hgx hgy
    have hnone : unlessReserved t.num (reserved t.num) = none := if_pos rfl
    refine ⟨fun h1 => ?_, fun h1 => ?_, fun h1 h2 => ?_⟩
    · rw [hq, if_pos (.inl h1), hnone]
    · rw [hq, if_pos (.inr h1), hnone]
    · rw [hq, if_neg (by rw [not_or, not_not]; exact ⟨h1, h2⟩)]

/-! ### Sums without rounding -/

/-- The sums of differences, if the values around the cell are multiples of a power of two. -/
theorem sums_exact {t : FltTy} {e : Int} (he : Scale .double e) (isNo : Flt → Bool) (rows cols : Nat) (value : List Flt)
    (i j : Nat) (z : Int → Int → Int)
    (hz : ∀ x y : Int, (i : Int) - 1 ≤ x → x ≤ i + 1 → (j : Int) - 1 ≤ y → y ≤ j + 1 →
      surface (arithmetic t).averageOps rows cols (.detect isNo) value x y = some (scaled e (z x y)) ∧
      Twice t e (z x y) ∧ 8 * |z x y| < 2 ^ 53) :
    weightedSum (arithmetic t) isNo weightsX rows cols value i j =
      t.round (((z (i - 1) (j - 1) + 2 * z i (j - 1) + z (i + 1) (j - 1) -
        (z (i - 1) (j + 1) + 2 * z i (j + 1) + z (i + 1) (j + 1)) : Int) : Rat) * 2 ^ e) ∧
    weightedSum (arithmetic t) isNo weightsY rows cols value i j =
      t.round (((z (i + 1) (j - 1) + 2 * z (i + 1) j + z (i + 1) (j + 1) -
        (z (i - 1) (j - 1) + 2 * z (i - 1) j + z (i - 1) (j + 1)) : Int) : Rat) * 2 ^ e) := by
  have hk : kernelCells 1 = [(0, 0), (0, 1), (0, 2), (1, 0), (1, 1), (1, 2), (2, 0), (2, 1), (2, 2)] := rfl
  have h9 : ∀ pq ∈ kernelCells 1, pq.1 ≤ 2 ∧ pq.2 ≤ 2 := by
    intro pq hpq
    rw [hk] at hpq
    simp only [List.mem_cons, List.not_mem_nil, or_false] at hpq
    rcases hpq with rfl | rfl | rfl | rfl | rfl | rfl | rfl | rfl | rfl <;> simp
  have hz' : ∀ pq ∈ kernelCells 1, surface (arithmetic t).averageOps rows cols (.detect isNo) value
      ((i : Int) + pq.1 - 1) ((j : Int) + pq.2 - 1) =
        some (scaled e (z ((i : Int) + pq.1 - 1) ((j : Int) + pq.2 - 1))) := by
    intro pq hpq
    have := h9 pq hpq
    exact (hz _ _ (by omega) (by omega) (by omega) (by omega)).1
  have a0 : (i : Int) + ((0 : Nat) : Int) - 1 = i - 1 := by omega
  have a1 : (i : Int) + ((1 : Nat) : Int) - 1 = i := by omega
  have a2 : (i : Int) + ((2 : Nat) : Int) - 1 = i + 1 := by omega
  have b0 : (j : Int) + ((0 : Nat) : Int) - 1 = j - 1 := by omega
  have b1 : (j : Int) + ((1 : Nat) : Int) - 1 = j := by omega
  have b2 : (j : Int) + ((2 : Nat) : Int) - 1 = j + 1 := by omega
  have hs : ∀ weights : List Int, (∀ w ∈ weights, |w| ≤ 2) → ∀ w ∈ weights, |w| < 2 ^ t.bits := by
    intro weights h w hw
    have := h w hw
    have : (2 : Int) < 2 ^ t.bits := by cases t <;> decide
    omega
  have q1 := (hz (i - 1) (j - 1) (by omega) (by omega) (by omega) (by omega)).2.2
  have q2 := (hz i (j - 1) (by omega) (by omega) (by omega) (by omega)).2.2
  have q3 := (hz (i + 1) (j - 1) (by omega) (by omega) (by omega) (by omega)).2.2
  have q4 := (hz (i - 1) (j + 1) (by omega) (by omega) (by omega) (by omega)).2.2
  have q5 := (hz i (j + 1) (by omega) (by omega) (by omega) (by omega)).2.2
  have q6 := (hz (i + 1) (j + 1) (by omega) (by omega) (by omega) (by omega)).2.2
  have q7 := (hz (i - 1) j (by omega) (by omega) (by omega) (by omega)).2.2
  have q8 := (hz (i + 1) j (by omega) (by omega) (by omega) (by omega)).2.2
  obtain ⟨lx, x1, x2, x3, x4⟩ := slopeTerms_scaled (t := t) isNo weightsX rfl (hs _ (by decide)) rows cols value i j
    (fun pq => z ((i : Int) + pq.1 - 1) ((j : Int) + pq.2 - 1)) hz'
  obtain ⟨ly, y1, y2, y3, y4⟩ := slopeTerms_scaled (t := t) isNo weightsY rfl (hs _ (by decide)) rows cols value i j
    (fun pq => z ((i : Int) + pq.1 - 1) ((j : Int) + pq.2 - 1)) hz'
  have hl : ∀ weights : List Int, (∀ w ∈ weights, |w| ≤ 2) → ∀ l : List (Int × Int),
      (∀ kw ∈ l, ∃ pq ∈ kernelCells 1, kw.1 = z ((i : Int) + pq.1 - 1) ((j : Int) + pq.2 - 1) ∧ kw.2 ∈ weights) →
      ∀ kw ∈ l, Twice t e kw.1 ∧ |kw.2| ≤ 2 := by
    intro weights h l hl kw hkw
    obtain ⟨pq, hpq, g1, g2⟩ := hl kw hkw
    have := h9 pq hpq
    exact ⟨g1 ▸ (hz _ _ (by omega) (by omega) (by omega) (by omega)).2.1, h _ g2⟩
  rw [hk] at x2 x3 y2 y3
  simp only [List.map_cons, List.map_nil, List.sum_cons, List.sum_nil, a0, a1, a2, b0, b1, b2] at x2 x3 y2 y3
  simp [weightsX, weightAt, abs_mul] at x2 x3
  simp [weightsY, weightAt, abs_mul] at y2 y3
  constructor
  · have : weightedSum (arithmetic t) isNo weightsX rows cols value i j = productSum (arithmetic t) (lx.map (pair e)) :=
      congrArg (productSum (arithmetic t)) x1
    rw [this, productSum_wide he lx (hl weightsX (by decide) lx x4) (by simp only [abs_mul]; rw [x3]; linarith), x2]
    congr 3
    ring
  · have : weightedSum (arithmetic t) isNo weightsY rows cols value i j = productSum (arithmetic t) (ly.map (pair e)) :=
      congrArg (productSum (arithmetic t)) y1
    rw [this, productSum_wide he ly (hl weightsY (by decide) ly y4) (by simp only [abs_mul]; rw [y3]; linarith), y2]
    congr 3
    ring

theorem surface_value {t : FltTy} {dem : Raster} (ht : dem.type = t.num) {x y : Nat} (hx : x < dem.rows)
    (hy : y < dem.cols) {v : Flt} (hv : valueAt dem (x * dem.cols + y) = some v) :
    surface (arithmetic t).averageOps dem.rows dem.cols (.detect (fun v => decide (v = reserved t.num))) dem.values x y =
      some v := by
  obtain ⟨h1, h2⟩ := valueAt_some.1 hv
  unfold surface
  rw [Int.toNat_natCast, Int.toNat_natCast, if_pos ?_, h1]
  refine ⟨by omega, by omega, by omega, by omega, ?_⟩
  rintro ⟨w, hw, hr⟩
  rw [h1] at hw
  obtain rfl := Option.some.inj hw
  rw [ht] at h2
  exact h2 (by simpa using hr)

/-- **C120**: at cells all eight neighbours of which are valid cells of the raster, the sums of differences are rounded only
once, if the values are multiples of a power of two the multiplier of which is smaller than 2^50, and not so large that their
double cannot be represented. -/
theorem C120_sums (t : FltTy) (dem : Raster) (ht : dem.type = t.num) (e : Int) (he : -1074 ≤ e ∧ e ≤ 971) (i j : Nat)
    (hi : i + 2 < dem.rows) (hj : j + 2 < dem.cols) (z : Nat → Nat → Int)
    (hz : ∀ x y, i ≤ x → x ≤ i + 2 → j ≤ y → y ≤ j + 2 →
      valueAt dem (x * dem.cols + y) = some (.fin (z x y * 2 ^ e)) ∧
      Represents t.num (z x y * 2 ^ e) ∧ Represents t.num (2 * (z x y * 2 ^ e)) ∧ 8 * |z x y| < 2 ^ 53) :
    Rounded t
      (((z i j + 2 * z (i + 1) j + z (i + 2) j - (z i (j + 2) + 2 * z (i + 1) (j + 2) + z (i + 2) (j + 2)) : Int) :
        Rat) * 2 ^ e)
      (weightedSum (arithmetic t) (fun v => decide (v = reserved t.num)) weightsX dem.rows dem.cols dem.values (i + 1)
        (j + 1)) ∧
    Rounded t
      (((z (i + 2) j + 2 * z (i + 2) (j + 1) + z (i + 2) (j + 2) - (z i j + 2 * z i (j + 1) + z i (j + 2)) : Int) :
        Rat) * 2 ^ e)
      (weightedSum (arithmetic t) (fun v => decide (v = reserved t.num)) weightsY dem.rows dem.cols dem.values (i + 1)
        (j + 1)) := by
  have h := sums_exact (t := t) (e := e) he (fun v => decide (v = reserved t.num)) dem.rows dem.cols dem.values (i + 1)
    (j + 1) (fun x y => z x.toNat y.toNat) (by
      intro x y h1 h2 h3 h4
      obtain ⟨n, rfl⟩ : ∃ n : Nat, x = n := ⟨x.toNat, by omega⟩
      obtain ⟨m, rfl⟩ : ∃ m : Nat, y = m := ⟨y.toNat, by omega⟩
      obtain ⟨g1, g2, g3, g4⟩ := hz n m (by omega) (by omega) (by omega) (by omega)
      exact ⟨surface_value ht (by omega) (by omega) g1, ⟨g2, g3⟩, g4⟩)
  have i0 : (((i + 1 : Nat) : Int) - 1).toNat = i := by omega
  have i1 : ((i + 1 : Nat) : Int).toNat = i + 1 := by omega
  have i2 : (((i + 1 : Nat) : Int) + 1).toNat = i + 2 := by omega
  have j0 : (((j + 1 : Nat) : Int) - 1).toNat = j := by omega
  have j1 : ((j + 1 : Nat) : Int).toNat = j + 1 := by omega
  have j2 : (((j + 1 : Nat) : Int) + 1).toNat = j + 2 := by omega
  simp only [i0, i1, i2, j0, j1, j2] at h
  rw [h.1, h.2]
  exact ⟨round_rounded _ _, round_rounded _ _⟩

/-- **C120**: at cells all eight neighbours of which are valid cells of the raster, the sums of differences are exact if the
values are multiples of a power of two, the multiplier of which is not larger than an eighth of what the type can represent:
integers smaller than 2^21 for `float` and than 2^50 for `double`, for example. -/
theorem C120_exact (t : FltTy) (dem : Raster) (ht : dem.type = t.num) (e : Int) (he : t.lo ≤ e ∧ e ≤ t.hi) (i j : Nat)
    (hi : i + 2 < dem.rows) (hj : j + 2 < dem.cols) (z : Nat → Nat → Int)
    (hz : ∀ x y, i ≤ x → x ≤ i + 2 → j ≤ y → y ≤ j + 2 →
      valueAt dem (x * dem.cols + y) = some (.fin (z x y * 2 ^ e)) ∧ 8 * |z x y| < 2 ^ t.bits) :
    weightedSum (arithmetic t) (fun v => decide (v = reserved t.num)) weightsX dem.rows dem.cols dem.values (i + 1)
        (j + 1) =
      .fin (((z i j + 2 * z (i + 1) j + z (i + 2) j - (z i (j + 2) + 2 * z (i + 1) (j + 2) + z (i + 2) (j + 2)) : Int) :
        Rat) * 2 ^ e) ∧
    weightedSum (arithmetic t) (fun v => decide (v = reserved t.num)) weightsY dem.rows dem.cols dem.values (i + 1)
        (j + 1) =
      .fin (((z (i + 2) j + 2 * z (i + 2) (j + 1) + z (i + 2) (j + 2) - (z i j + 2 * z i (j + 1) + z i (j + 2)) : Int) :
        Rat) * 2 ^ e) := by
  have hd : Scale .double e := Scale.double he
  have hb := bits_double t
  have h := C120_sums t dem ht e hd i j hi hj z (by
    intro x y h1 h2 h3 h4
    obtain ⟨g1, g2⟩ := hz x y h1 h2 h3 h4
    have h0 := abs_nonneg (z x y)
    have g3 := Twice.of he (k := z x y) (by linarith)
    exact ⟨g1, g3.1, g3.2, g2.trans_le hb⟩)
  have q : ∀ a b : Nat, a ≤ 2 → b ≤ 2 → 8 * |z (i + a) (j + b)| < 2 ^ t.bits := fun a b ha hb =>
    (hz (i + a) (j + b) (by omega) (by omega) (by omega) (by omega)).2
  have r : ∀ a b : Nat, a ≤ 2 → b ≤ 2 → -2 ^ t.bits < 8 * z (i + a) (j + b) ∧ 8 * z (i + a) (j + b) < 2 ^ t.bits := by
    intro a b ha hb
    have := q a b ha hb
    obtain ⟨g1, g2⟩ := abs_lt.1 (show |8 * z (i + a) (j + b)| < 2 ^ t.bits by rw [abs_mul]; exact this)
    exact ⟨g1, g2⟩
  have r1 := r 0 0 (by omega) (by omega)
  have r2 := r 1 0 (by omega) (by omega)
  have r3 := r 2 0 (by omega) (by omega)
  have r4 := r 0 2 (by omega) (by omega)
  have r5 := r 1 2 (by omega) (by omega)
  have r6 := r 2 2 (by omega) (by omega)
  have r7 := r 2 1 (by omega) (by omega)
  have r8 := r 0 1 (by omega) (by omega)
  simp only [Nat.add_zero] at r1 r2 r3 r4 r5 r6 r7 r8
  constructor
  · refine C95_determined t _ _ _ h.1 ?_
    rw [← scaled, ← round_scaled he (abs_lt.2 ⟨by linarith, by linarith⟩)]
    exact round_rounded _ _
  · refine C95_determined t _ _ _ h.2 ?_
    rw [← scaled, ← round_scaled he (abs_lt.2 ⟨by linarith, by linarith⟩)]
    exact round_rounded _ _

/-- **C120**: if all valid cells have the same value, nine times this value is not rounded when it is a `double`, and its
double is not too large, then the slope of all valid cells is zero, at the border and next to masked cells too. -/
theorem C120_flat (t : FltTy) (pow : Flt → Flt → Flt) (sqrt : Flt → Flt) (dem : Raster) (h : WellFormed dem)
    (ht : dem.type = t.num) (hr : 3 ≤ dem.rows) (hc : 3 ≤ dem.cols)
    (hpow : pow (.fin 0) ((arithmetic t).ofInt 2) = .fin 0) (hsqrt : sqrt (.fin 0) = .fin 0) (width height : Flt)
    (hw : EightTimes t dem.cellSizes.1 width) (hh : EightTimes t dem.cellSizes.2 height) (hw0 : width ≠ .fin 0)
    (hh0 : height ≠ .fin 0) (e k : Int) (he : -1074 ≤ e ∧ e ≤ 971) (hk : 9 * |k| < 2 ^ 53)
    (hk1 : Represents t.num (k * 2 ^ e)) (hk2 : Represents t.num (2 * (k * 2 ^ e)))
    (hflat : ∀ i v, valueAt dem i = some v → v = .fin (k * 2 ^ e))
    (m : Execution) (hm : m.Ok) (garbageX garbageY garbage : Nat → Flt) (o : Out Raster)
    (ho : slope pow sqrt m garbageX garbageY garbage dem o) :
    ∃ q, o = .ok q ∧ ∀ i < dem.rows * dem.cols, valueAt q i = (valueAt dem i).map fun _ => .fin 0 := by
  have hk0 := abs_nonneg k
  obtain ⟨out, g, e1⟩ := slopeCells_eq t pow sqrt h ht hr hc width height garbageX garbageY garbage
  obtain rfl := (eightTimes_iff _ _ _).1 hw
  obtain rfl := (eightTimes_iff _ _ _).1 hh
  have hof : slopeOf t pow sqrt m garbageX garbageY garbage dem o := by
    unfold slope at ho
    rw [ht] at ho
    cases t <;> exact ho
  obtain ⟨cells, h1, rfl⟩ := hof
  obtain rfl := (g m hm cells).1 h1
  refine ⟨_, rfl, fun n hn => ?_⟩
  have hcols : 0 < dem.cols := by omega
  have hi : n / dem.cols < dem.rows := by rw [Nat.div_lt_iff_lt_mul hcols]; exact hn
  have hj : n % dem.cols < dem.cols := Nat.mod_lt _ hcols
  have en : n / dem.cols * dem.cols + n % dem.cols = n := by rw [Nat.mul_comm]; exact Nat.div_add_mod n dem.cols
  have hq : valueAt ⟨t.num, dem.rows, dem.cols, dem.origin, dem.cellSizes, out.map Cell.val⟩ n =
      unlessReserved t.num (slopeAt t pow sqrt dem (eightTimes t dem.cellSizes.1) (eightTimes t dem.cellSizes.2)
        (n / dem.cols) (n % dem.cols)) := by
    rw [valueAt]
    simp only [e1]
    simp [hn, unlessReserved]
  rw [hq, slopeAt, en]
  cases hv : valueAt dem n with
  | none => simp [unlessReserved]
  | some v =>
    have hno : isNoData t.num = (fun v => decide (v = reserved t.num)) := by
      funext v
      rw [Bool.eq_iff_iff, isNoData_iff, decide_eq_true_iff]
    have hval : ∀ x y : Nat, x < dem.rows → y < dem.cols →
        ¬ NoDataAt (.detect (fun v => decide (v = reserved t.num))) dem.values (x * dem.cols + y) →
        dem.values[x * dem.cols + y]? = some (.fin (k * 2 ^ e)) := by
      intro x y hx hy hnd
      obtain ⟨u, hu⟩ := has_value h (rowMajor_lt hx hy)
      rw [hu]
      have hur : u ≠ reserved t.num := fun hu' => hnd ⟨u, hu, by simpa using hu'⟩
      have := hflat (x * dem.cols + y) u (by rw [valueAt, hu, ht]; simp [hur])
      rw [this]
    have hnd : ¬ NoDataAt (.detect (fun v => decide (v = reserved t.num))) dem.values n := by
      obtain ⟨g1, g2⟩ := valueAt_some.1 hv
      rintro ⟨w, hw, hr⟩
      rw [g1] at hw
      obtain rfl := Option.some.inj hw
      rw [ht] at g2
      exact g2 (by simpa using hr)
    have hsum := sums_exact (t := t) (e := e) he (isNoData t.num) dem.rows dem.cols dem.values (n / dem.cols)
      (n % dem.cols) (fun _ _ => k) (by
        intro x y h1 h2 h3 h4
        refine ⟨?_, ⟨hk1, hk2⟩, by linarith⟩
        rw [hno]
        unfold surface
        split_ifs with hcond
        · obtain ⟨g1, g2, g3, g4, g5⟩ := hcond
          exact hval _ _ (by omega) (by omega) g5
        · unfold focalAverage
          refine average_wide he ?_ ?_ (around_length _ _ _) hk1 hk
          · have ha : ArgsOk (⟨dem.rows, dem.cols, dem.values, .detect (fun v => decide (v = reserved t.num)), 1,
                List.replicate 9 (.fin 0)⟩ : ConvolveArgs Flt Flt) :=
              ⟨h.size, trivial, rfl, by show 2 * 1 ≤ dem.rows; omega, by show 2 * 1 ≤ dem.cols; omega⟩
            exact around_mem ha (x := x) (y := y) hi hj (by unfold Near; simp only []; omega)
              (by simp only []; rw [en]; exact hnd)
          · intro u hu
            unfold around at hu
            rw [List.mem_filterMap] at hu
            obtain ⟨pq, hpq, hue⟩ := hu
            split_ifs at hue with hc'
            have hm' := mem_imageCells.1 hpq
            have := hval pq.1 pq.2 hm'.1 hm'.2 hc'.2
            rw [this] at hue
            exact (Option.some.inj hue).symm)
    have hr0 : t.round 0 = .fin 0 := by
      have := ofInt_exact (t := t) (k := 0) (by simp)
      simpa [arithmetic] using this
    obtain ⟨s1, s2⟩ := hsum
    have z1 : weightedSum (arithmetic t) (isNoData t.num) weightsX dem.rows dem.cols dem.values (n / dem.cols)
        (n % dem.cols) = .fin 0 := by
      rw [s1, ← hr0]
      congr 1
      push_cast
      ring
    have z2 : weightedSum (arithmetic t) (isNoData t.num) weightsY dem.rows dem.cols dem.values (n / dem.cols)
        (n % dem.cols) = .fin 0 := by
      rw [s2, ← hr0]
      congr 1
      push_cast
      ring
    have hdiv : ∀ w : Flt, (∃ s, EightTimes t s w) → w ≠ .fin 0 → (arithmetic t).div (.fin 0) w = .fin 0 := by
      rintro w ⟨s, d, hd, hw⟩ h0
      have hnan : w ≠ .nan := by
        rintro rfl
        rcases hw with ⟨q, rfl, hq⟩ | ⟨-, h3⟩
        · exact round_not_nan t q (C95_determined t q _ _ (round_rounded t q) hq)
        · subst h3
          exact round_not_nan .double _ (C95_determined .double _ _ _ (round_rounded .double _) hd)
      cases w with
      | nan => exact absurd rfl hnan
      | inf => simp [arithmetic, over]
      | negInf => simp [arithmetic, over]
      | fin q =>
        have : q ≠ 0 := fun hq => h0 (by rw [hq])
        simp [arithmetic, over, this, hr0]
    have hz : (.fin 0 : Flt) ≠ reserved t.num := zero_not_reserved (supported_num t)
    have hkept : Kept (arithmetic t) (reserved t.num) (.fin 0) := ⟨rfl, hz⟩
    have hadd : (arithmetic t).add (.fin 0) (.fin 0) = .fin 0 := by
      have : (arithmetic t).add (.fin 0) (.fin 0) = t.round (0 + 0) := rfl
      rw [this, add_zero, hr0]
    have d1 := hdiv _ ⟨_, hw⟩ hw0
    have d2 := hdiv _ ⟨_, hh⟩ hh0
    have hkeeps : KeepsSlope (arithmetic t) (reserved t.num) pow (eightTimes t dem.cellSizes.1)
        (eightTimes t dem.cellSizes.2) (.fin 0) (.fin 0) := by
      have nz : ∀ w : Flt, w ≠ .fin 0 → (arithmetic t).isZero w = false := by
        intro w hw
        rw [← Bool.not_eq_true, show (arithmetic t).isZero w = true ↔ w = .fin 0 from eq_zero]
        exact hw
      refine ⟨nz _ hw0, nz _ hh0, hkept, hkept, ?_, ?_, ?_, ?_, ?_⟩
      · rw [d1]; exact hkept
      · rw [d2]; exact hkept
      · rw [d1, hpow]; exact hkept
      · rw [d2, hpow]; exact hkept
      · rw [d1, d2, hpow, hadd]; exact hkept
    rw [z1, z2, if_neg (by simp [hkeeps]), slopeValue, d1, d2, hpow, hadd, hsqrt, unlessReserved, if_neg hz]
    rfl

/-- **C120**: in rasters of type `float`, this is so for all values smaller than 2^127. -/
theorem C120_flat_float (pow : Flt → Flt → Flt) (sqrt : Flt → Flt) (dem : Raster) (h : WellFormed dem)
    (ht : dem.type = .f32) (hr : 3 ≤ dem.rows) (hc : 3 ≤ dem.cols)
    (hpow : pow (.fin 0) ((arithmetic .single).ofInt 2) = .fin 0) (hsqrt : sqrt (.fin 0) = .fin 0) (width height : Flt)
    (hw : EightTimes .single dem.cellSizes.1 width) (hh : EightTimes .single dem.cellSizes.2 height)
    (hw0 : width ≠ .fin 0) (hh0 : height ≠ .fin 0) (x : Rat) (hx : Represents .f32 x) (hlarge : |x| < 2 ^ 127)
    (hflat : ∀ i v, valueAt dem i = some v → v = .fin x)
    (m : Execution) (hm : m.Ok) (garbageX garbageY garbage : Nat → Flt) (o : Out Raster)
    (ho : slope pow sqrt m garbageX garbageY garbage dem o) :
    ∃ q, o = .ok q ∧ ∀ i < dem.rows * dem.cols, valueAt q i = (valueAt dem i).map fun _ => .fin 0 := by
  obtain ⟨k, e, hk1, hk2, he1, he2, rfl⟩ : ∃ k e : Int, -2 ^ 24 < k ∧ k < 2 ^ 24 ∧ -149 ≤ e ∧ e ≤ 104 ∧
      x = k * 2 ^ e := by
    obtain ⟨k, e, h1, h2, h3, h4, n, ⟨rfl, rfl⟩ | ⟨rfl, h6⟩⟩ := hx
    · exact ⟨k, n, h1, h2, h3, h4, by rw [zpow_natCast]⟩
    · refine ⟨k, -n, h1, h2, h3, h4, ?_⟩
      rw [← h6, zpow_neg, zpow_natCast, mul_assoc, mul_inv_cancel₀ (by positivity), mul_one]
  have hk : |k| < 2 ^ 24 := abs_lt.2 ⟨hk1, hk2⟩
  refine C120_flat .single pow sqrt dem h ht hr hc hpow hsqrt width height hw hh hw0 hh0 e k ⟨by omega, by omega⟩
    (by linarith) hx ?_ hflat m hm garbageX garbageY garbage o ho
  by_cases h104 : e = 104
  · subst h104
    refine (Twice.of (t := .single) (e := 104) ⟨by decide, by decide⟩ (k := k) ?_).2
    rw [abs_mul, ← Int.cast_abs, abs_of_pos (by positivity : (0 : Rat) < 2 ^ (104 : Int))] at hlarge
    have : ((|k| : Int) : Rat) * 2 ^ (104 : Int) < 2 ^ 23 * 2 ^ (104 : Int) := by
      refine hlarge.trans_eq ?_
      norm_num
    have h2 := lt_of_mul_lt_mul_right this (by positivity)
    have h3 : |k| < 2 ^ 23 := by exact_mod_cast h2
    show 2 * |k| < 2 ^ 24
    omega
  · have := scaled_represents (t := .single) (e := e + 1) (k := k)
      ⟨by show -149 ≤ e + 1; omega, by show e + 1 ≤ 104; omega⟩ hk
    rw [zpow_add₀ (by norm_num), zpow_one] at this
    convert this using 1
    ring

/-! ### One after the other -/

theorem andThen_one {α β : Type} (x : Option α) {f : α → Outcomes β} {g : α → Option β}
    (hf : ∀ a o, f a o ↔ o = g a) (o : Option β) : Outcomes.andThen (.one x) f o ↔ o = x.bind g := by
  cases x with
  | none => simp [Outcomes.andThen, Outcomes.one]
  | some a => simp [Outcomes.andThen, Outcomes.one, hf]

theorem slopeCells_sequential {F : Type} (n : NumOps F) (isNo : F → Bool) (no : F) (pow : F → F → F) (sqrt : F → F)
    (vs : Nat × Nat) (value : List F) (width height : F) (gX gY result : List (Cell F)) (o : Option (List (Cell F))) :
    slopeCells n isNo no pow sqrt .sequential vs value width height gX gY result o ↔
      o = slopeSequential n isNo no pow sqrt vs value width height gX gY result := by
  unfold slopeCells slopeSequential
  simp only [slopeConvolve, convolveRun, ownRun, binaryRun]
  refine andThen_one _ (fun x1 => andThen_one _ fun x2 => andThen_one _ fun y1 => andThen_one _ fun y2 =>
    andThen_one _ fun x3 => andThen_one _ fun y3 => andThen_one _ fun r1 o => Iff.rfl) o

/-- The slope, one cell after the other. -/
theorem slopeOf_sequential (t : FltTy) (pow : Flt → Flt → Flt) (sqrt : Flt → Flt) (gX gY g : Nat → Flt) (dem : Raster)
    (o : Out Raster) : slopeOf t pow sqrt .sequential gX gY g dem o ↔
      o = finish (slopeSequential (arithmetic t) (isNoData t.num) (noData t.num) pow sqrt (dem.rows, dem.cols) dem.values
        (eightTimes t dem.cellSizes.1) (eightTimes t dem.cellSizes.2) (uninitialised gX dem.rows dem.cols)
        (uninitialised gY dem.rows dem.cols) (uninitialised g dem.rows dem.cols)) t.num dem.rows dem.cols dem.origin
        dem.cellSizes := by
  unfold slopeOf
  simp only [slopeCells_sequential]
  exact ⟨by rintro ⟨_, rfl, h⟩; exact h, fun h => ⟨_, rfl, h⟩⟩

/-! ### Examples -/

/-- The square, rounded. -/
def square (t : FltTy) (a _b : Flt) : Flt := times t a a

/-- The square root of squares of rational numbers. -/
def root : Flt → Flt
  | .fin q => .fin ((Nat.sqrt q.num.toNat : Rat) / Nat.sqrt q.den)
  | v => v

/-- A raster of 3 x 3 cells of size 1. -/
def grid (t : FltTy) (values : List Rat) : Raster := ⟨t.num, 3, 3, (0, 0), (1, 1), values.map .fin⟩

theorem eightTimes_one (t : FltTy) : EightTimes t 1 (.fin 8) := by
  rw [eightTimes_iff]
  cases t <;> decide +kernel

/-- Integers that both types can represent. -/
theorem grid_wellFormed (t : FltTy) (values : List Int) (hl : values.length = 9) (hs : ∀ v ∈ values, |v| ≤ 1000) :
    WellFormed (grid t (values.map fun v : Int => (v : Rat))) := by
  refine ⟨by simp [grid, hl], fun v hv => ?_⟩
  simp only [grid, List.map_map, List.mem_map] at hv
  obtain ⟨k, hk, rfl⟩ := hv
  refine represents_small t ((hs k hk).trans ?_)
  cases t <;> decide

/-- The slope, computed; garbage is zero. -/
def computed (t : FltTy) (dem : Raster) : Out Raster :=
  finish (slopeSequential (arithmetic t) (isNoData t.num) (noData t.num) (square t) root (dem.rows, dem.cols) dem.values
    (eightTimes t dem.cellSizes.1) (eightTimes t dem.cellSizes.2) (uninitialised (fun _ => .fin 0) dem.rows dem.cols)
    (uninitialised (fun _ => .fin 0) dem.rows dem.cols) (uninitialised (fun _ => .fin 0) dem.rows dem.cols)) t.num
    dem.rows dem.cols dem.origin dem.cellSizes

theorem exists_slope (t : FltTy) (dem : Raster) (ht : dem.type = t.num) (P : Raster → Prop) [DecidablePred P]
    (h : (match computed t dem with | .ok q => decide (P q) | _ => false) = true) :
    ∃ q, slope (square t) root .sequential (fun _ => .fin 0) (fun _ => .fin 0) (fun _ => .fin 0) dem (.ok q) ∧ P q := by
  have hof : ∀ o, slopeOf t (square t) root .sequential (fun _ => .fin 0) (fun _ => .fin 0) (fun _ => .fin 0) dem o →
      slope (square t) root .sequential (fun _ => .fin 0) (fun _ => .fin 0) (fun _ => .fin 0) dem o := by
    intro o ho
    unfold slope
    rw [ht]
    cases t <;> exact ho
  cases hq : computed t dem with
  | ok q =>
    rw [hq] at h
    exact ⟨q, hof _ ((slopeOf_sequential t _ _ _ _ _ _ _).2 hq.symm), of_decide_eq_true h⟩
  | error => rw [hq] at h; cases h
  | assertion => rw [hq] at h; cases h
  | undefined => rw [hq] at h; cases h

/-- A raster that rises from west to east. -/
example : ∃ q, slope (square .single) root .sequential (fun _ => .fin 0) (fun _ => .fin 0) (fun _ => .fin 0)
    (grid .single [4, 8, 12, 4, 8, 12, 4, 8, 12]) (.ok q) ∧ q.values[4]? = some (.fin 4) :=
  exists_slope .single _ rfl _ (by decide +kernel)

/-- A flat raster, one cell of which is masked. -/
example : ∃ q, slope (square .single) root .sequential (fun _ => .fin 0) (fun _ => .fin 0) (fun _ => .fin 0)
    (grid .single [5, 5, 5, 5, 1 / 2 ^ 126, 5, 5, 5, 5]) (.ok q) ∧
    q.values = [.fin 0, .fin 0, .fin 0, .fin 0, .fin (1 / 2 ^ 126), .fin 0, .fin 0, .fin 0, .fin 0] :=
  exists_slope .single _ rfl _ (by decide +kernel)

/-- Hypotheses of `C120_slope` and of `C120_flat`. -/
example (t : FltTy) : WellFormed (grid t ([5, 5, 5, 5, 5, 5, 5, 5, 5].map fun v : Int => (v : Rat))) ∧
    EightTimes t 1 (.fin 8) ∧ (square t) (.fin 0) ((arithmetic t).ofInt 2) = .fin 0 ∧ root (.fin 0) = .fin 0 ∧
    ∀ i v, valueAt (grid t ([5, 5, 5, 5, 5, 5, 5, 5, 5].map fun v : Int => (v : Rat))) i = some v →
      v = .fin ((5 : Int) * 2 ^ (0 : Int)) := by
  refine ⟨grid_wellFormed t _ rfl (by decide), eightTimes_one t, by cases t <;> decide +kernel, by decide +kernel, ?_⟩
  intro i v h
  obtain ⟨h1, -⟩ := valueAt_some.1 h
  have hm := List.mem_of_getElem? h1
  simp [grid] at hm
  rw [hm]
  norm_num

/-- Hypotheses of `C120_sums` and of `C120_flat_float`: many digits. -/
example : Represents .f32 (16777215 * 2 ^ (-3 : Int)) ∧ Represents .f32 (2 * (16777215 * 2 ^ (-3 : Int))) ∧
    |(16777215 * 2 ^ (-3 : Int) : Rat)| < 2 ^ 127 := by
  have h1 := scaled_represents (t := .single) (e := -3) (k := 16777215) ⟨by decide, by decide⟩ (by decide)
  have h2 := scaled_represents (t := .single) (e := -2) (k := 16777215) ⟨by decide, by decide⟩ (by decide)
  refine ⟨by exact_mod_cast h1, ?_, by norm_num [abs_of_pos]⟩
  have e : (2 * (16777215 * 2 ^ (-3 : Int)) : Rat) = ((16777215 : Int) : Rat) * 2 ^ (-2 : Int) := by norm_num
  rw [e]
  exact h2

/-- Hypotheses of `C120_exact`. -/
example : ∀ x y, 0 ≤ x → x ≤ 0 + 2 → 0 ≤ y → y ≤ 0 + 2 →
    valueAt (grid .single [4, 8, 12, 4, 8, 12, 4, 8, 12]) (x * 3 + y) =
      some (.fin (((4 * (y : Int) + 4 : Int) : Rat) * 2 ^ (0 : Int))) ∧ 8 * |4 * (y : Int) + 4| < 2 ^ FltTy.single.bits := by
  intro x y _ hx _ hy
  have h1 : x = 0 ∨ x = 1 ∨ x = 2 := by omega
  have h2 : y = 0 ∨ y = 1 ∨ y = 2 := by omega
  rcases h1 with rfl | rfl | rfl <;> rcases h2 with rfl | rfl | rfl <;>
    simp only [valueAt, ← noData_eq] <;> decide +kernel

/-- **C120** does not hold without rounding errors: a flat raster of `double` values 0.1 does not have slope zero, also not at the
cell whose eight neighbours all have the same value. -/
theorem C120_flat_false :
    Represents .f64 (3602879701896397 / 2 ^ 55) ∧
    FltTy.double.round (1 / 10) = .fin (3602879701896397 / 2 ^ 55) ∧
    ∃ q, slope (square .double) root .sequential (fun _ => .fin 0) (fun _ => .fin 0) (fun _ => .fin 0)
      (grid .double (List.replicate 9 (3602879701896397 / 2 ^ 55))) (.ok q) ∧ valueAt q 4 = some (.fin (1 / 2 ^ 58)) := by
  refine ⟨(represents_num .double _).2 ⟨3602879701896397, -55, by decide, by decide, by decide, by decide, 55,
      .inr ⟨rfl, by norm_num⟩⟩, by decide +kernel, ?_⟩
  refine exists_slope .double _ rfl (fun q => valueAt q 4 = some (.fin (1 / 2 ^ 58))) ?_
  simp only [valueAt, ← noData_eq]
  decide +kernel

/-- **C120**: the slope of a valid cell is lost if an intermediate value happens to be the one that marks masked cells. The
slope of this cell is 2^-63. -/
theorem C120_reserved_false : ∃ q,
    slope (square .single) root .sequential (fun _ => .fin 0) (fun _ => .fin 0) (fun _ => .fin 0)
      (grid .single [2 / 2 ^ 63, 1 / 2 ^ 63, 0, 2 / 2 ^ 63, 1 / 2 ^ 63, 0, 2 / 2 ^ 63, 1 / 2 ^ 63, 0]) (.ok q) ∧
    valueAt (grid .single [2 / 2 ^ 63, 1 / 2 ^ 63, 0, 2 / 2 ^ 63, 1 / 2 ^ 63, 0, 2 / 2 ^ 63, 1 / 2 ^ 63, 0]) 4 =
      some (.fin (1 / 2 ^ 63)) ∧
    valueAt q 4 = none ∧ valueAt q 3 = some (.fin (1 / 2 ^ 64)) := by
  refine exists_slope .single _ rfl (fun q => _ ∧ valueAt q 4 = none ∧ valueAt q 3 = some (.fin (1 / 2 ^ 64))) ?_
  simp only [valueAt, ← noData_eq]
  decide +kernel

/-- **C120**: all cells of a flat raster of large values are lost: their sums are infinite. -/
theorem C120_large_false : ∃ q,
    slope (square .single) root .sequential (fun _ => .fin 0) (fun _ => .fin 0) (fun _ => .fin 0)
      (grid .single (List.replicate 9 (2 ^ 127))) (.ok q) ∧ ∀ i < 9, valueAt q i = none := by
  refine exists_slope .single _ rfl (fun q => ∀ i < 9, valueAt q i = none) ?_
  simp only [valueAt, ← noData_eq]
  decide +kernel

/-! ### What is refused -/

/-- **C120**: rasters of integers are refused. -/
theorem C120_integers (pow : Flt → Flt → Flt) (sqrt : Flt → Flt) (m : Execution) (gX gY g : Nat → Flt) (dem : Raster)
    (i : IntTy) (h : dem.type = .int i) (o : Out Raster) : slope pow sqrt m gX gY g dem o ↔ o = .assertion := by
  unfold slope
  rw [h]

example : (row (.int .i32) [.fin 1]).type = .int .i32 := rfl

/-- **C120**: rasters of a single row or column (of less than 2^64 - 2 cells) are refused. -/
theorem C120_small (t : FltTy) (pow : Flt → Flt → Flt) (sqrt : Flt → Flt) (m : Execution) (gX gY g : Nat → Flt)
    (dem : Raster) (ht : dem.type = t.num) (hsize : dem.rows * dem.cols + 2 < 2 ^ 64) (h : dem.rows < 2 ∨ dem.cols < 2)
    (o : Out Raster) : slope pow sqrt m gX gY g dem o ↔ o = .assertion := by
  have hof : slope pow sqrt m gX gY g dem o ↔ slopeOf t pow sqrt m gX gY g dem o := by
    unfold slope
    rw [ht]
    cases t <;> rfl
  have key : ∀ cells, slopeCells (arithmetic t) (isNoData t.num) (noData t.num) pow sqrt m (dem.rows, dem.cols) dem.values
      (eightTimes t dem.cellSizes.1) (eightTimes t dem.cellSizes.2) (uninitialised gX dem.rows dem.cols)
      (uninitialised gY dem.rows dem.cols) (uninitialised g dem.rows dem.cols) cells ↔ cells = none := by
    intro cells
    unfold slopeCells
    refine fails_andThen (fun o => ?_) cells
    cases m with
    | sequential =>
      simp only [slopeConvolve, convolveRun, Outcomes.one]
      rw [C52_small _ (by simpa using h) (by simpa using hsize) (by simp [uninitialised])]
    | parallel n =>
      simp only [slopeConvolve, convolveRun]
      rw [C52_small_parallel _ n _ (by rcases h with h | h <;> simp [h])]
      simp [ParResult]
  rw [hof]
  unfold slopeOf
  simp only [key]
  exact ⟨by rintro ⟨_, rfl, h⟩; exact h, fun h => ⟨none, rfl, h⟩⟩

example : (row .f32 [.fin 1, .fin 2]).rows < 2 := by decide

/-- **C120** does not hold for rasters of two rows: cells that do not exist are read. -/
theorem C120_two_rows_false :
    slope (square .single) root .sequential (fun _ => .fin 0) (fun _ => .fin 0) (fun _ => .fin 0)
      ⟨.f32, 2, 3, (0, 0), (1, 1), List.replicate 6 (.fin 1)⟩ .assertion := by
  refine (slopeOf_sequential .single _ _ _ _ _ _ _).2 ?_
  decide +kernel

end Fern.PyFloat
