import Verif.Lemmas.CInt
/-
The range checks of add, subtract and multiply in terms of the mathematical result.
-/
namespace Fern

open IntTy Spec

variable {t1 t2 r : IntTy} {v1 v2 : Int}

theorem addElem_eq (hr : resultInt t1 t2 = some r) (h1 : Fits r v1) (h2 : Fits r v2) :
    addElem t1 t2 v1 v2 =
      if r.promote.signed = true ∧ ¬ Fits r.promote (v1 + v2) then none
      else some ⟨r.wrap (v1 + v2), addRange t1 t2 r v1 v2 (r.wrap (v1 + v2))⟩ := by
  simp only [addElem, hr, Option.bind_eq_bind, Option.bind_some, addCompute_eq h1 h2]
  split <;> rfl

theorem subElem_eq (hr : resultInt t1 t2 = some r) (h1 : Fits r v1) (h2 : Fits r v2) :
    subElem t1 t2 v1 v2 =
      if r.promote.signed = true ∧ ¬ Fits r.promote (v1 - v2) then none
      else some ⟨r.wrap (v1 - v2), subRange t1 t2 r v1 v2 (r.wrap (v1 - v2))⟩ := by
  simp only [subElem, hr, Option.bind_eq_bind, Option.bind_some, subCompute_eq h1 h2]
  split <;> rfl

/-- The range check of unsigned addition. -/
theorem addRange_uu (h1 : t1.signed = false) (h2 : t2.signed = false) {x : Int}
    (hr : r.signed = false) (hx : Fits r x) (hv1 : Fits t1 v1) :
    addRange t1 t2 r v1 v2 x = !decide (x < v1) := by
  simp only [addRange, h1, h2]
  rw [cLt_safe hx hv1 (safe_same hx hv1 (hr.trans h1.symm))]

theorem addRange_ss (h1 : t1.signed = true) (h2 : t2.signed = true) {x : Int}
    (hr : r.signed = true) (hx : Fits r x) (hv1 : Fits t1 v1) (hv2 : Fits t2 v2) :
    addRange t1 t2 r v1 v2 x = if v2 > 0 then !decide (x < v1) else !decide (x > v1) := by
  simp only [addRange, h1, h2]
  rw [cLt_safe hx hv1 (safe_same hx hv1 (hr.trans h1.symm)),
    cGt_safe hx hv1 (safe_same hx hv1 (hr.trans h1.symm)), cGt_zero hv2]
  simp

theorem addRangeSU_eq (h1 : t1.signed = true) {x : Int}
    (hr : r.signed = true) (hx : Fits r x) (hv1 : Fits t1 v1) :
    addRangeSU t1 r v1 x = if v1 > 0 then decide (x ≥ v1) else decide (x ≤ v1) := by
  simp only [addRangeSU]
  rw [cLe_safe hx hv1 (safe_same hx hv1 (hr.trans h1.symm)),
    cGe_safe hx hv1 (safe_same hx hv1 (hr.trans h1.symm)), cGt_zero hv1]
  simp

theorem subRange_uu (h1 : t1.signed = false) (h2 : t2.signed = false) {x : Int}
    (hr : r.signed = false) (hx : Fits r x) (hv1 : Fits t1 v1) :
    subRange t1 t2 r v1 v2 x = !decide (x > v1) := by
  simp only [subRange, h1, h2]
  rw [cGt_safe hx hv1 (safe_same hx hv1 (hr.trans h1.symm))]

theorem subRange_ss (h1 : t1.signed = true) (h2 : t2.signed = true) {x : Int}
    (hr : r.signed = true) (hx : Fits r x) (hv1 : Fits t1 v1) (hv2 : Fits t2 v2) :
    subRange t1 t2 r v1 v2 x = if v2 > 0 then !decide (x > v1) else !decide (x < v1) := by
  simp only [subRange, h1, h2]
  rw [cLt_safe hx hv1 (safe_same hx hv1 (hr.trans h1.symm)),
    cGt_safe hx hv1 (safe_same hx hv1 (hr.trans h1.symm)), cGt_zero hv2]
  simp

theorem subRange_mixed (h : t1.signed ≠ t2.signed) {x : Int} (hx : Fits r x) (hv1 : Fits r v1)
    (hv2 : Fits t2 v2) :
    subRange t1 t2 r v1 v2 x = if v2 > 0 then decide (x < v1) else decide (x ≥ v1) := by
  have e : subRange t1 t2 r v1 v2 x =
      if cGt t2 i32 v2 0 then cLt r r x (r.wrap v1) else cGe r r x (r.wrap v1) := by
    revert h; unfold subRange; cases t1.signed <;> cases t2.signed <;> simp
  rw [e, wrap_fits hv1, cLt_safe hx hv1 (safe_same hx hv1 rfl),
    cGe_safe hx hv1 (safe_same hx hv1 rfl), cGt_zero hv2]
  simp

/-- Division of the maximum of the result type by a value that is not zero. -/
theorem cDiv_max_pos (hs : r.signed = t2.signed) (hv2 : Fits t2 v2) (h0 : 0 < v2) :
    cDiv r t2 r.max v2 = some (r.max.tdiv v2) ∧ Fits (common r t2) (r.max.tdiv v2) ∧
      0 ≤ r.max.tdiv v2 := by
  have hM : 0 ≤ r.max := (max_pos r).le
  have hb := tdiv_bounds hM h0
  have hf : Fits (common r t2) (r.max.tdiv v2) :=
    fits_mono (fits_zero _) (fits_common_left (fits_max r) (.inr hM)) hb.1 hb.2
  exact ⟨cDiv_safe (fits_max r) hv2 (safe_same (fits_max r) hv2 hs) h0.ne' hf, hf, hb.1⟩

theorem cDiv_max_neg (hr : r.signed = true) (h2 : t2.signed = true) (hv2 : Fits t2 v2)
    (h0 : v2 < 0) :
    cDiv r t2 r.max v2 = some (-(r.max.tdiv (-v2))) ∧
      Fits (common r t2) (-(r.max.tdiv (-v2))) := by
  have hM : 0 ≤ r.max := (max_pos r).le
  have hb := tdiv_bounds hM (show 0 < -v2 by omega)
  have hc := common_signed_of hr h2
  have hf : Fits (common r t2) (-(r.max.tdiv (-v2))) :=
    fits_mono (fits_common_left (fits_neg_max hr) (.inl hc))
      (fits_zero _) (by omega) (by omega)
  refine ⟨?_, hf⟩
  have := cDiv_safe (fits_max r) hv2 (safe_same (fits_max r) hv2 (hr.trans h2.symm)) (by omega)
    (by rw [tdiv_neg_right]; exact hf)
  rw [this, tdiv_neg_right]

theorem promote_signed (h : r.signed = true) : r.promote.signed = true := by
  cases r <;> simp [signed] at h <;> rfl

theorem cDiv_negmax_pos (hr : r.signed = true) (h2 : t2.signed = true) (hv2 : Fits t2 v2)
    (h0 : 0 < v2) :
    cDiv r.promote t2 (-r.max) v2 = some (-(r.max.tdiv v2)) ∧
      Fits (common r.promote t2) (-(r.max.tdiv v2)) := by
  have hM : 0 ≤ r.max := (max_pos r).le
  have hb := tdiv_bounds hM h0
  have hp := promote_signed hr
  have hc := common_signed_of hp h2
  have hn : Fits r.promote (-r.max) := fits_promote (fits_neg_max hr)
  have hf : Fits (common r.promote t2) (-(r.max.tdiv v2)) :=
    fits_mono (fits_common_left hn (.inl hc)) (fits_zero _) (by omega) (by omega)
  refine ⟨?_, hf⟩
  have := cDiv_safe hn hv2 (safe_same hn hv2 (hp.trans h2.symm)) (by omega)
    (by rw [Int.neg_tdiv]; exact hf)
  rw [this, Int.neg_tdiv]

theorem cDiv_negmax_neg (hr : r.signed = true) (h2 : t2.signed = true) (hv2 : Fits t2 v2)
    (h0 : v2 < 0) :
    cDiv r.promote t2 (-r.max) v2 = some (r.max.tdiv (-v2)) ∧
      Fits (common r.promote t2) (r.max.tdiv (-v2)) := by
  have hM : 0 ≤ r.max := (max_pos r).le
  have hb := tdiv_bounds hM (show 0 < -v2 by omega)
  have hp := promote_signed hr
  have hc := common_signed_of hp h2
  have hn : Fits r.promote (-r.max) := fits_promote (fits_neg_max hr)
  have hf : Fits (common r.promote t2) (r.max.tdiv (-v2)) :=
    fits_mono (fits_zero _) (fits_common_left (fits_promote (fits_max r)) (.inl hc)) hb.1 hb.2
  have he : (-r.max).tdiv v2 = r.max.tdiv (-v2) := by rw [Int.neg_tdiv, Int.tdiv_neg]
  refine ⟨?_, hf⟩
  rw [cDiv_safe hn hv2 (safe_same hn hv2 (hp.trans h2.symm)) (by omega) (by rw [he]; exact hf), he]

theorem cEq_zero {t : IntTy} {v : Int} (h : Fits t v) : cEq t t v 0 = (v == 0) :=
  cEq_safe h (fits_zero t) (safe_same h (fits_zero t) rfl)

theorem mulRange_uu (h1 : t1.signed = false) (h2 : t2.signed = false) (hr : r.signed = false)
    (hv1 : Fits t1 v1) (hv2 : Fits t2 v2) :
    mulRange t1 t2 r v1 v2 = some (decide (v1 * v2 ≤ r.max)) := by
  have hM := max_pos r
  have hn2 := fits_nonneg h2 hv2
  simp only [mulRange, h1, h2, cEq_zero hv2]
  by_cases h0 : v2 = 0
  · subst h0; simp; omega
  · have hpos : 0 < v2 := by omega
    obtain ⟨hd, hf, hq⟩ := cDiv_max_pos (hr.trans h2.symm) hv2 hpos
    simp only [beq_iff_eq, h0, if_false, hd, Option.bind_eq_bind, Option.bind_some]
    rw [cLe_safe hv1 hf (.inr ⟨fits_nonneg h1 hv1, hq⟩)]
    simp only [le_tdiv_iff hM.le hpos]

theorem mulRange_ss (h1 : t1.signed = true) (h2 : t2.signed = true) (hr : r.signed = true)
    (hv1 : Fits t1 v1) (hv2 : Fits t2 v2) :
    mulRange t1 t2 r v1 v2 = some (decide (-r.max ≤ v1 * v2 ∧ v1 * v2 ≤ r.max)) := by
  have hM := max_pos r
  have hc := common_signed_of hr h2
  have hcp : (common r.promote t2).signed = true := common_signed_of (promote_signed hr) h2
  simp only [mulRange, h1, h2, cEq_zero hv2]
  by_cases h0 : v2 = 0
  · subst h0; simp; omega
  simp only [beq_iff_eq, h0, if_false]
  rw [cGt_safe hv1 (fits_zero t1) (safe_same hv1 (fits_zero t1) rfl),
    cGt_safe hv2 (fits_zero t2) (safe_same hv2 (fits_zero t2) rfl),
    cLt_safe hv2 (fits_zero t2) (safe_same hv2 (fits_zero t2) rfl)]
  by_cases p1 : v1 > 0
  · by_cases p2 : v2 > 0
    · obtain ⟨hd, hf, hq⟩ := cDiv_max_pos (hr.trans h2.symm) hv2 p2
      simp only [p1, p2, decide_true, if_true, hd, Option.bind_eq_bind, Option.bind_some]
      rw [cLe_safe hv1 hf (safe_same hv1 hf (h1.trans hc.symm))]
      have : 0 < v1 * v2 := Int.mul_pos p1 p2
      simp only [le_tdiv_iff hM.le p2, Option.some.injEq, decide_eq_decide]
      omega
    · obtain ⟨hd, hf⟩ := cDiv_max_neg hr h2 hv2 (by omega)
      obtain ⟨hn, hnf⟩ := cNeg_safe h1 hv1 (by omega)
      simp only [p1, p2, decide_true, decide_false, if_true, if_false, hd, hn, Option.bind_eq_bind,
        Option.bind_some, Bool.false_eq_true]
      rw [cGe_safe (fits_promote hnf) hf
        (safe_same (fits_promote hnf) hf ((promote_signed h1).trans hc.symm))]
      have : 0 < v1 * (-v2) := Int.mul_pos p1 (by omega)
      have e := le_tdiv_iff (a := v1) hM.le (show 0 < -v2 by omega)
      rw [Int.mul_neg] at *
      simp only [Option.some.injEq, decide_eq_decide]
      omega
  · by_cases p2 : v2 < 0
    · obtain ⟨hd, hf⟩ := cDiv_max_neg hr h2 hv2 p2
      simp only [p1, p2, decide_true, decide_false, if_true, if_false, hd, Option.bind_eq_bind,
        Option.bind_some, Bool.false_eq_true]
      rw [cGe_safe hv1 hf (safe_same hv1 hf (h1.trans hc.symm))]
      have : 0 ≤ (-v1) * (-v2) := Int.mul_nonneg (by omega) (by omega)
      have e := le_tdiv_iff (a := -v1) hM.le (show 0 < -v2 by omega)
      rw [Int.neg_mul_neg] at *
      simp only [Option.some.injEq, decide_eq_decide]
      omega
    · have p2' : 0 < v2 := by omega
      obtain ⟨hd, hf⟩ := cDiv_negmax_pos hr h2 hv2 p2'
      obtain ⟨hn, -⟩ := cNeg_safe hr (fits_max r) hM.le
      simp only [p1, p2, decide_false, if_false, hd, hn, Option.bind_eq_bind,
        Option.bind_some, Bool.false_eq_true]
      rw [cGe_safe hv1 hf (safe_same hv1 hf (h1.trans hcp.symm))]
      have : 0 ≤ (-v1) * v2 := Int.mul_nonneg (by omega) (by omega)
      have e := le_tdiv_iff (a := -v1) hM.le p2'
      rw [Int.neg_mul] at *
      simp only [Option.some.injEq, decide_eq_decide]
      omega

theorem mulRangeUS_eq (h1 : t1.signed = false) (h2 : t2.signed = true) (hr : r.signed = true)
    (hv1 : Fits t1 v1) (hv2 : Fits t2 v2) :
    mulRangeUS t1 t2 r v1 v2 = some (decide (-r.max ≤ v1 * v2 ∧ v1 * v2 ≤ r.max)) := by
  have hM := max_pos r
  have hn1 := fits_nonneg h1 hv1
  simp only [mulRangeUS, cEq_zero hv2]
  by_cases h0 : v2 = 0
  · subst h0; simp; omega
  simp only [beq_iff_eq, h0, if_false, cGt_zero hv2]
  by_cases p2 : v2 > 0
  · obtain ⟨hd, hf, hq⟩ := cDiv_max_pos (hr.trans h2.symm) hv2 p2
    simp only [p2, decide_true, if_true, hd, Option.bind_eq_bind, Option.bind_some]
    rw [cLe_safe hv1 hf (.inr ⟨hn1, hq⟩)]
    have : 0 ≤ v1 * v2 := Int.mul_nonneg hn1 (by omega)
    simp only [le_tdiv_iff hM.le p2, Option.some.injEq, decide_eq_decide]
    omega
  · have p2' : 0 < -v2 := by omega
    obtain ⟨hd, hf⟩ := cDiv_negmax_neg hr h2 hv2 (by omega)
    obtain ⟨hn, -⟩ := cNeg_safe hr (fits_max r) hM.le
    simp only [p2, decide_false, if_false, hd, hn, Option.bind_eq_bind, Option.bind_some,
      Bool.false_eq_true]
    rw [cLe_safe hv1 hf (.inr ⟨hn1, (tdiv_bounds hM.le p2').1⟩)]
    have : 0 ≤ v1 * (-v2) := Int.mul_nonneg hn1 (by omega)
    have e := le_tdiv_iff (a := v1) hM.le p2'
    rw [Int.mul_neg] at *
    simp only [Option.some.injEq, decide_eq_decide]
    omega

end Fern
