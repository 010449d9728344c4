import Verif.Props.Arith
import Verif.Props.Clamp
import Verif.Spec.IntRaster
namespace Fern.IntRaster

open IntTy Fern.Spec
open _root_.Fern.IntRaster.Spec

/-! ### One pair of values -/

theorem facts {t1 t2 r : IntTy} (h64 : Combinable t1 t2) (hr : resultInt t1 t2 = some r)
    {v1 v2 : Int} (hv1 : Fits t1 v1) (hv2 : Fits t2 v2) :
    Fits r v1 ∧ Fits r v2 ∧ (r.signed = false → t1.signed = false ∧ t2.signed = false) ∧
      ((t1 = u64 ∨ t2 = u64) → t1.signed = t2.signed) := by
  have h : (t1 = u64 ∨ t2 = u64) → t1.signed = t2.signed := by
    obtain ⟨ha, hb⟩ := h64
    rw [signed_iff] at ha hb
    rintro (rfl | rfl)
    · cases h : t2.signed <;> simp_all [signed]
    · cases h : t1.signed <;> simp_all [signed]
  by_cases hs : t1.signed = t2.signed
  · obtain ⟨a, b, c⟩ := resultInt_same hs hr
    exact ⟨b _ hv1, c _ hv2, fun e => ⟨by rw [← a, e], by rw [← hs, ← a, e]⟩, h⟩
  · obtain ⟨a, b, c⟩ := resultInt_mixed hs hr
    exact ⟨b (fun e => hs (h (.inl e))) _ hv1, c (fun e => hs (h (.inr e))) _ hv2, by simp [a], h⟩

theorem stored_wrap (r : IntTy) (x : Int) : Stored r x (r.wrap x) := by
  refine ⟨fits_wrap r x, ?_⟩
  unfold wrap
  split
  · refine ⟨-((x + 2 ^ (r.bits - 1)) / 2 ^ r.bits), ?_⟩
    have := Int.emod_add_mul_ediv (x + 2 ^ (r.bits - 1)) (2 ^ r.bits)
    rw [Int.neg_mul, Int.mul_comm]
    omega
  · refine ⟨-(x / 2 ^ r.bits), ?_⟩
    have := Int.emod_add_mul_ediv x (2 ^ r.bits)
    rw [Int.neg_mul, Int.mul_comm]
    omega

theorem stored_unique {r : IntTy} {x y z : Int} (hy : Stored r x y) (hz : Stored r x z) : y = z := by
  obtain ⟨fy, m, rfl⟩ := hy
  obtain ⟨fz, m', rfl⟩ := hz
  have : m = m' := by
    cases r <;> simp only [Fits, bits] at * <;> omega
  rw [this]

theorem stored_fits {r : IntTy} {x y : Int} (hx : Fits r x) (hy : Stored r x y) : y = x :=
  stored_unique hy ⟨hx, 0, by simp⟩

/-- Evaluating the operator is undefined. -/
def Overflow (op : ArithOp) (r : IntTy) (x : Int) : Prop :=
  (r = i32 ∨ r = i64) ∧ ¬ Fits r x ∨ op = .multiply ∧ r = u16 ∧ 2147483647 < x

theorem narrow_mul_bound {r : IntTy} (hr : r = u8 ∨ r = i8 ∨ r = i16) {v1 v2 : Int}
    (h1 : Fits r v1) (h2 : Fits r v2) : -2147483648 ≤ v1 * v2 ∧ v1 * v2 ≤ 2147483647 := by
  have a1 : -32768 ≤ v1 ∧ v1 ≤ 32768 := by
    rcases hr with rfl | rfl | rfl <;> simp only [Fits] at h1 <;> omega
  have a2 : -32768 ≤ v2 ∧ v2 ≤ 32768 := by
    rcases hr with rfl | rfl | rfl <;> simp only [Fits] at h2 <;> omega
  have b := abs_mul v1 v2
  have c : |v1| * |v2| ≤ 32768 * 32768 :=
    mul_le_mul (abs_le.mpr a1) (abs_le.mpr a2) (abs_nonneg _) (by decide)
  rw [← b, abs_le] at c
  omega

theorem overflow_iff {op : ArithOp} {r : IntTy} {v1 v2 x : Int} (h1 : Fits r v1) (h2 : Fits r v2)
    (hx : exact op v1 v2 = some x) :
    (r.promote.signed = true ∧ ¬ Fits r.promote x) ↔ Overflow op r x := by
  unfold Overflow
  cases op with
  | add =>
    simp only [exact, Option.some.injEq] at hx
    subst hx
    cases r <;> simp only [Fits] at h1 h2 <;> simp [promote, bits, signed, Fits] <;> omega
  | subtract =>
    simp only [exact, Option.some.injEq] at hx
    subst hx
    cases r <;> simp only [Fits] at h1 h2 <;> simp [promote, bits, signed, Fits] <;> omega
  | multiply =>
    simp only [exact, Option.some.injEq] at hx
    have hb := fun hr => narrow_mul_bound (r := r) hr h1 h2
    have hp : r = u16 → 0 ≤ v1 * v2 := by
      rintro rfl
      exact Int.mul_nonneg h1.1 h2.1
    subst hx
    generalize v1 * v2 = x at *
    cases r <;> simp [promote, bits, signed, Fits] at * <;> omega
  | divide =>
    have h0 : v2 ≠ 0 := by
      rintro rfl
      simp [exact] at hx
    simp only [exact, h0, if_false, Option.some.injEq] at hx
    have hb := tdiv_natAbs_le v1 v2
    rw [hx] at hb
    have hp : r.signed = false → 0 ≤ x := by
      intro hs
      rw [← hx]
      exact Int.tdiv_nonneg (fits_nonneg hs h1) (fits_nonneg hs h2)
    cases r <;> simp [promote, bits, signed, Fits] at * <;> omega

theorem compute_spec {op : ArithOp} {t2 r : IntTy} {v1 v2 x : Int} (h1 : Fits r v1)
    (h2 : Fits r v2) (hv2 : Fits t2 v2) (hx : exact op v1 v2 = some x) :
    (Overflow op r x → op.compute t2 r v1 v2 = none) ∧
    (¬ Overflow op r x → op.compute t2 r v1 v2 = some (r.wrap x)) := by
  rw [← overflow_iff h1 h2 hx]
  have key : op.compute t2 r v1 v2 =
      if r.promote.signed = true ∧ ¬ Fits r.promote x then none else some (r.wrap x) := by
    cases op with
    | add =>
      simp only [exact, Option.some.injEq] at hx
      subst hx
      exact addCompute_eq h1 h2
    | subtract =>
      simp only [exact, Option.some.injEq] at hx
      subst hx
      exact subCompute_eq h1 h2
    | multiply =>
      simp only [exact, Option.some.injEq] at hx
      subst hx
      exact mulCompute_eq h1 h2
    | divide =>
      have h0 : v2 ≠ 0 := by
        rintro rfl
        simp [exact] at hx
      simp only [exact, h0, if_false, Option.some.injEq] at hx
      subst hx
      have hdom : cNe t2 t2 v2 0 = true := by
        rw [cNe_safe hv2 (fits_zero t2) (safe_same hv2 (fits_zero t2) rfl)]; simpa using h0
      have hcd : cDiv r r v1 v2 = r.promote.arith (v1.tdiv v2) := by
        rw [cDiv, wrap_common_self h1, wrap_common_self h2, if_neg h0, common_self]
      have := compute_eq r (v1.tdiv v2)
      rw [common_self] at this
      simp only [ArithOp.compute, divCompute, hdom, assert', if_true, Option.bind_eq_bind,
        Option.bind_some, wrap_fits h1, wrap_fits h2, hcd, this]
  rw [key]
  exact ⟨fun h => if_pos h, fun h => if_neg h⟩

theorem withinDomain_iff {op : ArithOp} {t2 : IntTy} {v1 v2 : Int} (hv2 : Fits t2 v2) :
    op.withinDomain t2 v2 = true ↔ exact op v1 v2 ≠ none := by
  cases op with
  | divide =>
    simp only [ArithOp.withinDomain, divDomain]
    rw [cNe_safe hv2 (fits_zero t2) (safe_same hv2 (fits_zero t2) rfl)]
    by_cases h : v2 = 0 <;> simp [exact, h]
  | _ => simp [ArithOp.withinDomain, exact]

theorem divide_by_zero {op : ArithOp} {t2 r : IntTy} {v1 v2 : Int} (hv2 : Fits t2 v2)
    (h : exact op v1 v2 = none) : op.compute t2 r v1 v2 = none := by
  have := (withinDomain_iff (v1 := v1) hv2).not.mpr (by simpa using h)
  cases op with
  | divide =>
    simp only [ArithOp.withinDomain, divDomain] at this
    simp [ArithOp.compute, divCompute, assert', this]
  | _ => simp [exact] at h

theorem range_add {t1 t2 r : IntTy} (h64 : Combinable t1 t2) (hr : resultInt t1 t2 = some r)
    {v1 v2 y : Int} (hv1 : Fits t1 v1) (hv2 : Fits t2 v2) (hy : addCompute r v1 v2 = some y) :
    addRange t1 t2 r v1 v2 y = true ↔
      Accepted .add ⟨true, true⟩ t1 t2 r v1 v2 (v1 + v2) := by
  have he : addElem t1 t2 v1 v2 = some ⟨y, addRange t1 t2 r v1 v2 y⟩ := by simp [addElem, hr, hy]
  simp only [Accepted, Bool.true_eq_false, false_or]
  cases s1 : t1.signed <;> cases s2 : t2.signed
  · obtain ⟨o, ho, -, hi⟩ := C26_add_unsigned t1 t2 r ((unsigned_iff _).mpr s1)
      ((unsigned_iff _).mpr s2) hr v1 v2 hv1 hv2
    rw [he, Option.some.injEq] at ho
    subst ho
    simp [hi, signed_iff, s1, s2]
  · have h1 := (unsigned_iff _).mpr s1
    have h2 := (signed_iff _).mpr s2
    obtain ⟨-, hsym, hi⟩ := C28_add_mixed t2 t1 r h2 h1 (fun e => h64.1 ⟨e, h2⟩)
      ((resultInt_comm t2 t1).trans hr) v2 v1 hv2 hv1
    rw [← hsym] at hi
    have := (hi _ he).2
    simp only at this
    rw [this, Int.add_comm v2 v1]
    simp [h1, h2, signed_iff t1, s1]
  · have h1 := (signed_iff _).mpr s1
    have h2 := (unsigned_iff _).mpr s2
    obtain ⟨-, -, hi⟩ := C28_add_mixed t1 t2 r h1 h2 (fun e => h64.2 ⟨h1, e⟩) hr v1 v2 hv1 hv2
    have := (hi _ he).2
    simp only at this
    rw [this]
    simp [h1, h2, unsigned_iff t1, s1]
  · have h1 := (signed_iff _).mpr s1
    have h2 := (signed_iff _).mpr s2
    simp only [unsigned_iff, s1, s2]
    by_cases hn : Narrow r
    · obtain ⟨o, ho, -, hi⟩ := C27_add_signed_narrow t1 t2 r h1 h2 hr hn v1 v2 hv1 hv2
      rw [he, Option.some.injEq] at ho
      subst ho
      simp [hi]
    · obtain ⟨ha, hb⟩ := C27_add_signed_wide t1 t2 r h1 h2 hr hn v1 v2 hv1 hv2
      by_cases hf : Fits r (v1 + v2)
      · have := hb hf
        rw [he, Option.some.injEq, Outcome.mk.injEq] at this
        simp [this.2, hf]
      · rw [ha.mpr hf] at he
        exact absurd he (by simp)

theorem range_sub {t1 t2 r : IntTy} (h64 : Combinable t1 t2) (hr : resultInt t1 t2 = some r)
    {v1 v2 y : Int} (hv1 : Fits t1 v1) (hv2 : Fits t2 v2) (hy : subCompute r v1 v2 = some y) :
    subRange t1 t2 r v1 v2 y = true ↔ Fits r (v1 - v2) := by
  have he : subElem t1 t2 v1 v2 = some ⟨y, subRange t1 t2 r v1 v2 y⟩ := by simp [subElem, hr, hy]
  cases s1 : t1.signed <;> cases s2 : t2.signed
  · obtain ⟨o, ho, -, hi⟩ := C29_subtract_unsigned t1 t2 r ((unsigned_iff _).mpr s1)
      ((unsigned_iff _).mpr s2) hr v1 v2 hv1 hv2
    rw [he, Option.some.injEq] at ho
    subst ho
    exact hi
  · have h1 := (unsigned_iff _).mpr s1
    have h2 := (signed_iff _).mpr s2
    exact ((C29_subtract_mixed t1 t2 r (.inr ⟨h1, h2⟩)
      ⟨fun e => h64.1 ⟨e, h2⟩, fun e => by simp [e, signed] at s2⟩ hr v1 v2 hv1 hv2).2 _ he).2
  · have h1 := (signed_iff _).mpr s1
    have h2 := (unsigned_iff _).mpr s2
    exact ((C29_subtract_mixed t1 t2 r (.inl ⟨h1, h2⟩)
      ⟨fun e => by simp [e, signed] at s1, fun e => h64.2 ⟨h1, e⟩⟩ hr v1 v2 hv1 hv2).2 _ he).2
  · have h1 := (signed_iff _).mpr s1
    have h2 := (signed_iff _).mpr s2
    by_cases hn : Narrow r
    · obtain ⟨o, ho, -, hi⟩ := C29_subtract_signed_narrow t1 t2 r h1 h2 hr hn v1 v2 hv1 hv2
      rw [he, Option.some.injEq] at ho
      subst ho
      exact hi
    · obtain ⟨ha, hb⟩ := C29_subtract_signed_wide t1 t2 r h1 h2 hr hn v1 v2 hv1 hv2
      by_cases hf : Fits r (v1 - v2)
      · have := hb hf
        rw [he, Option.some.injEq, Outcome.mk.injEq] at this
        simp [this.2, hf]
      · rw [ha.mpr hf] at he
        exact absurd he (by simp)

theorem mulElem_of {t1 t2 r : IntTy} (hr : resultInt t1 t2 = some r) {v1 v2 y : Int} {w : Bool}
    (hy : mulCompute r v1 v2 = some y) (hw : mulRange t1 t2 r v1 v2 = some w) :
    mulElem t1 t2 v1 v2 = some ⟨y, w⟩ := by
  simp [mulElem, hr, hy, hw]

theorem range_mul {t1 t2 r : IntTy} (hr : resultInt t1 t2 = some r)
    {v1 v2 y : Int} (hv1 : Fits t1 v1) (hv2 : Fits t2 v2) (hy : mulCompute r v1 v2 = some y) :
    ∃ w, mulRange t1 t2 r v1 v2 = some w ∧ (w = true ↔
      Accepted .multiply ⟨true, true⟩ t1 t2 r v1 v2 (v1 * v2)) := by
  simp only [Accepted, Bool.true_eq_false, false_or]
  cases s1 : t1.signed <;> cases s2 : t2.signed
  · have h1 := (unsigned_iff _).mpr s1
    have h2 := (unsigned_iff _).mpr s2
    obtain ⟨hs, -, -⟩ := resultInt_same (s1.trans s2.symm) hr
    have hw := mulRange_uu s1 s2 (hs.trans s1) hv1 hv2
    refine ⟨_, hw, ?_⟩
    have he := mulElem_of hr hy hw
    have := ((C30_multiply_unsigned t1 t2 r h1 h2 hr v1 v2 hv1 hv2).2 _ he).2
    simpa [h1, h2] using this
  · have h1 := (unsigned_iff _).mpr s1
    have h2 := (signed_iff _).mpr s2
    obtain ⟨hs, -, -⟩ := resultInt_mixed (by simp [s1, s2]) hr
    have hw := mulRangeUS_eq s1 s2 hs hv1 hv2
    have e : mulRange t1 t2 r v1 v2 = mulRangeUS t1 t2 r v1 v2 := by simp [mulRange, s1, s2]
    rw [← e] at hw
    refine ⟨_, hw, ?_⟩
    have he := mulElem_of hr hy hw
    have := (C30_multiply_mixed t1 t2 r h1 h2 hr v1 v2 hv1 hv2 _ (.inl he)).2
    simpa [unsigned_iff, s1, s2] using this
  · have h1 := (signed_iff _).mpr s1
    have h2 := (unsigned_iff _).mpr s2
    obtain ⟨hs, -, -⟩ := resultInt_mixed (by simp [s1, s2]) hr
    have hw := mulRangeUS_eq s2 s1 hs hv2 hv1
    have e : mulRange t1 t2 r v1 v2 = mulRangeUS t2 t1 r v2 v1 := by simp [mulRange, s1, s2]
    rw [← e] at hw
    refine ⟨_, hw, ?_⟩
    have he := mulElem_of hr hy hw
    have := (C30_multiply_mixed t2 t1 r h2 h1 ((resultInt_comm t2 t1).trans hr) v2 v1 hv2 hv1 _
      (.inr he)).2
    rw [Int.mul_comm v2 v1] at this
    simpa [unsigned_iff, s1, s2, Int.mul_comm v2 v1] using this
  · have h1 := (signed_iff _).mpr s1
    have h2 := (signed_iff _).mpr s2
    obtain ⟨hs, -, -⟩ := resultInt_same (s1.trans s2.symm) hr
    have hw := mulRange_ss s1 s2 (hs.trans s1) hv1 hv2
    refine ⟨_, hw, ?_⟩
    have he := mulElem_of hr hy hw
    have := ((C30_multiply_signed t1 t2 r h1 h2 hr v1 v2 hv1 hv2).2 _ he).2
    simpa [unsigned_iff, s1, s2] using this

theorem range_spec {op : ArithOp} {t1 t2 r : IntTy} (h64 : Combinable t1 t2)
    (hr : resultInt t1 t2 = some r) {v1 v2 x y : Int} (hv1 : Fits t1 v1) (hv2 : Fits t2 v2)
    (hx : exact op v1 v2 = some x) (hy : op.compute t2 r v1 v2 = some y) :
    ∃ w, op.withinRange t1 t2 r v1 v2 y = some w ∧
      (w = true ↔ Accepted op ⟨true, true⟩ t1 t2 r v1 v2 x) := by
  cases op with
  | add =>
    simp only [exact, Option.some.injEq] at hx
    subst hx
    exact ⟨_, rfl, range_add h64 hr hv1 hv2 hy⟩
  | subtract =>
    simp only [exact, Option.some.injEq] at hx
    subst hx
    refine ⟨_, rfl, ?_⟩
    simpa [Accepted] using range_sub h64 hr hv1 hv2 hy
  | multiply =>
    simp only [exact, Option.some.injEq] at hx
    subst hx
    exact range_mul hr hv1 hv2 hy
  | divide => exact ⟨true, rfl, by simp [Accepted]⟩

theorem accepted_iff {op : ArithOp} {d : Bool} {t1 t2 r : IntTy} {v1 v2 x : Int} :
    Accepted op ⟨d, true⟩ t1 t2 r v1 v2 x ↔ Accepted op ⟨true, true⟩ t1 t2 r v1 v2 x := by
  cases op <;> simp [Accepted]

/-- What happens to a pair of valid values. -/
theorem pairActs_spec (op : ArithOp) (k : Checks) {t1 t2 r : IntTy} (h64 : Combinable t1 t2)
    (hr : resultInt t1 t2 = some r) (outp : OutPolicy Int) {v1 v2 : Int} (hv1 : Fits t1 v1)
    (hv2 : Fits t2 v2) :
    (Undefined op k r v1 v2 → pairActs op k t1 t2 r outp v1 v2 = none) ∧
    (¬ Undefined op k r v1 v2 → ∃ fs, pairActs op k t1 t2 r outp v1 v2 = some fs ∧
      ∀ c, PairCell op k t1 t2 r outp v1 v2 c (foldActs fs c)) := by
  obtain ⟨g1, g2, -, -⟩ := facts h64 hr hv1 hv2
  have hd := withinDomain_iff (op := op) (v1 := v1) hv2
  obtain ⟨d, k⟩ := k
  cases hx : exact op v1 v2 with
  | none =>
    have hd' : op.withinDomain t2 v2 = false := by
      simpa [hx] using hd
    cases d with
    | true =>
      refine ⟨fun h => ?_, fun _ => ⟨[outp.mark], by simp [pairActs, hd'], fun c => ⟨fun _ => ?_, ?_⟩⟩⟩
      · simp [Undefined, hx] at h
      · exact mark_spec outp c
      · simp [hx]
    | false =>
      refine ⟨fun _ => ?_, fun h => absurd (.inr ⟨hx, rfl⟩) h⟩
      simp [pairActs, divide_by_zero hv2 hx]
  | some x =>
    have hd' : op.withinDomain t2 v2 = true := hd.mpr (by simp [hx])
    have hu : Undefined op ⟨d, k⟩ r v1 v2 ↔ Overflow op r x := by
      simp [Undefined, Overflow, hx]
    rw [hu]
    obtain ⟨ha, hb⟩ := compute_spec (op := op) g1 g2 hv2 hx
    refine ⟨fun h => by simp [pairActs, hd', ha h], fun h => ?_⟩
    have hy := hb h
    obtain ⟨w, hw, hi⟩ := range_spec h64 hr hv1 hv2 hx hy
    cases k with
    | true =>
      refine ⟨[storeAct (r.wrap x), fun c => if w then c else outp.mark c],
        by simp [pairActs, hd', hy, hw], fun c => ⟨by simp [hx], fun x' hx' => ?_⟩⟩
      have : x' = x := by rw [hx] at hx'; exact (Option.some.inj hx').symm
      subst this
      rw [accepted_iff, ← hi]
      refine ⟨_, stored_wrap r x', fun hw => ?_, fun hw => ?_⟩
      · simp [foldActs, storeAct, hw]
      · have hw' : w = false := by simpa using hw
        simpa [foldActs, storeAct, hw'] using mark_spec outp ⟨r.wrap x', c.masked⟩
    | false =>
      refine ⟨[storeAct (r.wrap x), fun c => if true then c else outp.mark c],
        by simp [pairActs, hd', hy], fun c => ⟨by simp [hx], fun x' hx' => ?_⟩⟩
      have : x' = x := by rw [hx] at hx'; exact (Option.some.inj hx').symm
      subst this
      refine ⟨_, stored_wrap r x', fun _ => ?_, fun hw => absurd (.inl rfl) hw⟩
      simp [foldActs, storeAct]

/-! ### Loops -/

theorem mapM_fails {α β : Type} {f : α → Option β} {l : List α} {a : α} (ha : a ∈ l)
    (h : f a = none) : l.mapM f = none := by
  induction l with
  | nil => simp at ha
  | cons b l ih =>
    rw [List.mapM_cons]
    rcases List.mem_cons.mp ha with rfl | ha
    · simp [h]
    · cases f b <;> simp [ih ha]

theorem parTasks_fails {γ : Type} {acts : Nat → Option (List (γ → γ))} {blocks : List (List Nat)}
    {i : Nat} (hi : i ∈ blocks.flatten) (h : acts i = none) : parTasks acts blocks = none := by
  obtain ⟨b, hb, hib⟩ := List.mem_flatten.mp hi
  refine mapM_fails hb ?_
  rw [taskActs, mapM_fails hib (by simp [h])]
  rfl

theorem computesUnless_d1 {γ : Type} {acts : Nat → Option (List (γ → γ))}
    {P : Nat → γ → γ → Prop} {n : Nat} {bad : Prop} {res : List γ} (hs : res.length = n)
    (hg : ¬ bad → ActsOk acts P n) (hb : bad → ∃ i < n, acts i = none) :
    ComputesUnless bad (some (.d1 n acts)) P res := by
  refine ⟨fun h => computes_d1 (hg h) hs, fun h => ?_⟩
  obtain ⟨i, hi, hn⟩ := hb h
  refine ⟨runSeq_fails hi hn res, fun t ht o => ?_⟩
  obtain ⟨blocks, hbl⟩ := blocks1d_isSome ht n
  have : runTasks t (some (ElemLoop.d1 n acts)) = none := by
    simp only [runTasks, ElemLoop.tasks, hbl, Option.bind_some]
    exact parTasks_fails (by rw [blocks1d_flatten hbl]; simpa using hi) hn
  rw [this]
  exact Iff.rfl

theorem computesUnless_d2 {γ : Type} {acts : Nat → Option (List (γ → γ))}
    {P : Nat → γ → γ → Prop} {n1 n2 : Nat} {bad : Prop} {res : List γ} (hs : res.length = n1 * n2)
    (hg : ¬ bad → ActsOk acts P (n1 * n2)) (hb : bad → ∃ i < n1 * n2, acts i = none) :
    ComputesUnless bad (some (.d2 n1 n2 n2 acts)) P res := by
  refine ⟨fun h => computes_d2 (hg h) hs, fun h => ?_⟩
  obtain ⟨i, hi, hn⟩ := hb h
  refine ⟨runSeq2_fails hi hn res, fun t ht o => ?_⟩
  obtain ⟨blocks, hbl⟩ := blocks2d_isSome ht n1 n2 n2
  have : runTasks t (some (ElemLoop.d2 n1 n2 n2 acts)) = none := by
    simp only [runTasks, ElemLoop.tasks, hbl, Option.bind_some]
    exact parTasks_fails (by rw [blocks2d_flatten hbl]; simpa using hi) hn
  rw [this]
  exact Iff.rfl

/-- The value of an argument at a position. -/
theorem hasAt_exists {a : Arg Int} {p : InPolicy Int} {n i : Nat} (h : a.Fits p n) (hi : i < n) :
    ∃ v, a.HasAt i v := by
  cases a with
  | scalar v => exact ⟨v, rfl⟩
  | array l =>
    have : i < l.length := by have := h.1; omega
    exact ⟨l[i], by simp [Arg.HasAt, this]⟩

theorem hasAt_ofType {a : Arg Int} {t : IntTy} (h : OfType t a) {i : Nat} {v : Int}
    (hv : a.HasAt i v) : Fits t v := by
  cases a with
  | scalar w => exact (Eq.symm hv : w = v) ▸ h
  | array l => exact h v (List.mem_of_getElem? hv)

/-- A body that marks the element if one of the arguments is no-data and otherwise treats the pair of
values. -/
theorem body_spec {op : ArithOp} {k : Checks} {t1 t2 r : IntTy} (h64 : Combinable t1 t2)
    (hr : resultInt t1 t2 = some r) {f : Int → Int} (hf : ∀ v, Fits t2 v → Fits t2 (f v))
    {in1 in2 : InPolicy Int} {outp : OutPolicy Int} {a1 a2 : Arg Int} {n : Nat}
    (h1 : a1.Fits in1 n) (h2 : a2.Fits in2 n) (o1 : OfType t1 a1) (o2 : OfType t2 a2)
    {acts : Nat → Option (List (Cell Int → Cell Int))}
    (hnd : ∀ i < n, a1.NoData in1 i ∨ a2.NoData in2 i → acts i = some [outp.mark])
    (hv : ∀ i < n, ¬ (a1.NoData in1 i ∨ a2.NoData in2 i) → ∀ v1 v2, a1.HasAt i v1 → a2.HasAt i v2 →
      acts i = pairActs op k t1 t2 r outp v1 (f v2)) :
    (¬ Bad op k r f in1 in2 a1 a2 n →
      ActsOk acts (RasterCell op k t1 t2 r f in1 in2 outp a1 a2) n) ∧
    (Bad op k r f in1 in2 a1 a2 n → ∃ i < n, acts i = none) := by
  constructor
  · intro hb i hi
    by_cases hd : a1.NoData in1 i ∨ a2.NoData in2 i
    · exact ⟨_, hnd i hi hd, fun c => ⟨fun _ => mark_spec outp c, fun h => absurd hd h⟩⟩
    · obtain ⟨v1, e1⟩ := hasAt_exists h1 hi
      obtain ⟨v2, e2⟩ := hasAt_exists h2 hi
      obtain ⟨-, hs⟩ := pairActs_spec op k h64 hr outp (hasAt_ofType o1 e1)
        (hf _ (hasAt_ofType o2 e2))
      obtain ⟨fs, hfs, hc⟩ := hs (fun hu => hb ⟨i, hi, hd, v1, v2, e1, e2, hu⟩)
      exact ⟨fs, (hv i hi hd v1 v2 e1 e2).trans hfs,
        fun c => ⟨fun h => absurd h hd, fun _ => ⟨v1, v2, e1, e2, hc c⟩⟩⟩
  · rintro ⟨i, hi, hd, v1, v2, e1, e2, hu⟩
    refine ⟨i, hi, ?_⟩
    rw [hv i hi hd v1 v2 e1 e2]
    exact (pairActs_spec op k h64 hr outp (hasAt_ofType o1 e1) (hf _ (hasAt_ofType o2 e2))).1 hu

end Fern.IntRaster
