import Verif.Spec.FloatRaster
import Verif.Lemmas.PairLoop
import Verif.Props.FloatArith
import Verif.Props.Cast
import Mathlib.Tactic.SplitIfs
namespace Fern.FloatRaster

open Fern.Domains Fern.Spec Fern.FloatArith Fern.Casts
open Fern.IntRaster (ArithOp Checks)
open Fern.Casts.Spec (IntegerPart opposite OfType)
open Fern.FloatArith.Spec (Rounded TooLarge larger)
open _root_.Fern.FloatRaster.Spec
open _root_.Fern.PairLoop (PairOk)

/-! ### Types -/

theorem resultType_cases {t1 t2 : NumTy} {r : FltTy} (h : resultType t1 t2 = some r) :
    (∃ s t : FltTy, t1 = s.num ∧ t2 = t.num ∧ r = larger s t) ∨ (∃ k, t1 = .int k ∧ t2 = r.num) ∨
      ∃ k, t1 = r.num ∧ t2 = .int k := by
  cases t1 with
  | bool => cases t2 <;> simp [resultType, resultValue] at h
  | int k =>
    cases t2 with
    | bool => simp [resultType, resultValue] at h
    | int k' =>
      simp only [resultType, resultValue] at h
      cases h' : resultInt k k' <;> rw [h'] at h <;> simp at h
    | f32 => right; left; exact ⟨k, rfl, by simp [resultType, resultValue] at h; subst h; rfl⟩
    | f64 => right; left; exact ⟨k, rfl, by simp [resultType, resultValue] at h; subst h; rfl⟩
  | f32 =>
    cases t2 with
    | bool => simp [resultType, resultValue] at h
    | int k => right; right; exact ⟨k, by simp [resultType, resultValue] at h; subst h; rfl, rfl⟩
    | f32 => left; exact ⟨.single, .single, rfl, rfl, by simp [resultType, resultValue] at h; subst h; rfl⟩
    | f64 => left; exact ⟨.single, .double, rfl, rfl, by simp [resultType, resultValue] at h; subst h; rfl⟩
  | f64 =>
    cases t2 with
    | bool => simp [resultType, resultValue] at h
    | int k => right; right; exact ⟨k, by simp [resultType, resultValue] at h; subst h; rfl, rfl⟩
    | f32 => left; exact ⟨.double, .single, rfl, rfl, by simp [resultType, resultValue] at h; subst h; rfl⟩
    | f64 => left; exact ⟨.double, .double, rfl, rfl, by simp [resultType, resultValue] at h; subst h; rfl⟩

theorem num_not_int (t : FltTy) (k : IntTy) : t.num ≠ .int k := by cases t <;> simp [FltTy.num]

theorem finite_iff {v : Flt} : v.isFinite = true ↔ IsNumber v := by
  cases v <;> simp [Flt.isFinite, IsNumber]

theorem not_finite_iff {v : Flt} : v.isFinite = false ↔ ¬ IsNumber v := by
  rw [← finite_iff, Bool.not_eq_true]

/-! ### Conversions -/

theorem cast_operand (s : NumTy) (r : FltTy) (v w : Flt) : castTo s r.num v = some w ↔ Operand r v w := by
  by_cases h : v.isFinite = false
  · rw [castTo_num_special s r h, Option.some.injEq]
    have hf := not_finite_iff.mp h
    constructor
    · rintro rfl; exact .inr ⟨hf, rfl⟩
    · rintro (⟨q, rfl, -⟩ | ⟨-, rfl⟩)
      · exact absurd ⟨q, rfl⟩ hf
      · rfl
  · obtain ⟨q, rfl⟩ := finite_iff.mp (by simpa using h)
    rw [castTo_num, Option.some.injEq]
    constructor
    · rintro rfl; exact .inl ⟨q, rfl, round_rounded r q⟩
    · rintro (⟨q', hq, hr⟩ | ⟨hf, -⟩)
      · cases hq
        exact C95_determined r q _ _ (round_rounded r q) hr
      · exact absurd ⟨q, rfl⟩ hf

theorem integerPart_trunc (q : Rat) : IntegerPart q (truncRat q) := C85_trunc q

theorem integerPart_unique {q : Rat} {n m : Int} (hn : IntegerPart q n) (hm : IntegerPart q m) : n = m := by
  rcases le_total 0 q with h | h
  · obtain ⟨a, b⟩ := hn.1 h
    obtain ⟨c, d⟩ := hm.1 h
    have e1 : (n : Rat) < m + 1 := by linarith
    have e2 : (m : Rat) < n + 1 := by linarith
    have e1 : n < m + 1 := by exact_mod_cast e1
    have e2 : m < n + 1 := by exact_mod_cast e2
    omega
  · obtain ⟨a, b⟩ := hn.2 h
    obtain ⟨c, d⟩ := hm.2 h
    have e1 : (n : Rat) - 1 < m := by linarith
    have e2 : (m : Rat) - 1 < n := by linarith
    have e1 : n - 1 < m := by exact_mod_cast e1
    have e2 : m - 1 < n := by exact_mod_cast e2
    omega

theorem cast_integer (s : FltTy) (t : IntTy) (v w : Flt) :
    castTo s.num (.int t) v = some w ↔ ConvertsTo (.int t) v w := by
  obtain ⟨h1, h2, h3, h4⟩ := C91_truncated s.num (by cases s <;> simp [FltTy.num]) t
  have hs : ConvertsTo (.int t) v w ↔
      ∃ q n, v = .fin q ∧ IntegerPart q n ∧ Fits t n ∧ w = .fin n := by
    constructor
    · rintro (⟨t', q, n, ht, hv, hi, hf, hw⟩ | ⟨t', ht, -⟩)
      · cases ht; exact ⟨q, n, hv, hi, hf, hw⟩
      · exact absurd ht.symm (num_not_int t' t)
    · rintro ⟨q, n, hv, hi, hf, hw⟩
      exact .inl ⟨t, q, n, rfl, hv, hi, hf, hw⟩
  rw [hs]
  cases v with
  | inf => simp [h2]
  | negInf => simp [h3]
  | nan => simp [h4]
  | fin q =>
    rw [h1 q _ (integerPart_trunc q)]
    constructor
    · intro h
      split at h
      · rename_i hf
        exact ⟨q, _, rfl, integerPart_trunc q, hf, (Option.some.inj h).symm⟩
      · cases h
    · rintro ⟨q', n, hq, hi, hf, rfl⟩
      cases hq
      rw [integerPart_unique (integerPart_trunc q) hi, if_pos hf]

theorem cast_float (s : NumTy) (r : FltTy) (v w : Flt) :
    castTo s r.num v = some w ↔ ConvertsTo r.num v w := by
  rw [cast_operand]
  constructor
  · exact fun h => .inr ⟨r, rfl, h⟩
  · rintro (⟨t, q, n, ht, -⟩ | ⟨t, ht, h⟩)
    · exact absurd ht (num_not_int r t)
    · have : t = r := by cases t <;> cases r <;> simp [FltTy.num] at ht ⊢
      exact this ▸ h

/-- What passing through the type of the first value does. -/
theorem through_iff {t1 t2 : NumTy} {r : FltTy} (hr : resultType t1 t2 = some r) (v w : Flt) :
    through t1 t2 v = some w ↔ Passed t1 t2 v w := by
  rw [through, Option.bind_eq_some_iff]
  refine exists_congr fun u => ?_
  rcases resultType_cases hr with ⟨s, t, rfl, rfl, -⟩ | ⟨k, rfl, rfl⟩ | ⟨k, rfl, rfl⟩
  · rw [cast_float, cast_float]
  · rw [cast_integer, cast_float]
  · rw [cast_float, cast_integer]

/-! ### One pair of values -/

/-- The values of the type are not too large for the floating point type. -/
theorem operand_facts {t : NumTy} {r : FltTy}
    (ht : (∃ k, t = .int k) ∨ ∃ s : FltTy, t = s.num ∧ ∀ x, Represents t x → Represents r.num x)
    {v a : Flt} (hv : OfType t v) (ha : Operand r v a) :
    (IsNumber a ↔ IsNumber v) ∧ (a = .fin 0 ↔ v = .fin 0) ∧
      ((∃ k, t = .int k) → ∃ x, a = .fin x ∧ |x| ≤ 2 ^ 64) ∧
      ((∃ s : FltTy, t = s.num) → a = v) := by
  rcases ht with ⟨k, rfl⟩ | ⟨s, rfl, hs⟩
  · cases v with
    | fin q =>
      obtain ⟨i, rfl, hi⟩ : ∃ i : Int, q = i ∧ Fits k i := hv
      obtain ⟨x, hx, hb⟩ := int_rounded r hi
      have hax : a = .fin x := by
        rcases ha with ⟨q, hq, h⟩ | ⟨h, -⟩
        · cases hq
          rw [← hx]
          exact C95_determined r _ _ _ h (round_rounded r _)
        · exact absurd ⟨_, rfl⟩ h
      subst hax
      refine ⟨⟨fun _ => ⟨_, rfl⟩, fun _ => ⟨_, rfl⟩⟩, ?_, fun _ => ⟨x, rfl, hb⟩,
        fun ⟨s, h⟩ => absurd h.symm (num_not_int s k)⟩
      have zero : Represents r.num (0 : Rat) := by
        simpa using represents_small r (i := 0) (by cases r <;> decide)
      constructor
      · intro h
        by_cases h0 : i = 0
        · simp [h0]
        · obtain ⟨x', -, hx', hr', -, -⟩ := C95_divided_by_integer r k i 0 hi zero h0
          have := C95_determined r _ _ _ (round_rounded r i) hr'
          rw [hx] at this
          cases this
          exact absurd (Flt.fin.inj h) hx'
      · intro h
        have h0 : (i : Rat) = 0 := Flt.fin.inj h
        rw [← hx, h0, round_exact r zero]
    | inf => simp [OfType] at hv
    | negInf => simp [OfType] at hv
    | nan => simp [OfType] at hv
  · have hav : a = v := by
      rcases ha with ⟨q, rfl, h⟩ | ⟨-, rfl⟩
      · have := C95_determined r _ _ _ h (round_rounded r q)
        rw [this, round_exact r (hs q hv)]
      · rfl
    subst hav
    exact ⟨Iff.rfl, Iff.rfl, fun ⟨k, h⟩ => absurd h (num_not_int s k), fun _ => rfl⟩

theorem types_fit {t1 t2 : NumTy} {r : FltTy} (hr : resultType t1 t2 = some r) :
    ((∃ k, t1 = .int k) ∨ ∃ s : FltTy, t1 = s.num ∧ ∀ x, Represents t1 x → Represents r.num x) ∧
    ((∃ k, t2 = .int k) ∨ ∃ s : FltTy, t2 = s.num ∧ ∀ x, Represents t2 x → Represents r.num x) := by
  rcases resultType_cases hr with ⟨s, t, rfl, rfl, rfl⟩ | ⟨k, rfl, rfl⟩ | ⟨k, rfl, rfl⟩
  · refine ⟨.inr ⟨s, rfl, fun x h => represents_larger s t h⟩, .inr ⟨t, rfl, fun x h => ?_⟩⟩
    rw [larger_comm]
    exact represents_larger t s h
  · exact ⟨.inl ⟨k, rfl⟩, .inr ⟨r, rfl, fun _ h => h⟩⟩
  · exact ⟨.inr ⟨r, rfl, fun _ h => h⟩, .inl ⟨k, rfl⟩⟩

theorem specialSum_plus (r : FltTy) (a b : Flt) (h : ¬ (IsNumber a ∧ IsNumber b)) : SpecialSum a b (plus r a b) := by
  cases a <;> cases b <;> simp [SpecialSum, plus, IsInfinite, opposite, IsNumber] at h ⊢

theorem opposite_negate (b : Flt) : negate b = opposite b := by cases b <;> rfl

theorem finite_opposite (b : Flt) : IsNumber (opposite b) ↔ IsNumber b := by
  cases b <;> simp [IsNumber, opposite]

theorem result_plus (r : FltTy) (a b : Flt) : Result r .add a b (plus r a b) := by
  refine ⟨fun x y q ha hb hq => ?_, fun h => specialSum_plus r a b h⟩
  subst ha hb
  cases hq
  exact round_rounded r _

theorem result_minus (r : FltTy) (a b : Flt) : Result r .subtract a b (minus r a b) := by
  rw [minus, opposite_negate]
  refine ⟨fun x y q ha hb hq => ?_, fun h => specialSum_plus r a _ (by rwa [finite_opposite])⟩
  subst ha hb
  cases hq
  rw [sub_eq_add_neg]
  exact round_rounded r _

theorem result_times (r : FltTy) (a b : Flt) : Result r .multiply a b (times r a b) := by
  refine ⟨fun x y q ha hb hq => ?_, fun h => ?_⟩
  · subst ha hb
    cases hq
    exact round_rounded r _
  · cases a <;> cases b <;>
      simp [SpecialProduct, times, IsNumber, InfiniteSigned, Positive, Negative, infinite] at h ⊢ <;>
      grind

theorem result_over (r : FltTy) {a b z : Flt} (h : over r a b = some z) : Result r .divide a b z := by
  refine ⟨fun x y q ha hb hq => ?_, fun hf => ?_⟩
  · subst ha hb
    simp only [exact] at hq
    split at hq
    · cases hq
    · rename_i h0
      simp only [over, h0, if_false, Option.some.injEq] at h
      cases hq
      exact h ▸ round_rounded r _
  · cases a <;> cases b <;>
      simp [SpecialQuotient, over, IsNumber, InfiniteSigned, Positive, Negative, infinite, IsInfinite] at h hf ⊢ <;>
      grind

theorem over_isSome (r : FltTy) {a b : Flt} (h : b ≠ .fin 0) : ∃ z, over r a b = some z := by
  cases a <;> cases b <;> simp [over] at h ⊢ <;> simp [h]

theorem divFltDomain_iff {v : Flt} : divFltDomain v = true ↔ v ≠ .fin 0 := by
  cases v <;> simp [divFltDomain, Flt.eq]

theorem withinDomain_iff {op : ArithOp} {v : Flt} : withinDomain op v = true ↔ ¬ ByZero op v := by
  cases op <;> simp [withinDomain, ByZero, divFltDomain_iff]

/-- What is computed. -/
theorem compute_spec {t1 t2 : NumTy} {r : FltTy} (hr : resultType t1 t2 = some r) (op : ArithOp)
    {v1 v2 : Flt} (h1 : OfType t1 v1) (h2 : OfType t2 v2) :
    (ByZero op v2 → compute op t1 t2 r v1 v2 = none) ∧
    (¬ ByZero op v2 → ∃ a b z, Operand r v1 a ∧ Operand r v2 b ∧ Result r op a b z ∧
      compute op t1 t2 r v1 v2 = some z ∧
      (op = .subtract → z = minus r a b)) := by
  obtain ⟨a, ha⟩ : ∃ a, castTo t1 r.num v1 = some a := by
    by_cases h : v1.isFinite = false
    · exact ⟨_, castTo_num_special t1 r h⟩
    · obtain ⟨q, rfl⟩ := finite_iff.mp (by simpa using h)
      exact ⟨_, castTo_num t1 r q⟩
  obtain ⟨b, hb⟩ : ∃ b, castTo t2 r.num v2 = some b := by
    by_cases h : v2.isFinite = false
    · exact ⟨_, castTo_num_special t2 r h⟩
    · obtain ⟨q, rfl⟩ := finite_iff.mp (by simpa using h)
      exact ⟨_, castTo_num t2 r q⟩
  have hoa := (cast_operand t1 r v1 a).mp ha
  have hob := (cast_operand t2 r v2 b).mp hb
  constructor
  · rintro ⟨rfl, rfl⟩
    simp [compute, ha, hb, divFltDomain, Flt.eq, assert']
  · intro hz
    cases op with
    | add => exact ⟨a, b, _, hoa, hob, result_plus r a b, by simp [compute, ha, hb], by simp⟩
    | subtract => exact ⟨a, b, _, hoa, hob, result_minus r a b, by simp [compute, ha, hb], by simp⟩
    | multiply => exact ⟨a, b, _, hoa, hob, result_times r a b, by simp [compute, ha, hb], by simp⟩
    | divide =>
      have hv0 : v2 ≠ .fin 0 := fun h => hz ⟨rfl, h⟩
      have hb0 : b ≠ .fin 0 := fun h => hv0 ((operand_facts (types_fit hr).2 h2 hob).2.1.mp h)
      obtain ⟨z, hz'⟩ := over_isSome r (a := a) hb0
      refine ⟨a, b, z, hoa, hob, result_over r hz', ?_, by simp⟩
      simp [compute, ha, hb, divFltDomain_iff.mpr hv0, assert', hz']

theorem plus_not_finite {r : FltTy} {a b : Flt} (h : ¬ (IsNumber a ∧ IsNumber b)) : ¬ IsNumber (plus r a b) := by
  cases a <;> cases b <;> simp [IsNumber, plus] at h ⊢

/-- A difference of an integer and a floating point number. -/
theorem mixed_minus {t1 t2 : NumTy} {r : FltTy} (hr : resultType t1 t2 = some r) (hm : Mixed t1 t2)
    {v1 v2 a b : Flt} (h1 : OfType t1 v1) (h2 : OfType t2 v2) (ha : Operand r v1 a)
    (hb : Operand r v2 b) : IsNumber (minus r a b) ↔ IsNumber v1 ∧ IsNumber v2 := by
  obtain ⟨f1, f2⟩ := types_fit hr
  obtain ⟨fa, -, ia, ea⟩ := operand_facts f1 h1 ha
  obtain ⟨fb, -, ib, eb⟩ := operand_facts f2 h2 hb
  rw [← fa, ← fb]
  constructor
  · intro h
    by_contra hn
    rw [minus, opposite_negate] at h
    exact plus_not_finite (by rwa [finite_opposite]) h
  · rintro ⟨⟨x, rfl⟩, ⟨y, rfl⟩⟩
    show IsNumber (r.round (x + -y))
    rw [← finite_iff, round_finite]
    rcases resultType_cases hr with ⟨s, t, rfl, rfl, -⟩ | ⟨k, rfl, rfl⟩ | ⟨k, rfl, rfl⟩
    · rcases hm with ⟨k, h⟩ | ⟨k, h⟩
      · exact absurd h (num_not_int s k)
      · exact absurd h (num_not_int t k)
    · obtain ⟨x', hx', hbx⟩ := ia ⟨k, rfl⟩
      cases hx'
      have := eb ⟨r, rfl⟩
      subst this
      exact mixed_not_large r hbx (represents_neg h2)
    · obtain ⟨x', hx', hbx⟩ := ib ⟨k, rfl⟩
      cases hx'
      have := ea ⟨r, rfl⟩
      subst this
      rw [add_comm]
      exact mixed_not_large r (by rwa [abs_neg]) h1

theorem addFltRange_iff {t1 t2 : NumTy} {z : Flt} : addFltRange t1 t2 z = true ↔ IsNumber z ∨ Mixed t1 t2 := by
  rw [← finite_iff]
  cases t1 <;> cases t2 <;> simp [addFltRange, Mixed]

theorem subFltRange_mixed {t1 t2 : NumTy} {z : Flt} (h : Mixed t1 t2) :
    subFltRange t1 t2 z = if z.isFinite then some true else none := by
  rcases h with ⟨k, rfl⟩ | ⟨k, rfl⟩
  · cases h : z.isFinite <;> simp [subFltRange, h, assert']
  · cases t1 <;> cases h : z.isFinite <;> simp [subFltRange, h, assert']

theorem subFltRange_floats {t1 t2 : NumTy} {z : Flt} (h : ¬ Mixed t1 t2) :
    subFltRange t1 t2 z = some z.isFinite := by
  cases t1 <;> cases t2 <;> simp [Mixed, subFltRange] at h ⊢

/-- What happens to a pair of valid values. -/
theorem pairActs_spec (op : ArithOp) (k : Checks) {t1 t2 : NumTy} {r : FltTy}
    (hr : resultType t1 t2 = some r) (outp : OutPolicy Flt) :
    PairOk (pairActs op k t1 t2 r outp) (OfType t1) (OfType t2) (Fails op k t1 t2)
      (PairCell op k t1 t2 r outp) := by
  intro v1 v2 h1 h2
  obtain ⟨hc0, hc⟩ := compute_spec hr op h1 h2
  obtain ⟨d, k⟩ := k
  by_cases hz : ByZero op v2
  · have hw : withinDomain op v2 = false := by
      rw [Bool.eq_false_iff]
      exact fun h => withinDomain_iff.mp h hz
    cases d with
    | false =>
      refine ⟨fun _ => ?_, fun h => absurd (.inl ⟨hz, rfl⟩) h⟩
      simp [pairActs, hc0 hz]
    | true =>
      refine ⟨fun h => ?_, fun _ => ⟨[outp.mark], by simp [pairActs, hw], fun c => ⟨fun _ => ?_, fun h => absurd hz h⟩⟩⟩
      · rcases h with ⟨-, h⟩ | ⟨h, -⟩
        · cases h
        · rw [hz.1] at h; cases h
      · exact mark_spec outp c
  · have hw : withinDomain op v2 = true := withinDomain_iff.mpr hz
    obtain ⟨a, b, z, ha, hb, hres, hco, hsub⟩ := hc hz
    have hfails : Fails op ⟨d, k⟩ t1 t2 v1 v2 ↔ k = true ∧ withinRange op t1 t2 z = none := by
      have e : ∀ z : Flt, ∃ x, some z.isFinite = some x := fun z => ⟨_, rfl⟩
      unfold Fails
      cases op with
      | add => simp [hz, withinRange]
      | multiply => simp [hz, withinRange]
      | divide => simp [hz, withinRange]
      | subtract =>
        rw [hsub rfl]
        by_cases hm : Mixed t1 t2
        · have := mixed_minus hr hm h1 h2 ha hb
          rw [← finite_iff] at this
          simp only [hz, false_and, false_or, true_and, hm, withinRange, subFltRange_mixed hm, ← this]
          cases (minus r a b).isFinite <;> simp
        · simp [hz, hm, withinRange, subFltRange_floats hm]
    refine ⟨fun h => ?_, fun h => ?_⟩
    · obtain ⟨rfl, hn⟩ := hfails.mp h
      simp [pairActs, hw, hco, hn]
    · have : ∃ w, (if k then withinRange op t1 t2 z else some true) = some w ∧
          (w = true ↔ Accepted op ⟨d, k⟩ t1 t2 z) := by
        cases k with
        | false => exact ⟨true, rfl, by simp [Accepted]⟩
        | true =>
          cases hwr : withinRange op t1 t2 z with
          | none => exact absurd (hfails.mpr ⟨rfl, hwr⟩) h
          | some w =>
            refine ⟨w, by simp, ?_⟩
            simp only [Accepted, Bool.true_eq_false, false_or]
            cases op with
            | add =>
              simp only [withinRange, Option.some.injEq] at hwr
              rw [← hwr, addFltRange_iff]
              simp
            | multiply =>
              simp only [withinRange, Option.some.injEq] at hwr
              rw [← hwr, finite_iff]
              simp
            | divide =>
              simp only [withinRange, Option.some.injEq] at hwr
              rw [← hwr, finite_iff]
              simp
            | subtract =>
              simp only [withinRange] at hwr
              by_cases hm : Mixed t1 t2
              · rw [subFltRange_mixed hm] at hwr
                split at hwr
                · rename_i hf
                  cases hwr
                  simp [finite_iff.mp hf]
                · cases hwr
              · rw [subFltRange_floats hm, Option.some.injEq] at hwr
                rw [← hwr, finite_iff]
                simp
      obtain ⟨w, hw', hacc⟩ := this
      refine ⟨[storeAct z, fun c => if w then c else outp.mark c], ?_, fun c => ⟨fun h => absurd h hz, fun _ =>
        ⟨a, b, z, ha, hb, hres, fun hA => ?_, fun hA => ?_⟩⟩⟩
      · cases k with
        | false =>
          simp only [Bool.false_eq_true, if_false, Option.some.injEq] at hw'
          subst hw'
          simp [pairActs, hw, hco]
        | true =>
          simp only [if_true] at hw'
          simp [pairActs, hw, hco, hw']
      · simp [foldActs, storeAct, hacc.mpr hA]
      · have hwf : w = false := by
          rw [Bool.eq_false_iff]
          exact fun h => hA (hacc.mp h)
        simpa [foldActs, storeAct, hwf] using mark_spec outp ⟨z, c.masked⟩

/-- A value that has passed is a value of its type. -/
theorem converts_ofType {r : NumTy} {v w : Flt} (h : ConvertsTo r v w) : OfType r w := by
  rcases h with ⟨t, q, n, rfl, -, -, hf, rfl⟩ | ⟨t, rfl, h⟩
  · exact ⟨n, rfl, hf⟩
  · rcases h with ⟨q, -, hq⟩ | ⟨hf, rfl⟩
    · by_cases hl : TooLarge t q
      · rw [hq.1 hl]
        split <;> cases t <;> simp [OfType, FltTy.num]
      · obtain ⟨x, rfl, hn, -⟩ := hq.2 hl
        exact hn.1
    · cases w with
      | fin q => exact absurd ⟨q, rfl⟩ hf
      | _ => cases t <;> simp [OfType, FltTy.num]

/-- The 1D versions. -/
theorem pairActs1d_spec (op : ArithOp) (k : Checks) {t1 t2 : NumTy} {r : FltTy}
    (hr : resultType t1 t2 = some r) (outp : OutPolicy Flt) :
    PairOk (pairActs1d op k t1 t2 r outp) (OfType t1) (OfType t2) (Fails1d op k t1 t2)
      (PairCell1d op k t1 t2 r outp) := by
  intro v1 v2 h1 _
  have hi := through_iff hr v2
  cases ht : through t1 t2 v2 with
  | none =>
    have hn : ∀ w, ¬ Passed t1 t2 v2 w := fun w hw => by
      rw [(hi w).mpr hw] at ht
      cases ht
    exact ⟨fun _ => by simp [pairActs1d, ht], fun h => absurd (fun w hw => absurd hw (hn w)) h⟩
  | some w =>
    have hp : Passed t1 t2 v2 w := (hi w).mp ht
    have hu : ∀ w', Passed t1 t2 v2 w' → w' = w := fun w' hw' => by
      rw [(hi w').mpr hw', Option.some.injEq] at ht
      exact ht
    obtain ⟨u, -, hpu⟩ := hp
    have hp : Passed t1 t2 v2 w := (hi w).mp ht
    obtain ⟨ha, hb⟩ := pairActs_spec op k hr outp v1 w h1 (converts_ofType hpu)
    have hf : Fails1d op k t1 t2 v1 v2 ↔ Fails op k t1 t2 v1 w :=
      ⟨fun h => h w hp, fun h w' hw' => hu w' hw' ▸ h⟩
    rw [hf]
    refine ⟨fun h => by simp [pairActs1d, ht, ha h], fun h => ?_⟩
    obtain ⟨fs, hfs, hc⟩ := hb h
    exact ⟨fs, by simp [pairActs1d, ht, hfs], fun c => ⟨w, hp, hc c⟩⟩

end Fern.FloatRaster
