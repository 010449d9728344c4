import Verif.Model.Arith
import Verif.Spec.CInt
import Mathlib.Tactic.Linarith
import Mathlib.Algebra.Order.Ring.Abs
/-
Facts about the integer types.
-/
namespace Fern

open IntTy Spec

theorem wrap_u8 (v : Int) : wrap u8 v = v % 256 := by simp [wrap, signed, bits]
theorem wrap_u16 (v : Int) : wrap u16 v = v % 65536 := by simp [wrap, signed, bits]
theorem wrap_u32 (v : Int) : wrap u32 v = v % 4294967296 := by simp [wrap, signed, bits]
theorem wrap_u64 (v : Int) : wrap u64 v = v % 18446744073709551616 := by simp [wrap, signed, bits]
theorem wrap_i8 (v : Int) : wrap i8 v = (v + 128) % 256 - 128 := by simp [wrap, signed, bits]
theorem wrap_i16 (v : Int) : wrap i16 v = (v + 32768) % 65536 - 32768 := by
  simp [wrap, signed, bits]
theorem wrap_i32 (v : Int) : wrap i32 v = (v + 2147483648) % 4294967296 - 2147483648 := by
  simp [wrap, signed, bits]
theorem wrap_i64 (v : Int) :
    wrap i64 v = (v + 9223372036854775808) % 18446744073709551616 - 9223372036854775808 := by
  simp [wrap, signed, bits]

theorem fits_iff (t : IntTy) (v : Int) : Fits t v ↔ t.min ≤ v ∧ v ≤ t.max := by
  cases t <;> simp [Fits, IntTy.min, IntTy.max, signed, bits]

theorem arith_signed {t : IntTy} (h : t.signed = true) (v : Int) :
    t.arith v = if Fits t v then some v else none := by
  simp only [arith, h, if_true, ← fits_iff]

theorem arith_unsigned {t : IntTy} (h : t.signed = false) (v : Int) :
    t.arith v = some (t.wrap v) := by
  simp [arith, h]

/-- Conversion to a type that represents the value does not change it. -/
theorem wrap_fits {t : IntTy} {v : Int} (h : Fits t v) : t.wrap v = v := by
  cases t <;> simp only [Fits] at h <;>
    simp only [wrap_u8, wrap_u16, wrap_u32, wrap_u64, wrap_i8, wrap_i16, wrap_i32, wrap_i64] <;> omega

/-- The converted value is a value of the type. -/
theorem fits_wrap (t : IntTy) (v : Int) : Fits t (t.wrap v) := by
  cases t <;>
    simp only [Fits, wrap_u8, wrap_u16, wrap_u32, wrap_u64, wrap_i8, wrap_i16, wrap_i32, wrap_i64] <;>
    omega

theorem wrap_wrap (t : IntTy) (v : Int) : t.wrap (t.wrap v) = t.wrap v := wrap_fits (fits_wrap t v)

theorem fits_promote {t : IntTy} {v : Int} (h : Fits t v) : Fits t.promote v := by
  cases t <;> simp only [Fits, promote, bits] at h ⊢ <;> simp <;> omega

/-- `common` of a type with itself. -/
theorem common_self (t : IntTy) : common t t = t.promote := by cases t <;> rfl

theorem promote_promote (t : IntTy) : t.promote.promote = t.promote := by cases t <;> rfl

theorem unsigned_iff (t : IntTy) : Unsigned t ↔ t.signed = false := by
  cases t <;> simp [Unsigned, signed]

theorem signed_iff (t : IntTy) : Signed t ↔ t.signed = true := by
  cases t <;> simp [Signed, signed]

/-- The type an operator is evaluated in represents the operands, unless an operand is negative and
the type is unsigned. -/
theorem fits_common_left {t1 t2 : IntTy} {v : Int} (h : Fits t1 v)
    (hc : (common t1 t2).signed = true ∨ 0 ≤ v) : Fits (common t1 t2) v := by
  cases t1 <;> cases t2 <;>
    simp [Fits, common, promote, bits, convert, signed] at h hc ⊢ <;> omega

theorem wrap_common_left {t1 t2 : IntTy} {v : Int} (h : Fits t1 v)
    (hc : (common t1 t2).signed = true ∨ 0 ≤ v) : (common t1 t2).wrap v = v :=
  wrap_fits (fits_common_left h hc)

theorem common_comm (t1 t2 : IntTy) : common t1 t2 = common t2 t1 := by
  cases t1 <;> cases t2 <;> rfl

theorem wrap_common_right {t1 t2 : IntTy} {v : Int} (h : Fits t2 v)
    (hc : (common t1 t2).signed = true ∨ 0 ≤ v) : (common t1 t2).wrap v = v := by
  rw [common_comm] at hc ⊢
  exact wrap_common_left h hc

theorem common_promote (t1 t2 : IntTy) : common t1.promote t2 = common t1 t2 := by
  cases t1 <;> cases t2 <;> rfl

/-- Both operands keep their value. -/
def Safe (t1 t2 : IntTy) (v1 v2 : Int) : Prop :=
  (common t1 t2).signed = true ∨ (0 ≤ v1 ∧ 0 ≤ v2)

section
variable {t1 t2 : IntTy} {v1 v2 : Int} (h1 : Fits t1 v1) (h2 : Fits t2 v2) (hs : Safe t1 t2 v1 v2)
include h1 h2 hs

theorem safe_wrap : (common t1 t2).wrap v1 = v1 ∧ (common t1 t2).wrap v2 = v2 :=
  ⟨wrap_common_left h1 (hs.imp id And.left), wrap_common_right h2 (hs.imp id And.right)⟩

theorem cLt_safe : cLt t1 t2 v1 v2 = decide (v1 < v2) := by
  simp only [cLt, (safe_wrap h1 h2 hs).1, (safe_wrap h1 h2 hs).2]
theorem cLe_safe : cLe t1 t2 v1 v2 = decide (v1 ≤ v2) := by
  simp only [cLe, (safe_wrap h1 h2 hs).1, (safe_wrap h1 h2 hs).2]
theorem cGt_safe : cGt t1 t2 v1 v2 = decide (v1 > v2) := by
  simp only [cGt, (safe_wrap h1 h2 hs).1, (safe_wrap h1 h2 hs).2]
theorem cGe_safe : cGe t1 t2 v1 v2 = decide (v1 ≥ v2) := by
  simp only [cGe, (safe_wrap h1 h2 hs).1, (safe_wrap h1 h2 hs).2]
theorem cEq_safe : cEq t1 t2 v1 v2 = (v1 == v2) := by
  simp only [cEq, (safe_wrap h1 h2 hs).1, (safe_wrap h1 h2 hs).2]
theorem cNe_safe : cNe t1 t2 v1 v2 = (v1 != v2) := by
  simp only [cNe, (safe_wrap h1 h2 hs).1, (safe_wrap h1 h2 hs).2]
end

theorem cDiv_safe {t1 t2 : IntTy} {v1 v2 : Int} (h1 : Fits t1 v1) (h2 : Fits t2 v2)
    (hs : Safe t1 t2 v1 v2) (h0 : v2 ≠ 0) (hq : Fits (common t1 t2) (v1.tdiv v2)) :
    cDiv t1 t2 v1 v2 = some (v1.tdiv v2) := by
  obtain ⟨hw1, hw2⟩ := safe_wrap h1 h2 hs
  simp only [cDiv, hw1, hw2, h0, if_false]
  cases hc : (common t1 t2).signed
  · rw [arith_unsigned hc, wrap_fits hq]
  · rw [arith_signed hc, if_pos hq]

theorem common_signed_of {t1 t2 : IntTy} (h1 : t1.signed = true) (h2 : t2.signed = true) :
    (common t1 t2).signed = true := by
  cases t1 <;> cases t2 <;> simp [signed] at h1 h2 <;> rfl

theorem fits_nonneg {t : IntTy} (h : t.signed = false) {v : Int} (hv : Fits t v) : 0 ≤ v := by
  cases t <;> simp [signed] at h <;> exact hv.1

/-- Values of types of the same signedness are safe. -/
theorem safe_same {t1 t2 : IntTy} {v1 v2 : Int} (h1 : Fits t1 v1) (h2 : Fits t2 v2)
    (hs : t1.signed = t2.signed) : Safe t1 t2 v1 v2 := by
  cases h : t1.signed
  · exact .inr ⟨fits_nonneg h h1, fits_nonneg (hs ▸ h) h2⟩
  · exact .inl (common_signed_of h (hs ▸ h))

theorem fits_zero (t : IntTy) : Fits t 0 := by cases t <;> simp [Fits]

/-- Comparison of a value with the literal `0`. -/
theorem cGt_zero {t : IntTy} {v : Int} (h : Fits t v) : cGt t i32 v 0 = decide (v > 0) := by
  apply cGt_safe h (fits_zero i32)
  cases hs : t.signed
  · exact .inr ⟨fits_nonneg hs h, by decide⟩
  · exact .inl (common_signed_of hs rfl)

/-- The result of an operator applied to two values that are first converted to `r`, in which they
fit, and converted back to `r`. -/
theorem compute_eq (r : IntTy) (v : Int) :
    ((common r r).arith v).map r.wrap =
      if r.promote.signed = true ∧ ¬ Fits r.promote v then none else some (r.wrap v) := by
  rw [common_self]
  cases hs : r.promote.signed
  · rw [arith_unsigned hs]
    have : r.promote = r := by cases r <;> simp [promote, bits, signed] at hs ⊢
    simp [this, wrap_wrap]
  · rw [arith_signed hs]
    by_cases hf : Fits r.promote v <;> simp [hf]

theorem wrap_common_self {r : IntTy} {v : Int} (h : Fits r v) : (common r r).wrap v = v := by
  rw [common_self]; exact wrap_fits (fits_promote h)

theorem addCompute_eq {r : IntTy} {v1 v2 : Int} (h1 : Fits r v1) (h2 : Fits r v2) :
    addCompute r v1 v2 =
      if r.promote.signed = true ∧ ¬ Fits r.promote (v1 + v2) then none
      else some (r.wrap (v1 + v2)) := by
  rw [addCompute, cAdd, wrap_fits h1, wrap_fits h2, wrap_common_self h1, wrap_common_self h2,
    compute_eq]

theorem subCompute_eq {r : IntTy} {v1 v2 : Int} (h1 : Fits r v1) (h2 : Fits r v2) :
    subCompute r v1 v2 =
      if r.promote.signed = true ∧ ¬ Fits r.promote (v1 - v2) then none
      else some (r.wrap (v1 - v2)) := by
  rw [subCompute, cSub, wrap_fits h1, wrap_fits h2, wrap_common_self h1, wrap_common_self h2,
    compute_eq]

theorem mulCompute_eq {r : IntTy} {v1 v2 : Int} (h1 : Fits r v1) (h2 : Fits r v2) :
    mulCompute r v1 v2 =
      if r.promote.signed = true ∧ ¬ Fits r.promote (v1 * v2) then none
      else some (r.wrap (v1 * v2)) := by
  rw [mulCompute, cMul, wrap_fits h1, wrap_fits h2, wrap_common_self h1, wrap_common_self h2,
    compute_eq]

/-- Facts about the result type of two integer types. -/
theorem resultInt_same {t1 t2 r : IntTy} (h : t1.signed = t2.signed)
    (hr : resultInt t1 t2 = some r) :
    r.signed = t1.signed ∧ (∀ v, Fits t1 v → Fits r v) ∧ (∀ v, Fits t2 v → Fits r v) := by
  cases t1 <;> cases t2 <;> simp [signed] at h <;>
    simp [resultInt, signed, largestType, bits] at hr <;> subst hr <;>
    refine ⟨rfl, ?_, ?_⟩ <;> simp only [Fits] <;> intro v hv <;> omega

theorem resultInt_some (t1 t2 : IntTy) : ∃ r, resultInt t1 t2 = some r := by
  cases t1 <;> cases t2 <;> exact ⟨_, rfl⟩

theorem resultInt_comm (t1 t2 : IntTy) : resultInt t1 t2 = resultInt t2 t1 := by
  cases t1 <;> cases t2 <;> rfl

/-- Mixed signedness: the result type is signed, and it represents all values of both types unless
one is `uint64_t`. -/
theorem resultInt_mixed {t1 t2 r : IntTy} (h : t1.signed ≠ t2.signed)
    (hr : resultInt t1 t2 = some r) :
    r.signed = true ∧ (t1 ≠ u64 → ∀ v, Fits t1 v → Fits r v) ∧
      (t2 ≠ u64 → ∀ v, Fits t2 v → Fits r v) := by
  cases t1 <;> cases t2 <;> simp [signed] at h <;>
    simp [resultInt, resultUnsignedSigned, typelistFind, unsignedTypes, signedTypes, signed, bits]
      at hr <;> subst hr <;>
    refine ⟨rfl, ?_, ?_⟩ <;> simp [Fits] <;> intro v hv <;> omega

theorem fits_max (t : IntTy) : Fits t t.max := by
  rw [fits_iff]; cases t <;> decide

theorem fits_mono {t : IntTy} {a v b : Int} (ha : Fits t a) (hb : Fits t b) (h1 : a ≤ v)
    (h2 : v ≤ b) : Fits t v := by
  rw [fits_iff] at *; omega

theorem fits_neg_max {t : IntTy} (h : t.signed = true) : Fits t (-t.max) := by
  rw [fits_iff]; cases t <;> simp [signed] at h <;> decide

theorem fits_signed {t : IntTy} (h : t.signed = true) (v : Int) :
    Fits t v ↔ -t.max - 1 ≤ v ∧ v ≤ t.max := by
  rw [fits_iff]; cases t <;> simp [signed] at h <;> simp [IntTy.min, IntTy.max, signed, bits]

theorem min_eq {t : IntTy} (h : t.signed = true) : t.min = -t.max - 1 := by
  cases t <;> simp [signed] at h <;> simp [IntTy.min, IntTy.max, signed, bits]

theorem fits_unsigned {t : IntTy} (h : t.signed = false) (v : Int) :
    Fits t v ↔ 0 ≤ v ∧ v ≤ t.max := by
  rw [fits_iff]; cases t <;> simp [signed] at h <;> simp [IntTy.min, signed]

theorem max_pos (t : IntTy) : 0 < t.max := by cases t <;> decide

/-- Negation of a positive value, or of the maximum. -/
theorem cNeg_safe {t : IntTy} (hs : t.signed = true) {v : Int} (h : Fits t v) (h0 : 0 ≤ v) :
    cNeg t v = some (-v) ∧ Fits t (-v) := by
  have hf : Fits t (-v) := by rw [fits_signed hs] at *; omega
  have hp : t.promote.signed = true := by cases t <;> simp [signed] at hs <;> rfl
  rw [cNeg, wrap_fits (fits_promote h), arith_signed hp, if_pos (fits_promote hf)]
  exact ⟨rfl, hf⟩

theorem tdiv_neg_right (M b : Int) : M.tdiv b = -(M.tdiv (-b)) := by
  rw [Int.tdiv_neg, neg_neg]

/-- `a <= M / b` for a positive `b`. -/
theorem le_tdiv_iff {a M b : Int} (hM : 0 ≤ M) (hb : 0 < b) : a ≤ M.tdiv b ↔ a * b ≤ M := by
  rw [Int.tdiv_eq_ediv_of_nonneg hM]
  exact Int.le_ediv_iff_mul_le hb

theorem tdiv_bounds {M b : Int} (hM : 0 ≤ M) (hb : 0 < b) : 0 ≤ M.tdiv b ∧ M.tdiv b ≤ M := by
  rw [Int.tdiv_eq_ediv_of_nonneg hM]
  exact ⟨Int.ediv_nonneg hM hb.le, Int.ediv_le_self b hM⟩

end Fern
