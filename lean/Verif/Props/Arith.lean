import Verif.Lemmas.Arith
import Verif.Props.LocalOps
/-
C26 - C33: integer arithmetic and overflow detection.

`Fits t v` says that the number `v` is a value of type `t`. The operations are applied to arbitrary
values of arbitrary integer types; `r` is the result type that the library chooses. An `Outcome` is
the stored result and the answer of the out of range policy; `none` is undefined behaviour.
-/
namespace Fern

open IntTy Spec

/-! ### Addition -/

/-- C26: adding unsigned values is always defined; the result is accepted iff the sum fits the result
type, and an accepted result is the sum. -/
theorem C26_add_unsigned (t1 t2 r : IntTy) (h1 : Unsigned t1) (h2 : Unsigned t2)
    (hr : resultInt t1 t2 = some r) (v1 v2 : Int) (hv1 : Fits t1 v1) (hv2 : Fits t2 v2) :
    ∃ o, addElem t1 t2 v1 v2 = some o ∧ (o.withinRange = true → o.result = v1 + v2) ∧
      (o.withinRange = true ↔ Fits r (v1 + v2)) := by
  rw [unsigned_iff] at h1 h2
  obtain ⟨hs, f1, f2⟩ := resultInt_same (h1.trans h2.symm) hr
  rw [h1] at hs
  have g1 := f1 _ hv1
  have g2 := f2 _ hv2
  rw [addElem_eq hr g1 g2, addRange_uu h1 h2 hs (fits_wrap _ _) hv1, if_neg]
  · refine ⟨_, rfl, ?_⟩
    cases r <;> simp [signed] at hs <;> simp only [Fits] at g1 g2 ⊢ <;>
      simp [wrap_u8, wrap_u16, wrap_u32, wrap_u64] <;> omega
  · cases r <;> simp [signed] at hs <;> simp only [Fits] at g1 g2 <;>
      simp [promote, bits, signed, Fits] <;> omega

example : addElem u8 u8 200 55 = some ⟨255, true⟩ ∧ addElem u8 u8 200 56 = some ⟨0, false⟩ ∧
    addElem u8 u32 200 4294967200 = some ⟨104, false⟩ := by decide

/-- C26, over arrays: every element of the result whose arguments are not no-data is the exact sum, or
the sum does not fit the result type and the element is marked as no-data. -/
theorem C26_add_unsigned_arrays (t1 t2 r : IntTy) (h1 : Unsigned t1) (h2 : Unsigned t2)
    (hr : resultInt t1 t2 = some r) (in1 in2 : InPolicy Int) (outp : OutPolicy Int) (n1 n2 : Nat)
    (value1 value2 : List Int) (result : List (Cell Int)) (hv1 : value1.length = n1 * n2)
    (hv2 : value2.length = n1 * n2) (hres : result.length = n1 * n2)
    (hp1 : PolicyFor in1 (n1 * n2)) (hp2 : PolicyFor in2 (n1 * n2))
    (hf1 : ∀ v ∈ value1, Fits t1 v) (hf2 : ∀ v ∈ value2, Fits t2 v) :
    ∃ out, binary2d2d (addOp t1 t2 r) in1 in2 outp (n1, n2) value1 (n1, n2) value2 (n1, n2) result =
        some out ∧
      Elementwise (fun i c c' => ∀ v1 v2, value1[i]? = some v1 → value2[i]? = some v2 →
        ((NoDataAt in1 value1 i ∨ NoDataAt in2 value2 i) → Marked outp c c') ∧
        (¬ (NoDataAt in1 value1 i ∨ NoDataAt in2 value2 i) →
          (Fits r (v1 + v2) → c' = ⟨v1 + v2, c.masked⟩) ∧
          (¬ Fits r (v1 + v2) → ∃ x, Marked outp ⟨x, c.masked⟩ c'))) result out := by
  obtain ⟨out, ho, he⟩ := C10_binary_2d2d (addOp t1 t2 r) in1 in2 outp n1 n2 value1 value2 result
    hv1 hv2 hres hp1 hp2
  refine ⟨out, ho, he.1, fun i c hc => ?_⟩
  obtain ⟨c', hc', hl⟩ := he.2 i c hc
  refine ⟨c', hc', fun v1 v2 hi1 hi2 => ?_⟩
  have hcell := hl v1 v2 hi1 hi2
  obtain ⟨o, hoe, hox, hor⟩ := C26_add_unsigned t1 t2 r h1 h2 hr v1 v2
    (hf1 _ (List.mem_of_getElem? hi1)) (hf2 _ (List.mem_of_getElem? hi2))
  have hcomp : (addOp t1 t2 r).compute (v1, v2) = o.result ∧
      (addOp t1 t2 r).withinRange (v1, v2) o.result = o.withinRange := by
    simp only [addElem, hr, Option.bind_eq_bind, Option.bind_some] at hoe
    cases hac : addCompute r v1 v2 with
    | none => simp [hac] at hoe
    | some x =>
      simp only [hac, Option.bind_some, Option.some.injEq] at hoe
      subst hoe
      simp [addOp, hac]
  refine ⟨hcell.noData, fun hnd => ⟨fun hfit => ?_, fun hfit => ?_⟩⟩
  · have hw := hor.mpr hfit
    have := hcell.ok hnd rfl (by rw [hcomp.1, hcomp.2, hw])
    rw [this, hcomp.1, hox hw]
  · have hw : o.withinRange = false := by
      cases hw : o.withinRange with
      | false => rfl
      | true => exact absurd (hor.mp hw) hfit
    have := hcell.outOfRange hnd rfl (by rw [hcomp.1, hcomp.2, hw])
    exact ⟨_, this⟩

example : binary2d2d (addOp u8 u8 u8) .skip (.detect (· == 255)) (.markValue 255) (1, 3) [1, 200, 3]
    (1, 3) [2, 100, 255] (1, 3) [⟨0, false⟩, ⟨0, false⟩, ⟨0, false⟩] =
      some [⟨3, false⟩, ⟨255, false⟩, ⟨255, false⟩] := by decide

/-- C27: adding signed values with an 8 or 16 bit result. -/
theorem C27_add_signed_narrow (t1 t2 r : IntTy) (h1 : Signed t1) (h2 : Signed t2)
    (hr : resultInt t1 t2 = some r) (hn : Narrow r) (v1 v2 : Int) (hv1 : Fits t1 v1)
    (hv2 : Fits t2 v2) :
    ∃ o, addElem t1 t2 v1 v2 = some o ∧ (o.withinRange = true → o.result = v1 + v2) ∧
      (o.withinRange = true ↔ Fits r (v1 + v2)) := by
  rw [signed_iff] at h1 h2
  obtain ⟨hs, f1, f2⟩ := resultInt_same (h1.trans h2.symm) hr
  rw [h1] at hs
  have g1 := f1 _ hv1
  have g2 := f2 _ hv2
  rw [addElem_eq hr g1 g2, addRange_ss h1 h2 hs (fits_wrap _ _) hv1 hv2, if_neg]
  · refine ⟨_, rfl, ?_⟩
    rcases hn with rfl | rfl | rfl | rfl <;> simp [signed] at hs <;> simp only [Fits] at g1 g2 ⊢ <;>
      simp only [wrap_i8, wrap_i16] <;> split <;> simp <;> omega
  · rcases hn with rfl | rfl | rfl | rfl <;> simp [signed] at hs <;> simp only [Fits] at g1 g2 <;>
      simp [promote, bits, Fits] <;> omega

example : addElem i8 i8 100 28 = some ⟨-128, false⟩ ∧ addElem i8 i16 (-100) (-32700) =
    some ⟨32736, false⟩ ∧ addElem i8 i8 (-100) 100 = some ⟨0, true⟩ := by decide

/-- C27: adding signed values with a 32 or 64 bit result is undefined behaviour exactly when the sum
does not fit; otherwise the result is the sum, and it is accepted. -/
theorem C27_add_signed_wide (t1 t2 r : IntTy) (h1 : Signed t1) (h2 : Signed t2)
    (hr : resultInt t1 t2 = some r) (hn : ¬ Narrow r) (v1 v2 : Int) (hv1 : Fits t1 v1)
    (hv2 : Fits t2 v2) :
    (addElem t1 t2 v1 v2 = none ↔ ¬ Fits r (v1 + v2)) ∧
    (Fits r (v1 + v2) → addElem t1 t2 v1 v2 = some ⟨v1 + v2, true⟩) := by
  rw [signed_iff] at h1 h2
  obtain ⟨hs, f1, f2⟩ := resultInt_same (h1.trans h2.symm) hr
  rw [h1] at hs
  have g1 := f1 _ hv1
  have g2 := f2 _ hv2
  have hp : r.promote = r := by cases r <;> simp [Narrow] at hn <;> rfl
  rw [addElem_eq hr g1 g2, addRange_ss h1 h2 hs (fits_wrap _ _) hv1 hv2, hp]
  refine ⟨by simp [hs], fun hf => ?_⟩
  rw [if_neg (by simp [hf]), wrap_fits hf]
  congr 2
  split <;> simp <;> omega

example : addElem i32 i32 2147483647 1 = none ∧
    addElem i32 i32 2147483647 (-1) = some ⟨2147483646, true⟩ := by decide

/-- C28: the check for a signed and an unsigned value, when the result type represents all values of
both (that is, unless the unsigned type is `uint64_t`). If the addition is defined then an accepted
result is the sum; accepted are exactly the sums that fit and have a positive signed operand, and the
sums with an unsigned operand equal to zero. -/
theorem C28_add_mixed (t1 t2 r : IntTy) (h1 : Signed t1) (h2 : Unsigned t2) (h64 : t2 ≠ u64)
    (hr : resultInt t1 t2 = some r) (v1 v2 : Int) (hv1 : Fits t1 v1) (hv2 : Fits t2 v2) :
    (addElem t1 t2 v1 v2 = none ↔ ¬ Narrow r ∧ ¬ Fits r (v1 + v2)) ∧
    addElem t2 t1 v2 v1 = addElem t1 t2 v1 v2 ∧
    ∀ o, addElem t1 t2 v1 v2 = some o →
      (o.withinRange = true → o.result = v1 + v2) ∧
      (o.withinRange = true ↔ Fits r (v1 + v2) ∧ (0 < v1 ∨ v2 = 0)) := by
  rw [signed_iff] at h1
  rw [unsigned_iff] at h2
  obtain ⟨hs, f1, f2⟩ := resultInt_mixed (by simp [h1, h2]) hr
  have g1 := f1 (by rintro rfl; simp [signed] at h1) _ hv1
  have g2 := f2 h64 _ hv2
  have p2 := fits_nonneg h2 hv2
  have e1 : addRange t1 t2 r v1 v2 = addRangeSU t1 r v1 := by funext x; simp [addRange, h1, h2]
  have e2 : addRange t2 t1 r v2 v1 = addRangeSU t1 r v1 := by funext x; simp [addRange, h1, h2]
  rw [addElem_eq hr g1 g2, addElem_eq ((resultInt_comm t2 t1).trans hr) g2 g1, e1, e2,
    Int.add_comm v2 v1, addRangeSU_eq h1 hs (fits_wrap _ _) hv1]
  refine ⟨?_, rfl, ?_⟩
  · cases r <;> simp [signed] at hs <;> simp only [Fits] at g1 g2 <;>
      simp [promote, bits, Fits, signed, Narrow] <;> try omega
  · intro o ho
    split at ho
    · exact absurd ho (by simp)
    · rename_i hd
      simp only [Option.some.injEq] at ho
      subst ho
      cases r <;> simp [signed] at hs <;> simp only [Fits] at g1 g2 <;>
        simp [promote, bits, Fits, signed] at hd ⊢ <;>
        simp only [wrap_i8, wrap_i16, wrap_i32, wrap_i64] <;> split <;>
        omega

/-- C28: the claim that the check is exact is false. A sum that fits is rejected, and with `uint64_t`
a result that is wrong is accepted. -/
theorem C28_add_mixed_false :
    (addElem i8 u8 (-1) 5 = some ⟨4, false⟩ ∧ resultInt i8 u8 = some i16 ∧ Fits i16 (-1 + 5)) ∧
    (addElem i32 u64 0 9223372036854775808 = some ⟨-9223372036854775808, true⟩) := by decide

example : addElem i16 u8 32700 100 = some ⟨-32736, false⟩ ∧ addElem i16 u8 32700 60 =
    some ⟨32760, true⟩ ∧ addElem i32 u8 2147483647 1 = none := by decide

/-! ### Subtraction -/

/-- C29: unsigned minus unsigned. -/
theorem C29_subtract_unsigned (t1 t2 r : IntTy) (h1 : Unsigned t1) (h2 : Unsigned t2)
    (hr : resultInt t1 t2 = some r) (v1 v2 : Int) (hv1 : Fits t1 v1) (hv2 : Fits t2 v2) :
    ∃ o, subElem t1 t2 v1 v2 = some o ∧ (o.withinRange = true → o.result = v1 - v2) ∧
      (o.withinRange = true ↔ Fits r (v1 - v2)) := by
  rw [unsigned_iff] at h1 h2
  obtain ⟨hs, f1, f2⟩ := resultInt_same (h1.trans h2.symm) hr
  rw [h1] at hs
  have g1 := f1 _ hv1
  have g2 := f2 _ hv2
  rw [subElem_eq hr g1 g2, subRange_uu h1 h2 hs (fits_wrap _ _) hv1, if_neg]
  · refine ⟨_, rfl, ?_⟩
    cases r <;> simp [signed] at hs <;> simp only [Fits] at g1 g2 ⊢ <;>
      simp only [wrap_u8, wrap_u16, wrap_u32, wrap_u64] <;> simp <;> omega
  · cases r <;> simp [signed] at hs <;> simp only [Fits] at g1 g2 <;>
      simp [promote, bits, signed, Fits] <;> omega

example : subElem u8 u8 5 6 = some ⟨255, false⟩ ∧ subElem u8 u32 200 7 = some ⟨193, true⟩ := by decide

/-- C29: signed minus signed with an 8 or 16 bit result. -/
theorem C29_subtract_signed_narrow (t1 t2 r : IntTy) (h1 : Signed t1) (h2 : Signed t2)
    (hr : resultInt t1 t2 = some r) (hn : Narrow r) (v1 v2 : Int) (hv1 : Fits t1 v1)
    (hv2 : Fits t2 v2) :
    ∃ o, subElem t1 t2 v1 v2 = some o ∧ (o.withinRange = true → o.result = v1 - v2) ∧
      (o.withinRange = true ↔ Fits r (v1 - v2)) := by
  rw [signed_iff] at h1 h2
  obtain ⟨hs, f1, f2⟩ := resultInt_same (h1.trans h2.symm) hr
  rw [h1] at hs
  have g1 := f1 _ hv1
  have g2 := f2 _ hv2
  rw [subElem_eq hr g1 g2, subRange_ss h1 h2 hs (fits_wrap _ _) hv1 hv2, if_neg]
  · refine ⟨_, rfl, ?_⟩
    rcases hn with rfl | rfl | rfl | rfl <;> simp [signed] at hs <;> simp only [Fits] at g1 g2 ⊢ <;>
      simp only [wrap_i8, wrap_i16] <;> split <;> simp <;> omega
  · rcases hn with rfl | rfl | rfl | rfl <;> simp [signed] at hs <;> simp only [Fits] at g1 g2 <;>
      simp [promote, bits, Fits] <;> omega

example : subElem i8 i8 (-100) 29 = some ⟨127, false⟩ ∧ subElem i8 i8 (-100) 28 =
    some ⟨-128, true⟩ := by decide

/-- C29: signed minus signed with a 32 or 64 bit result is undefined behaviour exactly when the
difference does not fit. -/
theorem C29_subtract_signed_wide (t1 t2 r : IntTy) (h1 : Signed t1) (h2 : Signed t2)
    (hr : resultInt t1 t2 = some r) (hn : ¬ Narrow r) (v1 v2 : Int) (hv1 : Fits t1 v1)
    (hv2 : Fits t2 v2) :
    (subElem t1 t2 v1 v2 = none ↔ ¬ Fits r (v1 - v2)) ∧
    (Fits r (v1 - v2) → subElem t1 t2 v1 v2 = some ⟨v1 - v2, true⟩) := by
  rw [signed_iff] at h1 h2
  obtain ⟨hs, f1, f2⟩ := resultInt_same (h1.trans h2.symm) hr
  rw [h1] at hs
  have g1 := f1 _ hv1
  have g2 := f2 _ hv2
  have hp : r.promote = r := by cases r <;> simp [Narrow] at hn <;> rfl
  rw [subElem_eq hr g1 g2, subRange_ss h1 h2 hs (fits_wrap _ _) hv1 hv2, hp]
  refine ⟨by simp [hs], fun hf => ?_⟩
  rw [if_neg (by simp [hf]), wrap_fits hf]
  congr 2
  split <;> simp <;> omega

example : subElem i32 i64 (-2147483648) 1 = some ⟨-2147483649, true⟩ ∧
    subElem i32 i32 (-2147483648) 1 = none := by decide

/-- C29: mixed signedness, unless one of the types is `uint64_t`: whenever the subtraction is defined
the check is exact; it is undefined exactly when a 32 or 64 bit result overflows. -/
theorem C29_subtract_mixed (t1 t2 r : IntTy) (h : Signed t1 ∧ Unsigned t2 ∨ Unsigned t1 ∧ Signed t2)
    (h64 : t1 ≠ u64 ∧ t2 ≠ u64) (hr : resultInt t1 t2 = some r) (v1 v2 : Int) (hv1 : Fits t1 v1)
    (hv2 : Fits t2 v2) :
    (subElem t1 t2 v1 v2 = none ↔ ¬ Narrow r ∧ ¬ Fits r (v1 - v2)) ∧
    ∀ o, subElem t1 t2 v1 v2 = some o →
      (o.withinRange = true → o.result = v1 - v2) ∧
      (o.withinRange = true ↔ Fits r (v1 - v2)) := by
  have hne : t1.signed ≠ t2.signed := by
    simp only [signed_iff, unsigned_iff] at h
    rcases h with ⟨a, b⟩ | ⟨a, b⟩ <;> simp [a, b]
  obtain ⟨hs, f1, f2⟩ := resultInt_mixed hne hr
  have g1 := f1 h64.1 _ hv1
  have g2 := f2 h64.2 _ hv2
  rw [subElem_eq hr g1 g2, subRange_mixed hne (fits_wrap _ _) g1 hv2]
  constructor
  · cases r <;> simp [signed] at hs <;> simp only [Fits] at g1 g2 <;>
      simp [promote, bits, Fits, signed, Narrow] <;> omega
  · intro o ho
    split at ho
    · exact absurd ho (by simp)
    · rename_i hd
      simp only [Option.some.injEq] at ho
      subst ho
      cases r <;> simp [signed] at hs <;> simp only [Fits] at g1 g2 <;>
        simp [promote, bits, Fits, signed] at hd ⊢ <;>
        simp only [wrap_i8, wrap_i16, wrap_i32, wrap_i64] <;> split <;>
        omega

/-- C29: with `uint64_t` and a signed type a wrong difference is accepted. -/
theorem C29_subtract_mixed_uint64_false :
    subElem u64 i32 9223372036854775808 0 = some ⟨-9223372036854775808, true⟩ := by decide

example : subElem u8 i16 255 (-32768) = some ⟨-32513, false⟩ ∧ subElem i8 u8 (-1) 5 =
    some ⟨-6, true⟩ := by decide

/-! ### Multiplication -/

/-- C30: unsigned multiplication: whenever it is defined the result is accepted iff the product fits
the result type, and an accepted result is the product. It is undefined only for 16 bit results whose
product exceeds the range of `int`. -/
theorem C30_multiply_unsigned (t1 t2 r : IntTy) (h1 : Unsigned t1) (h2 : Unsigned t2)
    (hr : resultInt t1 t2 = some r) (v1 v2 : Int) (hv1 : Fits t1 v1) (hv2 : Fits t2 v2) :
    (mulElem t1 t2 v1 v2 = none ↔ r = u16 ∧ v1 * v2 > 2147483647) ∧
    ∀ o, mulElem t1 t2 v1 v2 = some o →
      (o.withinRange = true → o.result = v1 * v2) ∧
      (o.withinRange = true ↔ Fits r (v1 * v2)) := by
  rw [unsigned_iff] at h1 h2
  obtain ⟨hs, f1, f2⟩ := resultInt_same (h1.trans h2.symm) hr
  rw [h1] at hs
  have g1 := f1 _ hv1
  have g2 := f2 _ hv2
  have hp : 0 ≤ v1 * v2 := Int.mul_nonneg (fits_nonneg h1 hv1) (fits_nonneg h2 hv2)
  simp only [mulElem, hr, Option.bind_eq_bind, Option.bind_some, mulCompute_eq g1 g2,
    mulRange_uu h1 h2 hs hv1 hv2]
  constructor
  · have h8 : r = u8 → v1 * v2 ≤ 255 * 255 := by
      rintro rfl
      simp only [Fits] at g1 g2
      exact Int.mul_le_mul g1.2 g2.2 g2.1 (by decide)
    split
    · rename_i hc
      revert hc
      cases r <;> simp [signed] at hs <;> simp [promote, bits, signed, Fits] <;> simp at h8 <;> omega
    · rename_i hc
      revert hc
      cases r <;> simp [signed] at hs <;> simp [promote, bits, signed, Fits]
  · intro o ho
    split at ho
    · exact absurd ho (by simp)
    · simp only [Option.bind_some, Option.some.injEq] at ho
      subst ho
      have hfit : Fits r (v1 * v2) ↔ v1 * v2 ≤ r.max := by
        rw [fits_unsigned hs]; simp [hp]
      refine ⟨fun hw => ?_, by simp [hfit]⟩
      exact wrap_fits (hfit.mpr (by simpa using hw))

example : mulElem u8 u16 200 300 = some ⟨60000, true⟩ ∧ mulElem u8 u16 255 300 =
    some ⟨10964, false⟩ ∧ mulElem u16 u16 65535 65535 = none := by decide

/-- C30: signed multiplication: whenever it is defined an accepted result is the product; the result is
accepted iff both the product and its negation fit, so a product equal to the minimum is rejected
although it fits. Multiplication with a 32 or 64 bit result is undefined exactly when the product does
not fit. -/
theorem C30_multiply_signed (t1 t2 r : IntTy) (h1 : Signed t1) (h2 : Signed t2)
    (hr : resultInt t1 t2 = some r) (v1 v2 : Int) (hv1 : Fits t1 v1) (hv2 : Fits t2 v2) :
    (mulElem t1 t2 v1 v2 = none ↔ ¬ Narrow r ∧ ¬ Fits r (v1 * v2)) ∧
    ∀ o, mulElem t1 t2 v1 v2 = some o →
      (o.withinRange = true → o.result = v1 * v2) ∧
      (o.withinRange = true ↔ Fits r (v1 * v2) ∧ Fits r (-(v1 * v2))) := by
  rw [signed_iff] at h1 h2
  obtain ⟨hs, f1, f2⟩ := resultInt_same (h1.trans h2.symm) hr
  rw [h1] at hs
  have g1 := f1 _ hv1
  have g2 := f2 _ hv2
  simp only [mulElem, hr, Option.bind_eq_bind, Option.bind_some, mulCompute_eq g1 g2,
    mulRange_ss h1 h2 hs hv1 hv2]
  constructor
  · have hb : r = i8 ∨ r = i16 → -2147483648 ≤ v1 * v2 ∧ v1 * v2 ≤ 2147483647 := by
      intro hr'
      have a1 : -32768 ≤ v1 ∧ v1 ≤ 32768 := by
        rcases hr' with rfl | rfl <;> simp only [Fits] at g1 <;> omega
      have a2 : -32768 ≤ v2 ∧ v2 ≤ 32768 := by
        rcases hr' with rfl | rfl <;> simp only [Fits] at g2 <;> omega
      have b := abs_mul v1 v2
      have c : |v1| * |v2| ≤ 32768 * 32768 :=
        mul_le_mul (abs_le.mpr a1) (abs_le.mpr a2) (abs_nonneg _) (by decide)
      rw [← b, abs_le] at c
      omega
    split
    · rename_i hc
      revert hc
      cases r <;> simp [signed] at hs <;> simp [promote, bits, signed, Fits, Narrow] <;>
        simp at hb <;> omega
    · rename_i hc
      revert hc
      cases r <;> simp [signed] at hs <;> simp [promote, bits, signed, Fits, Narrow]
  · intro o ho
    split at ho
    · exact absurd ho (by simp)
    · simp only [Option.bind_some, Option.some.injEq] at ho
      subst ho
      simp only [decide_eq_true_eq]
      rw [fits_signed hs, fits_signed hs]
      refine ⟨fun hw => wrap_fits ((fits_signed hs _).mpr (by omega)), by omega⟩

example : mulElem i8 i8 (-16) 8 = some ⟨-128, false⟩ ∧ Fits i8 (-128) ∧
    mulElem i8 i8 (-16) 7 = some ⟨-112, true⟩ ∧ mulElem i8 i8 (-16) (-8) = some ⟨-128, false⟩ ∧
    mulElem i32 i32 65536 32768 = none := by decide

/-- C30: multiplication of an unsigned and a signed value, in either order, for all types: whenever it
is defined an accepted result is the product, and it is accepted iff the product and its negation
fit. -/
theorem C30_multiply_mixed (t1 t2 r : IntTy) (h1 : Unsigned t1) (h2 : Signed t2)
    (hr : resultInt t1 t2 = some r) (v1 v2 : Int) (hv1 : Fits t1 v1) (hv2 : Fits t2 v2) (o : Outcome)
    (ho : mulElem t1 t2 v1 v2 = some o ∨ mulElem t2 t1 v2 v1 = some o) :
    (o.withinRange = true → o.result = v1 * v2) ∧
      (o.withinRange = true ↔ Fits r (v1 * v2) ∧ Fits r (-(v1 * v2))) := by
  rw [unsigned_iff] at h1
  rw [signed_iff] at h2
  obtain ⟨hs, -, f2⟩ := resultInt_mixed (by simp [h1, h2]) hr
  have g2 := f2 (by rintro rfl; simp [signed] at h2) _ hv2
  have hM := max_pos r
  have n1 := fits_nonneg h1 hv1
  have e1 : mulRange t1 t2 r v1 v2 = mulRangeUS t1 t2 r v1 v2 := by simp [mulRange, h1, h2]
  have e2 : mulRange t2 t1 r v2 v1 = mulRangeUS t1 t2 r v1 v2 := by simp [mulRange, h1, h2]
  have e3 : mulElem t2 t1 v2 v1 = mulElem t1 t2 v1 v2 := by
    simp only [mulElem, hr, (resultInt_comm t2 t1).trans hr, Option.bind_eq_bind, Option.bind_some,
      e1, e2, mulCompute, cMul, Int.mul_comm]
  rw [e3, or_self] at ho
  simp only [mulElem, hr, Option.bind_eq_bind, Option.bind_some, e1,
    mulRangeUS_eq h1 h2 hs hv1 hv2] at ho
  have hiff : o.withinRange = true ↔ -r.max ≤ v1 * v2 ∧ v1 * v2 ≤ r.max := by
    cases hc : mulCompute r v1 v2 with
    | none => simp [hc] at ho
    | some x =>
      simp only [hc, Option.bind_some, Option.some.injEq] at ho
      subst ho
      simp
  constructor
  · intro hw
    have hw' := hiff.mp hw
    by_cases hf : Fits r v1
    · rw [mulCompute_eq hf g2] at ho
      split at ho
      · exact absurd ho (by simp)
      · simp only [Option.bind_some, Option.some.injEq] at ho
        subst ho
        exact wrap_fits ((fits_signed hs _).mpr (by omega))
    · have hbig : r.max < v1 := by
        rw [fits_signed hs] at hf; omega
      have h0 : v2 = 0 := by
        by_contra h0
        rcases lt_or_gt_of_ne h0 with h | h
        · nlinarith
        · nlinarith
      subst h0
      have hz : r.wrap 0 = 0 := wrap_fits (fits_zero r)
      have hz' : (common r r).wrap 0 = 0 := wrap_fits (fits_zero _)
      have : mulCompute r v1 0 = some 0 := by
        rw [mulCompute, cMul, hz, hz', Int.mul_zero, compute_eq, hz, if_neg]
        simp [fits_zero]
      rw [this] at ho
      simp only [Option.bind_some, Option.some.injEq] at ho
      subst ho
      simp
  · rw [hiff, fits_signed hs, fits_signed hs]
    omega

example : mulElem u8 i8 200 (-100) = some ⟨-20000, true⟩ ∧ mulElem i8 u8 (-100) 200 =
    some ⟨-20000, true⟩ ∧ mulElem u64 i8 9223372036854775808 1 =
      some ⟨-9223372036854775808, false⟩ := by decide

/-- C30: the claims about rejection are tight: a product equal to the minimum is rejected, and
multiplying 16 bit unsigned values can be undefined behaviour. -/
theorem C30_multiply_false :
    (mulElem i8 i8 (-128) 1 = some ⟨-128, false⟩ ∧ Fits i8 (-128 * 1)) ∧
    mulElem u16 u16 65535 65535 = none := by decide

/-! ### Division -/

theorem tdiv_natAbs_le (a b : Int) : (a.tdiv b).natAbs ≤ a.natAbs := by
  rw [Int.natAbs_tdiv]; exact Nat.div_le_self _ _

/-- Quotients that do not fit. -/
theorem fits_tdiv {r : IntTy} {v1 v2 : Int} (h1 : Fits r v1) (h0 : v2 ≠ 0)
    (hn : r.signed = false → 0 ≤ v2) :
    (¬ Fits r (v1.tdiv v2)) ↔ v2 = -1 ∧ r.signed = true ∧ v1 = r.min := by
  cases hs : r.signed
  · rw [fits_unsigned hs] at *
    have := tdiv_bounds h1.1 (show 0 < v2 by have := hn hs; omega)
    simp; omega
  · rw [fits_signed hs] at *
    have hM := max_pos r
    by_cases hm : v1 = -r.max - 1
    · by_cases hv : v2 = -1
      · subst hv hm
        simp [min_eq hs]
      · simp only [hv, false_and, iff_false, not_not]
        by_cases hv' : v2 = 1
        · subst hv'; simp; omega
        · have h2 : (v1.tdiv v2).natAbs ≤ v1.natAbs / 2 := by
            rw [Int.natAbs_tdiv]
            exact Nat.div_le_div_left (by omega) (by decide)
          omega
    · have := tdiv_natAbs_le v1 v2
      simp only [min_eq hs, hm, and_false, iff_false, not_not]
      omega

/-- C31: a zero denominator is outside of the domain and no division is performed. -/
theorem C31_divide_by_zero (t1 t2 : IntTy) (v1 : Int) : divElem t1 t2 v1 0 = some none := by
  obtain ⟨r, hr⟩ := resultInt_some t1 t2
  simp [divElem, hr, divDomain, cNe]

/-- C31: every other pair gives the truncated quotient if it fits the result type. The exception is
the minimum divided by -1, which is undefined behaviour for 32 and 64 bit results and is accepted with
a wrong result for 8 and 16 bit ones. (Not for `uint64_t` with a signed type.) -/
theorem C31_divide (t1 t2 r : IntTy) (h64 : (t1 = u64 ∨ t2 = u64) → t1.signed = t2.signed)
    (hr : resultInt t1 t2 = some r) (v1 v2 : Int) (hv1 : Fits t1 v1) (hv2 : Fits t2 v2)
    (h0 : v2 ≠ 0) :
    (Fits r (v1.tdiv v2) → divElem t1 t2 v1 v2 = some (some ⟨v1.tdiv v2, true⟩)) ∧
    (¬ Fits r (v1.tdiv v2) ↔ v2 = -1 ∧ Fits r v1 ∧ ¬ Fits r (-v1)) ∧
    (¬ Fits r (v1.tdiv v2) → Narrow r → divElem t1 t2 v1 v2 = some (some ⟨v1, true⟩)) ∧
    (¬ Fits r (v1.tdiv v2) → ¬ Narrow r → divElem t1 t2 v1 v2 = none) := by
  have hg : Fits r v1 ∧ Fits r v2 ∧ (r.signed = false → t2.signed = false) := by
    by_cases hs : t1.signed = t2.signed
    · obtain ⟨a, b, c⟩ := resultInt_same hs hr
      exact ⟨b _ hv1, c _ hv2, fun h => by rw [← hs, ← a, h]⟩
    · obtain ⟨a, b, c⟩ := resultInt_mixed hs hr
      exact ⟨b (fun h => hs (h64 (.inl h))) _ hv1, c (fun h => hs (h64 (.inr h))) _ hv2,
        by simp [a]⟩
  obtain ⟨g1, g2, hu⟩ := hg
  have hiff := fits_tdiv g1 h0 (fun h => fits_nonneg (hu h) hv2)
  have hcd : cDiv r r v1 v2 = r.promote.arith (v1.tdiv v2) := by
    rw [cDiv, wrap_common_self g1, wrap_common_self g2, if_neg h0, common_self]
  have hdom : cNe t2 t2 v2 0 = true := by
    rw [cNe_safe hv2 (fits_zero t2) (safe_same hv2 (fits_zero t2) rfl)]; simpa using h0
  have he : divElem t1 t2 v1 v2 =
      if r.promote.signed = true ∧ ¬ Fits r.promote (v1.tdiv v2) then none
      else some (some ⟨r.wrap (v1.tdiv v2), true⟩) := by
    simp only [divElem, hr, Option.bind_eq_bind, Option.bind_some, divDomain, hdom, if_true,
      divCompute, assert', wrap_fits g1, wrap_fits g2, hcd]
    have := compute_eq r (v1.tdiv v2)
    rw [common_self] at this
    rw [this]
    split <;> rfl
  refine ⟨fun hf => ?_, ?_, fun hf hn => ?_, fun hf hn => ?_⟩
  · rw [he, if_neg (by simp [fits_promote hf]), wrap_fits hf]
  · rw [hiff]
    refine and_congr_right fun hv => ?_
    constructor
    · rintro ⟨hs, rfl⟩
      refine ⟨g1, ?_⟩
      rw [fits_signed hs, min_eq hs]; omega
    · rintro ⟨-, hnf⟩
      have hs : r.signed = true := by
        cases hs : r.signed
        · have := fits_nonneg (hu hs) hv2; omega
        · rfl
      refine ⟨hs, ?_⟩
      rw [fits_signed hs] at hnf g1
      rw [min_eq hs]; omega
  · obtain ⟨rfl, hs, rfl⟩ := hiff.mp hf
    rw [he, if_neg]
    · rcases hn with rfl | rfl | rfl | rfl <;> simp [signed] at hs <;> decide
    · rcases hn with rfl | rfl | rfl | rfl <;> simp [signed] at hs <;> decide
  · obtain ⟨rfl, hs, rfl⟩ := hiff.mp hf
    have hp : r.promote = r := by cases r <;> simp [Narrow] at hn <;> rfl
    rw [he, hp, if_pos ⟨hs, hf⟩]

example : divElem i8 i8 (-7) 2 = some (some ⟨-3, true⟩) ∧ divElem u8 i8 7 (-2) =
    some (some ⟨-3, true⟩) ∧ divElem i8 i8 7 0 = some none := by decide

/-- C31: minimum / -1 is not detected; with `uint64_t` and a signed type wrong quotients are
accepted. -/
theorem C31_divide_false :
    divElem i8 i8 (-128) (-1) = some (some ⟨-128, true⟩) ∧
    divElem i32 i32 (-2147483648) (-1) = none ∧
    divElem u64 i8 9223372036854775808 1 = some (some ⟨-9223372036854775808, true⟩) := by decide

/-- C31, over arrays of unsigned values: elements with a zero denominator are marked, all others
are the truncated quotient. -/
theorem C31_divide_unsigned_arrays (t1 t2 r : IntTy) (h1 : Unsigned t1) (h2 : Unsigned t2)
    (hr : resultInt t1 t2 = some r) (in1 in2 : InPolicy Int) (outp : OutPolicy Int) (n1 n2 : Nat)
    (value1 value2 : List Int) (result : List (Cell Int)) (hv1 : value1.length = n1 * n2)
    (hv2 : value2.length = n1 * n2) (hres : result.length = n1 * n2)
    (hp1 : PolicyFor in1 (n1 * n2)) (hp2 : PolicyFor in2 (n1 * n2))
    (hf1 : ∀ v ∈ value1, Fits t1 v) (hf2 : ∀ v ∈ value2, Fits t2 v) :
    ∃ out, binary2d2d (divOp t2 r) in1 in2 outp (n1, n2) value1 (n1, n2) value2 (n1, n2) result =
        some out ∧
      Elementwise (fun i c c' => ∀ v1 v2, value1[i]? = some v1 → value2[i]? = some v2 →
        ((NoDataAt in1 value1 i ∨ NoDataAt in2 value2 i) → Marked outp c c') ∧
        (¬ (NoDataAt in1 value1 i ∨ NoDataAt in2 value2 i) →
          (v2 = 0 → Marked outp c c') ∧
          (v2 ≠ 0 → c' = ⟨v1 / v2, c.masked⟩))) result out := by
  obtain ⟨out, ho, he⟩ := C10_binary_2d2d (divOp t2 r) in1 in2 outp n1 n2 value1 value2 result
    hv1 hv2 hres hp1 hp2
  refine ⟨out, ho, he.1, fun i c hc => ?_⟩
  obtain ⟨c', hc', hl⟩ := he.2 i c hc
  refine ⟨c', hc', fun v1 v2 hi1 hi2 => ?_⟩
  have hcell := hl v1 v2 hi1 hi2
  have hx1 := hf1 _ (List.mem_of_getElem? hi1)
  have hx2 := hf2 _ (List.mem_of_getElem? hi2)
  rw [unsigned_iff] at h1 h2
  refine ⟨hcell.noData, fun hnd => ⟨fun h0 => ?_, fun h0 => ?_⟩⟩
  · subst h0
    exact hcell.outOfDomain hnd (by simp [divOp, divDomain, cNe])
  · have hdom : divDomain t2 v2 = true := by
      rw [divDomain, cNe_safe hx2 (fits_zero t2) (safe_same hx2 (fits_zero t2) rfl)]; simpa using h0
    obtain ⟨hq, hq', -⟩ := C31_divide t1 t2 r (fun _ => h1.trans h2.symm) hr v1 v2 hx1 hx2 h0
    have n2 := fits_nonneg h2 hx2
    have hfit : Fits r (v1.tdiv v2) := by
      by_contra hn
      have := (hq'.mp hn).1
      omega
    have hd := hq hfit
    simp only [divElem, hr, Option.bind_eq_bind, Option.bind_some, hdom, if_true] at hd
    have hcomp : (divOp t2 r).compute (v1, v2) = v1.tdiv v2 := by
      cases hac : divCompute t2 r v1 v2 with
      | none => simp [hac] at hd
      | some x =>
        simp only [hac, Option.bind_some, Option.some.injEq, Outcome.mk.injEq] at hd
        simp [divOp, hac, hd.1]
    have := hcell.ok hnd hdom rfl
    rw [this, hcomp, Int.tdiv_eq_ediv_of_nonneg (fits_nonneg h1 hx1)]

example : binary2d2d (divOp u8 u8) .skip .skip (.markValue 255) (1, 3) [7, 200, 3]
    (1, 3) [2, 0, 200] (1, 3) [⟨9, false⟩, ⟨9, false⟩, ⟨9, false⟩] =
      some [⟨3, false⟩, ⟨255, false⟩, ⟨0, false⟩] := by decide

/-! ### Absolute value -/

/-- C32: for a signed type of any width: the absolute value is rejected iff the value is the minimum
(the one value whose negation does not fit); every other value has its mathematical absolute value as
result. Taking the absolute value of the minimum of a 32 or 64 bit type is undefined behaviour. -/
theorem C32_absolute (t : IntTy) (h : Signed t) (v : Int) (hv : Fits t v) :
    (Fits t (-v) → absElem t v = some ⟨|v|, true⟩) ∧
    (¬ Fits t (-v) → Narrow t → ∃ x, absElem t v = some ⟨x, false⟩) ∧
    (¬ Fits t (-v) → ¬ Narrow t → absElem t v = none) := by
  have hm := h
  rw [signed_iff] at h
  have hp := promote_signed h
  have hn : cNe t t v t.min = decide (v ≠ t.min) := by
    have hmin : Fits t t.min := by
      rw [min_eq h, fits_signed h]; have := max_pos t; omega
    rw [cNe_safe hv hmin (safe_same hv hmin rfl)]
    by_cases e : v = t.min <;> simp [e]
  have hw : t.promote.wrap v = v := wrap_fits (fits_promote hv)
  have hlt : cLt t.promote i32 v 0 = decide (v < 0) :=
    cLt_safe (fits_promote hv) (fits_zero i32) (.inl (common_signed_of hp rfl))
  have he : absElem t v =
      (if v < 0 then (if Fits t.promote (-v) then some (-v) else none) else some v).bind
        fun x => some ⟨t.wrap x, decide (v ≠ t.min)⟩ := by
    simp only [absElem, h, if_true, hw, hlt, cNeg, promote_promote, arith_signed hp, hn,
      Option.bind_eq_bind, decide_eq_true_eq]
    split <;> rfl
  rw [he]
  have hM := max_pos t
  refine ⟨fun hf => ?_, fun hf hnr => ?_, fun hf hnr => ?_⟩
  · have hne : v ≠ t.min := by
      rintro rfl; rw [fits_signed h, min_eq h] at hf; omega
    by_cases hneg : v < 0
    · simp [hneg, fits_promote hf, hne, wrap_fits hf, abs_of_neg hneg]
    · simp [hneg, hne, wrap_fits hv, abs_of_nonneg (show 0 ≤ v by omega)]
  · have hmn : v = t.min := by
      rw [fits_signed h] at hf hv; rw [min_eq h]; omega
    have hneg : v < 0 := by rw [hmn, min_eq h]; omega
    have hfp : Fits t.promote (-v) := by
      rcases hnr with rfl | rfl | rfl | rfl <;> simp [signed] at h <;>
        simp only [Fits, promote, bits] at hv ⊢ <;> simp <;> omega
    exact ⟨_, by rw [if_pos hneg, if_pos hfp]; simp [hmn]; rfl⟩
  · have hneg : v < 0 := by
      rw [fits_signed h] at hf hv; omega
    have hpp : t.promote = t := by cases t <;> simp [Narrow] at hnr <;> rfl
    simp [hneg, hpp, hf]

example : absElem i8 (-127) = some ⟨127, true⟩ ∧ absElem i8 (-128) = some ⟨-128, false⟩ ∧
    absElem i64 (-9223372036854775808) = none ∧ ¬ Fits i8 (-(-128)) := by decide

/-- C32: the absolute value of an unsigned value is the value. -/
theorem C32_absolute_unsigned (t : IntTy) (h : Unsigned t) (v : Int) (hv : Fits t v) :
    absElem t v = some ⟨v, true⟩ := by
  rw [unsigned_iff] at h
  simp [absElem, h, wrap_fits hv]

/-! ### Comparison -/

/-- C33: for values of types of the same signedness the comparisons are those of the numbers. -/
theorem C33_compare (t1 t2 : IntTy) (h : Signed t1 ∧ Signed t2 ∨ Unsigned t1 ∧ Unsigned t2)
    (v1 v2 : Int) (hv1 : Fits t1 v1) (hv2 : Fits t2 v2) :
    (lessElem t1 t2 v1 v2 = true ↔ v1 < v2) ∧ (lessEqualElem t1 t2 v1 v2 = true ↔ v1 ≤ v2) ∧
    (greaterElem t1 t2 v1 v2 = true ↔ v2 < v1) ∧ (greaterEqualElem t1 t2 v1 v2 = true ↔ v2 ≤ v1) := by
  have hs : Safe t1 t2 v1 v2 := by
    apply safe_same hv1 hv2
    simp only [signed_iff, unsigned_iff] at h
    rcases h with ⟨a, b⟩ | ⟨a, b⟩ <;> rw [a, b]
  simp [lessElem, lessEqualElem, greaterElem, greaterEqualElem, cLt_safe hv1 hv2 hs,
    cLe_safe hv1 hv2 hs, cGt_safe hv1 hv2 hs, cGe_safe hv1 hv2 hs]

/-- C33: on values of one type exactly one of less, equal and greater holds; less_equal and
greater_equal are the complements of greater and less; greater is less with the arguments exchanged. -/
theorem C33_consistent (t : IntTy) (v1 v2 : Int) (hv1 : Fits t v1) (hv2 : Fits t v2) :
    (equalElem t v1 v2 = true ↔ v1 = v2) ∧
    (lessElem t t v1 v2, equalElem t v1 v2, greaterElem t t v1 v2) ∈
      [(true, false, false), (false, true, false), (false, false, true)] ∧
    lessEqualElem t t v1 v2 = !greaterElem t t v1 v2 ∧
    greaterEqualElem t t v1 v2 = !lessElem t t v1 v2 ∧
    greaterElem t t v1 v2 = lessElem t t v2 v1 ∧ equalElem t v1 v2 = equalElem t v2 v1 := by
  have hs : Safe t t v1 v2 := safe_same hv1 hv2 rfl
  have hs' : Safe t t v2 v1 := safe_same hv2 hv1 rfl
  simp only [lessElem, lessEqualElem, greaterElem, greaterEqualElem, equalElem, cLt_safe hv1 hv2 hs,
    cLe_safe hv1 hv2 hs, cGt_safe hv1 hv2 hs, cGe_safe hv1 hv2 hs, cEq_safe hv1 hv2 hs,
    cLt_safe hv2 hv1 hs', cEq_safe hv2 hv1 hs']
  rcases Int.lt_trichotomy v1 v2 with hlt | rfl | hlt
  · have : ¬ v1 = v2 := by omega
    have : ¬ v2 = v1 := by omega
    have : ¬ v2 < v1 := by omega
    simp_all
  · simp
  · have : ¬ v1 = v2 := by omega
    have : ¬ v2 = v1 := by omega
    have : ¬ v1 < v2 := by omega
    simp_all

/-- C33: for a signed and an unsigned value less agrees with the order of the numbers iff the signed
value is not negative or all values of the unsigned type fit in the type of the comparison (the
unsigned type has 8 or 16 bits, or 32 bits and the signed type 64). -/
theorem C33_compare_mixed (t1 t2 : IntTy) (h1 : Signed t1) (h2 : Unsigned t2) (v1 v2 : Int)
    (hv1 : Fits t1 v1) (hv2 : Fits t2 v2) :
    ((0 ≤ v1 ∨ Narrow t2 ∨ (t2 = u32 ∧ t1 = i64)) →
      (lessElem t1 t2 v1 v2 = true ↔ v1 < v2)) ∧
    (v1 < 0 → ¬ (Narrow t2 ∨ (t2 = u32 ∧ t1 = i64)) →
      ∃ w1 w2, Fits t1 w1 ∧ w1 < 0 ∧ Fits t2 w2 ∧ w1 < w2 ∧ lessElem t1 t2 w1 w2 = false) := by
  have hu := h2
  rw [signed_iff] at h1
  rw [unsigned_iff] at h2
  constructor
  · intro h
    have hs : Safe t1 t2 v1 v2 := by
      rcases h with h | h | ⟨rfl, rfl⟩
      · exact .inr ⟨h, fits_nonneg h2 hv2⟩
      · left
        rcases h with rfl | rfl | rfl | rfl <;> simp [signed] at h2 <;> cases t1 <;>
          simp [signed] at h1 <;> rfl
      · left; rfl
    simp [lessElem, cLt_safe hv1 hv2 hs]
  · intro hneg h
    refine ⟨-1, 1, ?_, by decide, ?_, by decide, ?_⟩
    · cases t1 <;> simp [signed] at h1 <;> decide
    · cases t2 <;> decide
    · cases t1 <;> simp [signed] at h1 <;> cases t2 <;> simp [signed, Narrow] at h2 h <;> decide

/-- C33: all four comparisons, for all types of the arguments in any order, agree with the order of the
numbers unless a negative value is compared as an unsigned number, which happens if the other type is
unsigned and has at least as many bits as the promoted type of the negative value. -/
theorem C33_compare_all (t1 t2 : IntTy) (v1 v2 : Int) (hv1 : Fits t1 v1) (hv2 : Fits t2 v2)
    (h : (v1 < 0 → Unsigned t2 → Narrow t2 ∨ (t2 = u32 ∧ t1 = i64)) ∧
      (v2 < 0 → Unsigned t1 → Narrow t1 ∨ (t1 = u32 ∧ t2 = i64))) :
    (lessElem t1 t2 v1 v2 = true ↔ v1 < v2) ∧ (lessEqualElem t1 t2 v1 v2 = true ↔ v1 ≤ v2) ∧
    (greaterElem t1 t2 v1 v2 = true ↔ v2 < v1) ∧ (greaterEqualElem t1 t2 v1 v2 = true ↔ v2 ≤ v1) := by
  have hs : Safe t1 t2 v1 v2 := by
    by_cases h0 : 0 ≤ v1 ∧ 0 ≤ v2
    · exact .inr h0
    · left
      rcases t1 <;> rcases t2 <;> first
        | rfl
        | (exfalso
           simp only [Fits, Unsigned, Narrow] at hv1 hv2 h
           first
             | (have := h.1 (by omega); simp at this; done)
             | (have := h.2 (by omega); simp at this))
  simp [lessElem, lessEqualElem, greaterElem, greaterEqualElem, cLt_safe hv1 hv2 hs,
    cLe_safe hv1 hv2 hs, cGt_safe hv1 hv2 hs, cGe_safe hv1 hv2 hs]

example : greaterEqualElem u8 i32 3 (-7) = true ∧ lessEqualElem u32 i64 3 (-7) = false := by decide

/-- C33: mixed signedness: -1 is not less than `1u`. -/
theorem C33_compare_mixed_false : lessElem i32 u32 (-1) 1 = false ∧ greaterElem i32 u32 (-1) 1 = true :=
  by decide

example : lessElem i8 u8 (-1) 1 = true ∧ lessElem i32 i64 (-5) 3 = true ∧
    equalElem u8 255 255 = true := by decide

end Fern
