import Verif.Lemmas.IntRaster
/-
Property C117: arithmetic on whole arrays of integers.

`ComputesUnless bad loop P res`: unless `bad`, the operation gives an array whose elements are related
to the original ones by `P`, in one thread and in every execution with a pool of threads; if `bad`,
every execution is undefined. `Bad` says that there is a pair of valid values for which the result is
undefined.
-/
namespace Fern.IntRaster

open IntTy Fern.Spec
open _root_.Fern.IntRaster.Spec

section

variable (op : ArithOp) (k : Checks) {t1 t2 r : IntTy} (h64 : Combinable t1 t2)
  (hr : resultInt t1 t2 = some r) (in1 in2 : InPolicy Int) (outp : OutPolicy Int)

include h64 hr

/-- C117, scalars. -/
theorem C117_0d0d (v1 v2 : Int) (c : Cell Int) (h1 : PolicyFor in1 1) (h2 : PolicyFor in2 1)
    (o1 : Fits t1 v1) (o2 : Fits t2 v2) :
    (arith0d0d op k t1 t2 r in1 in2 outp v1 v2 c = none ↔
      ¬ (NoDataAt in1 [v1] 0 ∨ NoDataAt in2 [v2] 0) ∧ Undefined op k r v1 v2) ∧
    ∀ c', arith0d0d op k t1 t2 r in1 in2 outp v1 v2 c = some c' →
      RasterCell op k t1 t2 r id in1 in2 outp (.scalar v1) (.scalar v2) 0 c c' := by
  obtain ⟨b1, hb1, hnd1⟩ := isNoData0_spec (v := v1) h1
  obtain ⟨b2, hb2, hnd2⟩ := isNoData0_spec (v := v2) h2
  by_cases hd : NoDataAt in1 [v1] 0 ∨ NoDataAt in2 [v2] 0
  · have e : arith0d0d op k t1 t2 r in1 in2 outp v1 v2 c = some (outp.mark c) := by
      rw [← hnd1, ← hnd2] at hd
      cases b1 <;> cases b2 <;> simp [arith0d0d, run0d, hb1, hb2] at hd ⊢
    refine ⟨by simp [e, hd], fun c' hc' => ?_⟩
    rw [e, Option.some.injEq] at hc'
    subst hc'
    exact ⟨fun _ => mark_spec outp c, fun h => absurd hd h⟩
  · have e : arith0d0d op k t1 t2 r in1 in2 outp v1 v2 c =
        run0d (pairActs op k t1 t2 r outp v1 v2) c := by
      rw [← hnd1, ← hnd2] at hd
      cases b1 <;> cases b2 <;> simp [arith0d0d, hb1, hb2] at hd ⊢
    obtain ⟨hu, hg⟩ := pairActs_spec op k h64 hr outp o1 o2
    rw [e]
    by_cases h : Undefined op k r v1 v2
    · simp [hu h, h, hd, run0d]
    · obtain ⟨fs, hfs, hc⟩ := hg h
      refine ⟨by simp [hfs, run0d, h], fun c' hc' => ⟨fun h => absurd h hd, fun _ => ?_⟩⟩
      simp only [hfs, run0d, Option.bind_eq_bind, Option.bind_some, Option.some.injEq] at hc'
      subst hc'
      exact ⟨v1, v2, rfl, rfl, hc c⟩

/-- C117, an array and a scalar, 1D. -/
theorem C117_1d0d (value1 : List Int) (v2 : Int) (res : List (Cell Int))
    (hs : res.length = value1.length) (h1 : PolicyFor in1 value1.length) (h2 : PolicyFor in2 1)
    (o1 : ∀ v ∈ value1, Fits t1 v) (o2 : Fits t2 v2) :
    ComputesUnless (Bad op k r id in1 in2 (.array value1) (.scalar v2) value1.length)
      (arith1d0d op k t1 t2 r in1 in2 outp value1 v2 res.length)
      (RasterCell op k t1 t2 r id in1 in2 outp (.array value1) (.scalar v2)) res := by
  obtain ⟨b, hb, hnd⟩ := isNoData0_spec (v := v2) h2
  have e : arith1d0d op k t1 t2 r in1 in2 outp value1 v2 res.length =
      some (.d1 value1.length (arrayScalarActs op k t1 t2 r in1 outp b value1 v2)) := by
    simp [arith1d0d, hs, hb]
  rw [e]
  obtain ⟨hg, hbad⟩ := body_spec (op := op) (k := k) h64 hr (f := id) (fun _ h => h) (in1 := in1)
    (in2 := in2) (outp := outp) (a1 := .array value1) (a2 := .scalar v2) (n := value1.length)
    ⟨rfl, h1⟩ h2 o1 o2 (acts := arrayScalarActs op k t1 t2 r in1 outp b value1 v2)
    (fun i hi hd => by
      obtain ⟨b1, hb1, hnd1⟩ := isNoData_spec h1 rfl hi
      have hd' : NoDataAt in1 value1 i ∨ NoDataAt in2 [v2] 0 := hd
      rw [← hnd1, ← hnd] at hd'
      cases b <;> cases b1 <;> simp [arrayScalarActs, hb1] at hd' ⊢)
    (fun i hi hd w1 w2 e1 e2 => by
      obtain ⟨b1, hb1, hnd1⟩ := isNoData_spec h1 rfl hi
      have hd' : ¬ (NoDataAt in1 value1 i ∨ NoDataAt in2 [v2] 0) := hd
      rw [← hnd1, ← hnd] at hd'
      have e1' : value1[i]? = some w1 := e1
      have e2' : w2 = v2 := e2
      subst e2'
      cases b <;> cases b1 <;> simp [arrayScalarActs, hb1, e1'] at hd' ⊢)
  exact computesUnless_d1 hs hg hbad

/-- C117, an array and a scalar, 2D. -/
theorem C117_2d0d (n1 n2 : Nat) (value1 : List Int) (v2 : Int) (res : List (Cell Int))
    (hv : value1.length = n1 * n2) (hs : res.length = n1 * n2) (h1 : PolicyFor in1 (n1 * n2))
    (h2 : PolicyFor in2 1) (o1 : ∀ v ∈ value1, Fits t1 v) (o2 : Fits t2 v2) :
    ComputesUnless (Bad op k r id in1 in2 (.array value1) (.scalar v2) (n1 * n2))
      (arith2d0d op k t1 t2 r in1 in2 outp (n1, n2) value1 v2 (n1, n2))
      (RasterCell op k t1 t2 r id in1 in2 outp (.array value1) (.scalar v2)) res := by
  obtain ⟨b, hb, hnd⟩ := isNoData0_spec (v := v2) h2
  have e : arith2d0d op k t1 t2 r in1 in2 outp (n1, n2) value1 v2 (n1, n2) =
      some (.d2 n1 n2 n2 (arrayScalarActs op k t1 t2 r in1 outp b value1 v2)) := by
    simp [arith2d0d, hb]
  rw [e]
  obtain ⟨hg, hbad⟩ := body_spec (op := op) (k := k) h64 hr (f := id) (fun _ h => h) (in1 := in1)
    (in2 := in2) (outp := outp) (a1 := .array value1) (a2 := .scalar v2) (n := n1 * n2)
    ⟨hv, h1⟩ h2 o1 o2 (acts := arrayScalarActs op k t1 t2 r in1 outp b value1 v2)
    (fun i hi hd => by
      obtain ⟨b1, hb1, hnd1⟩ := isNoData_spec h1 hv hi
      have hd' : NoDataAt in1 value1 i ∨ NoDataAt in2 [v2] 0 := hd
      rw [← hnd1, ← hnd] at hd'
      cases b <;> cases b1 <;> simp [arrayScalarActs, hb1] at hd' ⊢)
    (fun i hi hd w1 w2 e1 e2 => by
      obtain ⟨b1, hb1, hnd1⟩ := isNoData_spec h1 hv hi
      have hd' : ¬ (NoDataAt in1 value1 i ∨ NoDataAt in2 [v2] 0) := hd
      rw [← hnd1, ← hnd] at hd'
      have e1' : value1[i]? = some w1 := e1
      have e2' : w2 = v2 := e2
      subst e2'
      cases b <;> cases b1 <;> simp [arrayScalarActs, hb1, e1'] at hd' ⊢)
  exact computesUnless_d2 hs hg hbad

/-- C117, a scalar and an array, 2D. -/
theorem C117_0d2d (n1 n2 : Nat) (v1 : Int) (value2 : List Int) (res : List (Cell Int))
    (hv : value2.length = n1 * n2) (hs : res.length = n1 * n2) (h1 : PolicyFor in1 1)
    (h2 : PolicyFor in2 (n1 * n2)) (o1 : Fits t1 v1) (o2 : ∀ v ∈ value2, Fits t2 v) :
    ComputesUnless (Bad op k r id in1 in2 (.scalar v1) (.array value2) (n1 * n2))
      (arith0d2d op k t1 t2 r in1 in2 outp v1 (n1, n2) value2 (n1, n2))
      (RasterCell op k t1 t2 r id in1 in2 outp (.scalar v1) (.array value2)) res := by
  obtain ⟨b, hb, hnd⟩ := isNoData0_spec (v := v1) h1
  have e : arith0d2d op k t1 t2 r in1 in2 outp v1 (n1, n2) value2 (n1, n2) =
      some (.d2 n1 n2 n2 (scalarArrayActs op k t1 t2 r in2 outp b v1 value2)) := by
    simp [arith0d2d, hb]
  rw [e]
  obtain ⟨hg, hbad⟩ := body_spec (op := op) (k := k) h64 hr (f := id) (fun _ h => h) (in1 := in1)
    (in2 := in2) (outp := outp) (a1 := .scalar v1) (a2 := .array value2) (n := n1 * n2)
    h1 ⟨hv, h2⟩ o1 o2 (acts := scalarArrayActs op k t1 t2 r in2 outp b v1 value2)
    (fun i hi hd => by
      obtain ⟨b1, hb1, hnd1⟩ := isNoData_spec h2 hv hi
      have hd' : NoDataAt in1 [v1] 0 ∨ NoDataAt in2 value2 i := hd
      rw [← hnd1, ← hnd] at hd'
      cases b <;> cases b1 <;> simp [scalarArrayActs, hb1] at hd' ⊢)
    (fun i hi hd w1 w2 e1 e2 => by
      obtain ⟨b1, hb1, hnd1⟩ := isNoData_spec h2 hv hi
      have hd' : ¬ (NoDataAt in1 [v1] 0 ∨ NoDataAt in2 value2 i) := hd
      rw [← hnd1, ← hnd] at hd'
      have e2' : value2[i]? = some w2 := e2
      have e1' : w1 = v1 := e1
      subst e1'
      cases b <;> cases b1 <;> simp [scalarArrayActs, hb1, e2'] at hd' ⊢)
  exact computesUnless_d2 hs hg hbad

/-- C117, a scalar and an array, 1D. The second value has passed through the first value's type. -/
theorem C117_0d1d (v1 : Int) (value2 : List Int) (res : List (Cell Int))
    (hs : res.length = value2.length) (h1 : PolicyFor in1 1) (h2 : PolicyFor in2 value2.length)
    (o1 : Fits t1 v1) (o2 : ∀ v ∈ value2, Fits t2 v) :
    ComputesUnless (Bad op k r (through t1 t2) in1 in2 (.scalar v1) (.array value2) value2.length)
      (arith0d1d op k t1 t2 r in1 in2 outp v1 value2 res.length)
      (RasterCell op k t1 t2 r (through t1 t2) in1 in2 outp (.scalar v1) (.array value2)) res := by
  obtain ⟨b, hb, hnd⟩ := isNoData0_spec (v := v1) h1
  have e : arith0d1d op k t1 t2 r in1 in2 outp v1 value2 res.length =
      some (.d1 value2.length (scalarArray1dActs op k t1 t2 r in2 outp b v1 value2)) := by
    simp [arith0d1d, hs, hb]
  rw [e]
  obtain ⟨hg, hbad⟩ := body_spec (op := op) (k := k) h64 hr (f := through t1 t2)
    (fun _ _ => fits_wrap t2 _) (in1 := in1)
    (in2 := in2) (outp := outp) (a1 := .scalar v1) (a2 := .array value2) (n := value2.length)
    h1 ⟨rfl, h2⟩ o1 o2 (acts := scalarArray1dActs op k t1 t2 r in2 outp b v1 value2)
    (fun i hi hd => by
      obtain ⟨b1, hb1, hnd1⟩ := isNoData_spec h2 rfl hi
      have hd' : NoDataAt in1 [v1] 0 ∨ NoDataAt in2 value2 i := hd
      rw [← hnd1, ← hnd] at hd'
      cases b <;> cases b1 <;> simp [scalarArray1dActs, hb1] at hd' ⊢)
    (fun i hi hd w1 w2 e1 e2 => by
      obtain ⟨b1, hb1, hnd1⟩ := isNoData_spec h2 rfl hi
      have hd' : ¬ (NoDataAt in1 [v1] 0 ∨ NoDataAt in2 value2 i) := hd
      rw [← hnd1, ← hnd] at hd'
      have e2' : value2[i]? = some w2 := e2
      have e1' : w1 = v1 := e1
      subst e1'
      cases b <;> cases b1 <;> simp [scalarArray1dActs, hb1, e2'] at hd' ⊢)
  exact computesUnless_d1 hs hg hbad

/-- C117, two arrays, 1D. The second value has passed through the first value's type. -/
theorem C117_1d1d (value1 value2 : List Int) (res : List (Cell Int))
    (hv1 : value1.length = res.length) (hv2 : value2.length = res.length)
    (h1 : PolicyFor in1 res.length) (h2 : PolicyFor in2 res.length)
    (o1 : ∀ v ∈ value1, Fits t1 v) (o2 : ∀ v ∈ value2, Fits t2 v) :
    ComputesUnless (Bad op k r (through t1 t2) in1 in2 (.array value1) (.array value2) res.length)
      (arith1d1d op k t1 t2 r in1 in2 outp value1 value2 res.length)
      (RasterCell op k t1 t2 r (through t1 t2) in1 in2 outp (.array value1) (.array value2)) res := by
  have e : arith1d1d op k t1 t2 r in1 in2 outp value1 value2 res.length =
      some (.d1 res.length (arrayArray1dActs op k t1 t2 r in1 in2 outp value1 value2)) := by
    simp [arith1d1d, hv1, hv2]
  rw [e]
  obtain ⟨hg, hbad⟩ := body_spec (op := op) (k := k) h64 hr (f := through t1 t2)
    (fun _ _ => fits_wrap t2 _) (in1 := in1)
    (in2 := in2) (outp := outp) (a1 := .array value1) (a2 := .array value2) (n := res.length)
    ⟨hv1, h1⟩ ⟨hv2, h2⟩ o1 o2 (acts := arrayArray1dActs op k t1 t2 r in1 in2 outp value1 value2)
    (fun i hi hd => by
      obtain ⟨b1, hb1, hnd1⟩ := isNoData_spec h1 hv1 hi
      obtain ⟨b2, hb2, hnd2⟩ := isNoData_spec h2 hv2 hi
      have hd' : NoDataAt in1 value1 i ∨ NoDataAt in2 value2 i := hd
      rw [← hnd1, ← hnd2] at hd'
      cases b1 <;> cases b2 <;> simp [arrayArray1dActs, hb1, hb2] at hd' ⊢)
    (fun i hi hd w1 w2 e1 e2 => by
      obtain ⟨b1, hb1, hnd1⟩ := isNoData_spec h1 hv1 hi
      obtain ⟨b2, hb2, hnd2⟩ := isNoData_spec h2 hv2 hi
      have hd' : ¬ (NoDataAt in1 value1 i ∨ NoDataAt in2 value2 i) := hd
      rw [← hnd1, ← hnd2] at hd'
      have e1' : value1[i]? = some w1 := e1
      have e2' : value2[i]? = some w2 := e2
      cases b1 <;> cases b2 <;> simp [arrayArray1dActs, hb1, hb2, e1', e2'] at hd' ⊢)
  exact computesUnless_d1 rfl hg hbad

/-- C117, two arrays, 2D. -/
theorem C117_2d2d (n1 n2 : Nat) (value1 value2 : List Int) (res : List (Cell Int))
    (hv1 : value1.length = n1 * n2) (hv2 : value2.length = n1 * n2) (hs : res.length = n1 * n2)
    (h1 : PolicyFor in1 (n1 * n2)) (h2 : PolicyFor in2 (n1 * n2))
    (o1 : ∀ v ∈ value1, Fits t1 v) (o2 : ∀ v ∈ value2, Fits t2 v) :
    ComputesUnless (Bad op k r id in1 in2 (.array value1) (.array value2) (n1 * n2))
      (arith2d2d op k t1 t2 r in1 in2 outp (n1, n2) value1 (n1, n2) value2 (n1, n2))
      (RasterCell op k t1 t2 r id in1 in2 outp (.array value1) (.array value2)) res := by
  have e : arith2d2d op k t1 t2 r in1 in2 outp (n1, n2) value1 (n1, n2) value2 (n1, n2) =
      some (.d2 n1 n2 n2 (arrayArrayActs op k t1 t2 r in1 in2 outp value1 value2)) := by
    simp [arith2d2d]
  rw [e]
  obtain ⟨hg, hbad⟩ := body_spec (op := op) (k := k) h64 hr (f := id) (fun _ h => h) (in1 := in1)
    (in2 := in2) (outp := outp) (a1 := .array value1) (a2 := .array value2) (n := n1 * n2)
    ⟨hv1, h1⟩ ⟨hv2, h2⟩ o1 o2 (acts := arrayArrayActs op k t1 t2 r in1 in2 outp value1 value2)
    (fun i hi hd => by
      obtain ⟨b1, hb1, hnd1⟩ := isNoData_spec h1 hv1 hi
      obtain ⟨b2, hb2, hnd2⟩ := isNoData_spec h2 hv2 hi
      have hd' : NoDataAt in1 value1 i ∨ NoDataAt in2 value2 i := hd
      rw [← hnd1, ← hnd2] at hd'
      cases b1 <;> cases b2 <;> simp [arrayArrayActs, hb1, hb2] at hd' ⊢)
    (fun i hi hd w1 w2 e1 e2 => by
      obtain ⟨b1, hb1, hnd1⟩ := isNoData_spec h1 hv1 hi
      obtain ⟨b2, hb2, hnd2⟩ := isNoData_spec h2 hv2 hi
      have hd' : ¬ (NoDataAt in1 value1 i ∨ NoDataAt in2 value2 i) := hd
      rw [← hnd1, ← hnd2] at hd'
      have e1' : value1[i]? = some w1 := e1
      have e2' : value2[i]? = some w2 := e2
      cases b1 <;> cases b2 <;> simp [arrayArrayActs, hb1, hb2, e1', e2'] at hd' ⊢)
  exact computesUnless_d2 hs hg hbad

end

/-! ### What it means for the types -/

/-- C117: arrays of unsigned numbers, with the operation's policies, are never undefined, but for
products of 16 bits. -/
theorem C117_unsigned_defined (op : ArithOp) (k : Checks) (r : IntTy) (hk : k.domain = true)
    (hr : Unsigned r) (h16 : op = .multiply → r ≠ u16) (f : Int → Int) (in1 in2 : InPolicy Int)
    (a1 a2 : Arg Int) (n : Nat) : ¬ Bad op k r f in1 in2 a1 a2 n := by
  rintro ⟨i, -, -, v1, v2, -, -, ⟨x, -, ⟨h | h, -⟩ | ⟨h, h', -⟩⟩ | ⟨-, h⟩⟩
  · subst h; simp [Unsigned] at hr
  · subst h; simp [Unsigned] at hr
  · exact h16 h h'
  · simp [hk] at h

/-- C117: nor are arrays of signed numbers of 8 and 16 bits. -/
theorem C117_narrow_defined (op : ArithOp) (k : Checks) (r : IntTy) (hk : k.domain = true)
    (hr : r = i8 ∨ r = i16) (f : Int → Int) (in1 in2 : InPolicy Int)
    (a1 a2 : Arg Int) (n : Nat) : ¬ Bad op k r f in1 in2 a1 a2 n := by
  rintro ⟨i, -, -, v1, v2, -, -, ⟨x, -, ⟨h | h, -⟩ | ⟨h, h', -⟩⟩ | ⟨-, h⟩⟩
  · rcases hr with rfl | rfl <;> simp at h
  · rcases hr with rfl | rfl <;> simp at h
  · rcases hr with rfl | rfl <;> simp at h'
  · simp [hk] at h

/-- C117: arrays of `int32_t` or `int64_t` numbers. The operation is undefined precisely if an exact
result does not fit: an element of the result is never marked because a sum or difference overflows. -/
theorem C117_wide_signed (op : ArithOp) (hop : op = .add ∨ op = .subtract) (d rg : Bool) (t : IntTy)
    (ht : t = i32 ∨ t = i64) (in1 in2 : InPolicy Int) (outp : OutPolicy Int) (n1 n2 : Nat)
    (value1 value2 : List Int) (res : List (Cell Int))
    (hv1 : value1.length = n1 * n2) (hv2 : value2.length = n1 * n2) (hs : res.length = n1 * n2)
    (h1 : PolicyFor in1 (n1 * n2)) (h2 : PolicyFor in2 (n1 * n2))
    (o1 : ∀ v ∈ value1, Fits t v) (o2 : ∀ v ∈ value2, Fits t v) :
    ComputesUnless
      (∃ i < n1 * n2, ¬ (NoDataAt in1 value1 i ∨ NoDataAt in2 value2 i) ∧ ∃ v1 v2 x,
        value1[i]? = some v1 ∧ value2[i]? = some v2 ∧ exact op v1 v2 = some x ∧ ¬ Fits t x)
      (arith2d2d op ⟨d, rg⟩ t t t in1 in2 outp (n1, n2) value1 (n1, n2) value2 (n1, n2))
      (fun i c c' =>
        (NoDataAt in1 value1 i ∨ NoDataAt in2 value2 i → Marked outp c c') ∧
        (¬ (NoDataAt in1 value1 i ∨ NoDataAt in2 value2 i) → ∃ v1 v2 x,
          value1[i]? = some v1 ∧ value2[i]? = some v2 ∧ exact op v1 v2 = some x ∧
            c' = ⟨x, c.masked⟩)) res := by
  have hsig : Signed t := by rcases ht with rfl | rfl <;> simp [Signed]
  have hun : ¬ Unsigned t := by rcases ht with rfl | rfl <;> simp [Unsigned]
  have hne : t ≠ u64 := by rcases ht with rfl | rfl <;> simp
  have h16 : t ≠ u16 := by rcases ht with rfl | rfl <;> simp
  have hex : ∀ v1 v2, ∃ x, exact op v1 v2 = some x := fun v1 v2 => by
    rcases hop with rfl | rfl <;> exact ⟨_, rfl⟩
  have hr : resultInt t t = some t := by rcases ht with rfl | rfl <;> decide
  obtain ⟨hg, hb⟩ := C117_2d2d op ⟨d, rg⟩ ⟨fun h => hne h.1, fun h => hne h.2⟩ hr in1 in2 outp n1 n2
    value1 value2 res hv1 hv2 hs h1 h2 o1 o2
  have key : (∃ i < n1 * n2, ¬ (NoDataAt in1 value1 i ∨ NoDataAt in2 value2 i) ∧ ∃ v1 v2 x,
      value1[i]? = some v1 ∧ value2[i]? = some v2 ∧ exact op v1 v2 = some x ∧ ¬ Fits t x) ↔
      Bad op ⟨d, rg⟩ t id in1 in2 (.array value1) (.array value2) (n1 * n2) := by
    constructor
    · rintro ⟨i, hi, hn, v1, v2, x, e1, e2, ex, hf⟩
      exact ⟨i, hi, hn, v1, v2, e1, e2, .inl ⟨x, ex, .inl ⟨ht, hf⟩⟩⟩
    · rintro ⟨i, hi, hn, v1, v2, e1, e2, ⟨x, ex, ⟨-, hf⟩ | ⟨-, h, -⟩⟩ | ⟨h, -⟩⟩
      · exact ⟨i, hi, hn, v1, v2, x, e1, e2, ex, hf⟩
      · exact absurd h h16
      · obtain ⟨x, hx⟩ := hex v1 (id v2)
        rw [hx] at h
        exact absurd h (by simp)
  rw [← key] at hg hb
  refine ⟨fun h => ?_, hb⟩
  obtain ⟨out, ho, ⟨hl, he⟩, hp⟩ := hg h
  refine ⟨out, ho, ⟨hl, fun i c hc => ?_⟩, hp⟩
  obtain ⟨c', hc', hm, hv⟩ := he i c hc
  refine ⟨c', hc', hm, fun hn => ?_⟩
  obtain ⟨v1, v2, e1, e2, -, hx⟩ := hv hn
  obtain ⟨x, ex⟩ := hex v1 v2
  have hi : i < n1 * n2 := by
    rw [← hs]
    exact (List.getElem?_eq_some_iff.mp hc).1
  have hf : Fits t x := by
    by_contra hf
    exact h ⟨i, hi, hn, v1, v2, x, e1, e2, ex, hf⟩
  obtain ⟨y, hy, ha, -⟩ := hx x ex
  have hacc : Accepted op ⟨d, rg⟩ t t t v1 (id v2) x := by
    rcases hop with rfl | rfl
    · exact .inr ⟨hf, fun _ hu => absurd hu hun, fun hu => absurd hu hun⟩
    · exact .inr hf
  refine ⟨v1, v2, x, e1, e2, ex, ?_⟩
  rw [ha hacc, stored_fits hf hy]

/-- C117: arrays of unsigned numbers, or of signed numbers of 8 or 16 bits, of one type, are added and
subtracted without undefined behaviour: each valid element is the exact result, or it is marked since
the exact result does not fit. -/
theorem C117_narrow (op : ArithOp) (hop : op = .add ∨ op = .subtract) (t : IntTy)
    (ht : t ≠ i32 ∧ t ≠ i64) (in1 in2 : InPolicy Int) (outp : OutPolicy Int) (n1 n2 : Nat)
    (value1 value2 : List Int) (res : List (Cell Int))
    (hv1 : value1.length = n1 * n2) (hv2 : value2.length = n1 * n2) (hs : res.length = n1 * n2)
    (h1 : PolicyFor in1 (n1 * n2)) (h2 : PolicyFor in2 (n1 * n2))
    (o1 : ∀ v ∈ value1, Fits t v) (o2 : ∀ v ∈ value2, Fits t v) :
    Computes
      (arith2d2d op ⟨true, true⟩ t t t in1 in2 outp (n1, n2) value1 (n1, n2) value2 (n1, n2))
      (fun i c c' =>
        (NoDataAt in1 value1 i ∨ NoDataAt in2 value2 i → Marked outp c c') ∧
        (¬ (NoDataAt in1 value1 i ∨ NoDataAt in2 value2 i) → ∃ v1 v2 x,
          value1[i]? = some v1 ∧ value2[i]? = some v2 ∧ exact op v1 v2 = some x ∧
            (Fits t x → c' = ⟨x, c.masked⟩) ∧
            (¬ Fits t x → ∃ y, Marked outp ⟨y, c.masked⟩ c'))) res := by
  have hne : ¬ (t = u64 ∧ Signed t) := by rintro ⟨rfl, h⟩; simp [Signed] at h
  have hne' : ¬ (Signed t ∧ t = u64) := fun h => hne h.symm
  have hex : ∀ v1 v2, ∃ x, exact op v1 v2 = some x := fun v1 v2 => by
    rcases hop with rfl | rfl <;> exact ⟨_, rfl⟩
  have hsu : Signed t → Unsigned t → False := by cases t <;> simp [Signed, Unsigned]
  have hr : resultInt t t = some t := by cases t <;> decide
  obtain ⟨hg, -⟩ := C117_2d2d op ⟨true, true⟩ ⟨hne, hne'⟩ hr in1 in2 outp n1 n2
    value1 value2 res hv1 hv2 hs h1 h2 o1 o2
  obtain ⟨out, ho, ⟨hl, he⟩, hp⟩ := hg (by
    rintro ⟨i, -, -, v1, v2, -, -, ⟨x, -, ⟨h | h, -⟩ | ⟨h, -, -⟩⟩ | ⟨-, h⟩⟩
    · exact ht.1 h
    · exact ht.2 h
    · rcases hop with rfl | rfl <;> simp at h
    · simp at h)
  refine ⟨out, ho, ⟨hl, fun i c hc => ?_⟩, hp⟩
  obtain ⟨c', hc', hm, hv⟩ := he i c hc
  refine ⟨c', hc', hm, fun hn => ?_⟩
  obtain ⟨v1, v2, e1, e2, -, hx⟩ := hv hn
  obtain ⟨x, ex⟩ := hex v1 v2
  obtain ⟨y, hy, ha, hb⟩ := hx x ex
  have hacc : Accepted op ⟨true, true⟩ t t t v1 (id v2) x ↔ Fits t x := by
    rcases hop with rfl | rfl
    · exact ⟨fun h => by rcases h with h | h; exacts [by simp at h, h.1],
        fun h => .inr ⟨h, fun a b => (hsu a b).elim, fun a b => (hsu b a).elim⟩⟩
    · exact ⟨fun h => by rcases h with h | h; exacts [by simp at h, h], fun h => .inr h⟩
  exact ⟨v1, v2, x, e1, e2, ex, fun hf => by rw [ha (hacc.mpr hf), stored_fits hf hy],
    fun hf => ⟨y, hb (fun h => hf (hacc.mp h))⟩⟩

/-- C117: if range errors are discarded, then whatever the values are, a valid element is the stored
remainder of the exact result, and is not marked. -/
theorem C117_discard_range (op : ArithOp) {t1 t2 r : IntTy} (h64 : Combinable t1 t2)
    (hr : resultInt t1 t2 = some r) (in1 in2 : InPolicy Int) (outp : OutPolicy Int) (n1 n2 : Nat)
    (value1 value2 : List Int) (res : List (Cell Int))
    (hv1 : value1.length = n1 * n2) (hv2 : value2.length = n1 * n2) (hs : res.length = n1 * n2)
    (h1 : PolicyFor in1 (n1 * n2)) (h2 : PolicyFor in2 (n1 * n2))
    (o1 : ∀ v ∈ value1, Fits t1 v) (o2 : ∀ v ∈ value2, Fits t2 v) :
    ComputesUnless
      (Bad op ⟨true, false⟩ r id in1 in2 (.array value1) (.array value2) (n1 * n2))
      (arith2d2d op ⟨true, false⟩ t1 t2 r in1 in2 outp (n1, n2) value1 (n1, n2) value2 (n1, n2))
      (fun i c c' => ∃ v1 v2, value1[i]? = some v1 ∧ value2[i]? = some v2 ∧
        (NoDataAt in1 value1 i ∨ NoDataAt in2 value2 i ∨ exact op v1 v2 = none → Marked outp c c') ∧
        (¬ (NoDataAt in1 value1 i ∨ NoDataAt in2 value2 i) → ∀ x, exact op v1 v2 = some x →
          ∃ m : Int, Fits r (x + m * 2 ^ r.bits) ∧ c' = ⟨x + m * 2 ^ r.bits, c.masked⟩)) res := by
  obtain ⟨hg, hb⟩ := C117_2d2d op ⟨true, false⟩ h64 hr in1 in2 outp n1 n2
    value1 value2 res hv1 hv2 hs h1 h2 o1 o2
  refine ⟨fun h => ?_, hb⟩
  obtain ⟨out, ho, ⟨hl, he⟩, hp⟩ := hg h
  refine ⟨out, ho, ⟨hl, fun i c hc => ?_⟩, hp⟩
  obtain ⟨c', hc', hm, hv⟩ := he i c hc
  have hi : i < n1 * n2 := by
    rw [← hs]
    exact (List.getElem?_eq_some_iff.mp hc).1
  have e1 := List.getElem?_eq_getElem (l := value1) (i := i) (by omega)
  have e2 := List.getElem?_eq_getElem (l := value2) (i := i) (by omega)
  refine ⟨c', hc', _, _, e1, e2, fun hn => ?_, fun hn x ex => ?_⟩
  · by_cases hd : NoDataAt in1 value1 i ∨ NoDataAt in2 value2 i
    · exact hm hd
    · obtain ⟨w1, w2, f1, f2, hz, -⟩ := hv hd
      have f1' : value1[i]? = some w1 := f1
      have f2' : value2[i]? = some w2 := f2
      rw [e1, Option.some.injEq] at f1'
      rw [e2, Option.some.injEq] at f2'
      subst f1' f2'
      rcases hn with hn | hn | hn
      · exact absurd (.inl hn) hd
      · exact absurd (.inr hn) hd
      · exact hz hn
  · obtain ⟨w1, w2, f1, f2, -, hx⟩ := hv hn
    have f1' : value1[i]? = some w1 := f1
    have f2' : value2[i]? = some w2 := f2
    rw [e1, Option.some.injEq] at f1'
    rw [e2, Option.some.injEq] at f2'
    subst f1' f2'
    obtain ⟨y, ⟨hy, m, rfl⟩, ha, -⟩ := hx x ex
    exact ⟨m, hy, ha (.inl rfl)⟩

/-- C117: passing through the first value's type does nothing to values of a type of at most as many
bits. -/
theorem C117_through (t1 t2 : IntTy) (h : t2.bits ≤ t1.bits) (v : Int) (hv : Fits t2 v) :
    through t1 t2 v = v := by
  cases t1 <;> cases t2 <;> simp [bits] at h <;> simp only [Fits] at hv <;>
    simp [through, wrap_u8, wrap_u16, wrap_u32, wrap_u64, wrap_i8, wrap_i16, wrap_i32, wrap_i64] <;>
    omega

/-- C117: values of a type of more bits are changed, so in 1D a sum of a `uint8_t` and a `uint16_t` is
wrong without being marked: 1 + 300 gives 45. -/
theorem C117_through_false :
    runSeq (arith1d1d .add ⟨true, true⟩ u8 u16 u16 .skip .skip .markMask [1] [300] 1) [⟨0, false⟩] =
      some [⟨45, false⟩] ∧
    runSeq (arith2d2d .add ⟨true, true⟩ u8 u16 u16 .skip .skip .markMask (1, 1) [1] (1, 1) [300]
      (1, 1)) [⟨0, false⟩] = some [⟨301, false⟩] := ⟨rfl, rfl⟩

/-- C117: in 1D a division by a value that is not zero divides by zero, in the sense that the element is
marked, if the value becomes zero in the first value's type. -/
theorem C117_through_divide :
    runSeq (arith1d1d .divide ⟨true, true⟩ u8 u16 u16 .skip .skip .markMask [9] [256] 1)
      [⟨7, false⟩] = some [⟨7, true⟩] := rfl

/-- C117: arguments and results of different sizes make an assertion fail. -/
theorem C117_sizes (op : ArithOp) (k : Checks) (t1 t2 : IntTy) (r : IntTy) (in1 in2 : InPolicy Int)
    (outp : OutPolicy Int) (v : Int) (value1 value2 : List Int) (size : Nat) (vs1 vs2 rs : Nat × Nat) :
    (value1.length ≠ size → arith1d0d op k t1 t2 r in1 in2 outp value1 v size = none ∧
      arith0d1d op k t1 t2 r in1 in2 outp v value1 size = none) ∧
    (value1.length ≠ value2.length ∨ value2.length ≠ size →
      arith1d1d op k t1 t2 r in1 in2 outp value1 value2 size = none) ∧
    (vs1 ≠ rs → arith2d0d op k t1 t2 r in1 in2 outp vs1 value1 v rs = none ∧
      arith0d2d op k t1 t2 r in1 in2 outp v vs1 value1 rs = none) ∧
    (vs1 ≠ vs2 ∨ vs1 ≠ rs → arith2d2d op k t1 t2 r in1 in2 outp vs1 value1 vs2 value2 rs = none) := by
  have hs : ∀ a b : Nat × Nat, a ≠ b → assertSame a b = none := by
    intro a b h
    by_cases h1 : a.1 = b.1
    · have h2 : a.2 ≠ b.2 := fun h2 => h (Prod.ext h1 h2)
      simp [assertSame, assert', h1, h2]
    · simp [assertSame, assert', h1]
  refine ⟨fun h => ?_, ?_, fun h => ?_, ?_⟩
  · simp [arith1d0d, arith0d1d,  assert', h]
  · rintro (h | h)
    · simp [arith1d1d,  assert', h]
    · by_cases h' : value1.length = value2.length <;> simp [arith1d1d,  assert', h, h']
  · simp [arith2d0d, arith0d2d,  hs _ _ h]
  · rintro (h | h)
    · simp [arith2d2d,  hs _ _ h]
    · by_cases h' : vs1 = vs2
      · subst h'
        simp [arith2d2d,  hs _ _ h]
      · simp [arith2d2d,  hs _ _ h']

/-! ### Cases -/

/-- Two arrays of `int8_t`: the second sum does not fit, and is marked. -/
example : runSeq (arith2d2d .add ⟨true, true⟩ i8 i8 i8 .skip .skip .markMask (1, 2) [100, 100] (1, 2)
    [27, 28] (1, 2)) [⟨0, false⟩, ⟨0, false⟩] = some [⟨127, false⟩, ⟨-128, true⟩] := rfl

/-- The same with arrays of `int32_t` is undefined. -/
example : runSeq (arith2d2d .add ⟨true, true⟩ i32 i32 i32 .skip .skip .markMask (1, 2)
    [2147483647, 1] (1, 2) [1, 1] (1, 2)) [⟨0, false⟩, ⟨0, false⟩] = none := rfl

/-- Unless the pair is no-data. -/
example : runSeq (arith2d2d .add ⟨true, true⟩ i32 i32 i32 (.byMask [1, 0] 1) .skip .markMask (1, 2)
    [2147483647, 1] (1, 2) [1, 1] (1, 2)) [⟨0, false⟩, ⟨0, false⟩] =
    some [⟨0, true⟩, ⟨2, false⟩] := rfl

/-- Dividing by zero with and without the policy. -/
example : runSeq (arith2d0d .divide ⟨true, true⟩ u8 u8 u8 .skip .skip .markMask (1, 1) [9] 0 (1, 1))
      [⟨7, false⟩] = some [⟨7, true⟩] ∧
    runSeq (arith2d0d .divide ⟨false, true⟩ u8 u8 u8 .skip .skip .markMask (1, 1) [9] 0 (1, 1))
      [⟨7, false⟩] = none ∧
    Bad .divide ⟨false, true⟩ u8 id .skip .skip (.array [9]) (.scalar 0) 1 :=
  ⟨rfl, rfl, 0, by decide, by simp [Arg.NoData, NoDataAt], 9, 0, rfl, rfl, .inr ⟨rfl, rfl⟩⟩

/-- Mixed types: `int8_t` -1 plus `uint8_t` 5 is marked although 4 fits. -/
example : runSeq (arith0d2d .add ⟨true, true⟩ i8 u8 i16 .skip .skip .markMask (-1) (1, 1) [5] (1, 1))
    [⟨7, false⟩] = some [⟨4, true⟩] ∧ Combinable i8 u8 :=
  ⟨rfl, by simp [Combinable]⟩

end Fern.IntRaster
