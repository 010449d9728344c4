import Verif.Lemmas.LocalOps
/-
Properties C04, C05, C09, C10, C11, C12: local operations.
-/
namespace Fern

open Spec

variable {A V V1 V2 R P γ : Type}

/-! ### C09: unary local operations -/

/-- C09, 0D. -/
theorem C09_unary_0d (op : LocalOp V R) (inp : InPolicy V) (outp : OutPolicy R) (value : V)
    (c : Cell R) (hp : PolicyFor inp 1) :
    ∃ c', unary0d op inp outp value c = some c' ∧
      LocalCell op outp (NoDataAt inp [value] 0) value c c' := by
  obtain ⟨b, hb, hnd⟩ := isNoData0_spec (v := value) hp
  refine ⟨foldActs (if b then [outp.mark] else valueActs op outp value) c, ?_, localActs_ok hnd c⟩
  cases b <;> simp [unary0d, run0d, hb, foldActs]

/-- C09, 1D. -/
theorem C09_unary_1d (op : LocalOp V R) (inp : InPolicy V) (outp : OutPolicy R) (value : List V)
    (result : List (Cell R)) (hsize : value.length = result.length)
    (hp : PolicyFor inp value.length) :
    ∃ out, unary1d op inp outp value result = some out ∧
      Elementwise (fun i c c' => ∀ v, value[i]? = some v →
        LocalCell op outp (NoDataAt inp value i) v c c') result out := by
  have := seq1d_spec (unaryActs_ok op outp rfl hp) result hsize.symm
  simpa [unary1d, hsize] using this

/-- C09, 2D: `n1` rows and `n2` columns. -/
theorem C09_unary_2d (op : LocalOp V R) (inp : InPolicy V) (outp : OutPolicy R) (n1 n2 : Nat)
    (value : List V) (result : List (Cell R)) (hv : value.length = n1 * n2)
    (hr : result.length = n1 * n2) (hp : PolicyFor inp (n1 * n2)) :
    ∃ out, unary2d op inp outp (n1, n2) value (n1, n2) result = some out ∧
      Elementwise (fun i c c' => ∀ v, value[i]? = some v →
        LocalCell op outp (NoDataAt inp value i) v c c') result out := by
  have := seq2d_spec (unaryActs_ok op outp hv hp) result hr
  simpa [unary2d] using this

/-- C09: arguments of different extents are refused. -/
theorem C09_unary_2d_extents (op : LocalOp V R) (inp : InPolicy V) (outp : OutPolicy R)
    (vs rs : Nat × Nat) (value : List V) (result : List (Cell R)) (h : vs ≠ rs) :
    unary2d op inp outp vs value rs result = none := by
  rw [unary2d]
  by_cases h1 : vs.1 = rs.1
  · have h2 : vs.2 ≠ rs.2 := fun h2 => h (Prod.ext h1 h2)
    simp [assert', h1, h2]
  · simp [assert', h1]

@[inherit_doc C09_unary_2d_extents]
theorem C09_unary_1d_extents (op : LocalOp V R) (inp : InPolicy V) (outp : OutPolicy R)
    (value : List V) (result : List (Cell R)) (h : value.length ≠ result.length) :
    unary1d op inp outp value result = none := by
  simp [unary1d, assert', h]

/-- C04, unary 1D: the possible outcomes of the parallel run are exactly the sequential outcome. -/
theorem C04_unary_1d (op : LocalOp V R) (inp : InPolicy V) (outp : OutPolicy R) (value : List V)
    (result : List (Cell R)) (hsize : value.length = result.length)
    (hp : PolicyFor inp value.length) (t : Nat) (ht : 1 ≤ t) (o : Option (List (Cell R))) :
    ParResult (unary1dTasks op inp outp t value result) result o ↔
      o = unary1d op inp outp value result := by
  have := par1d_iff (unaryActs_ok op outp rfl hp) ht result hsize.symm o
  simpa [unary1d, unary1dTasks, hsize] using this

/-- C04, unary 2D. -/
theorem C04_unary_2d (op : LocalOp V R) (inp : InPolicy V) (outp : OutPolicy R) (n1 n2 : Nat)
    (value : List V) (result : List (Cell R)) (hv : value.length = n1 * n2)
    (hr : result.length = n1 * n2) (hp : PolicyFor inp (n1 * n2)) (t : Nat) (ht : 1 ≤ t)
    (o : Option (List (Cell R))) :
    ParResult (unary2dTasks op inp outp t (n1, n2) value (n1, n2)) result o ↔
      o = unary2d op inp outp (n1, n2) value (n1, n2) result := by
  have := par2d_iff (unaryActs_ok op outp hv hp) ht result hr o
  simpa [unary2d, unary2dTasks] using this

/-! ### C11: nullary local operations -/

/-- C11, 1D: elements that are no-data are marked, all others get the value. -/
theorem C11_nullary_1d (r : R) (outp : OutPolicy R) (inp : InPolicy P) (pvals : List P)
    (result : List (Cell R)) (hsize : pvals.length = result.length)
    (hp : PolicyFor inp result.length) :
    ∃ out, nullary1d r outp inp pvals result = some out ∧
      Elementwise (fun i c c' => (NoDataAt inp pvals i → Marked outp c c') ∧
        (¬ NoDataAt inp pvals i → c' = ⟨r, c.masked⟩)) result out :=
  seq1d_spec (nullaryActs_ok r outp hsize hp) result rfl

/-- C11, 2D. -/
theorem C11_nullary_2d (r : R) (outp : OutPolicy R) (inp : InPolicy P) (pvals : List P)
    (n1 n2 : Nat) (result : List (Cell R)) (hv : pvals.length = n1 * n2)
    (hr : result.length = n1 * n2) (hp : PolicyFor inp (n1 * n2)) :
    ∃ out, nullary2d r outp inp pvals (n1, n2) result = some out ∧
      Elementwise (fun i c c' => (NoDataAt inp pvals i → Marked outp c c') ∧
        (¬ NoDataAt inp pvals i → c' = ⟨r, c.masked⟩)) result out :=
  seq2d_spec (nullaryActs_ok r outp hv hp) result hr

/-- C11, 0D. -/
theorem C11_nullary_0d (r : R) (outp : OutPolicy R) (inp : InPolicy P) (pv : P) (c : Cell R)
    (hp : PolicyFor inp 1) :
    ∃ c', nullary0d r outp (inp.isNoData0 pv) c = some c' ∧
      (NoDataAt inp [pv] 0 → Marked outp c c') ∧
      (¬ NoDataAt inp [pv] 0 → c' = ⟨r, c.masked⟩) := by
  obtain ⟨b, hb, hnd⟩ := isNoData0_spec (v := pv) hp
  rw [← hnd]
  cases b <;> simp [nullary0d, run0d, hb, storeAct, mark_spec]

/-- C04, nullary 1D. -/
theorem C04_nullary_1d (r : R) (outp : OutPolicy R) (inp : InPolicy P) (pvals : List P)
    (result : List (Cell R)) (hsize : pvals.length = result.length)
    (hp : PolicyFor inp result.length) (t : Nat) (ht : 1 ≤ t) (o : Option (List (Cell R))) :
    ParResult (nullary1dTasks r outp t inp pvals result) result o ↔
      o = nullary1d r outp inp pvals result :=
  par1d_iff (nullaryActs_ok r outp hsize hp) ht result rfl o

/-- C04, nullary 2D. -/
theorem C04_nullary_2d (r : R) (outp : OutPolicy R) (inp : InPolicy P) (pvals : List P)
    (n1 n2 : Nat) (result : List (Cell R)) (hv : pvals.length = n1 * n2)
    (hr : result.length = n1 * n2) (hp : PolicyFor inp (n1 * n2)) (t : Nat) (ht : 1 ≤ t)
    (o : Option (List (Cell R))) :
    ParResult (nullary2dTasks r outp t inp pvals (n1, n2)) result o ↔
      o = nullary2d r outp inp pvals (n1, n2) result :=
  par2d_iff (nullaryActs_ok r outp hv hp) ht result hr o

/-! ### C12: disaggregation -/

/-- C12, 0D. -/
theorem C12_disaggregate_0d (op : LocalOp V R) (inp : InPolicy V) (outp : OutPolicy R) (value : V)
    (c : Cell R) (hp : PolicyFor inp 1) :
    ∃ c', disaggregate0d op inp outp value c = some c' ∧
      LocalCell op outp (NoDataAt inp [value] 0) value c c' := by
  obtain ⟨b, hb, hnd⟩ := isNoData0_spec (v := value) hp
  refine ⟨foldActs (if b then [outp.mark] else valueActs op outp value) c, ?_, localActs_ok hnd c⟩
  cases b <;> simp [disaggregate0d, disaggregateActs, run0d, hb, foldActs]

/-- C12, 1D: every element is handled as the scalar. -/
theorem C12_disaggregate_1d (op : LocalOp V R) (inp : InPolicy V) (outp : OutPolicy R) (value : V)
    (result : List (Cell R)) (hp : PolicyFor inp 1) :
    ∃ out, disaggregate1d op inp outp value result = some out ∧
      Elementwise (fun _ c c' => LocalCell op outp (NoDataAt inp [value] 0) value c c')
        result out := by
  obtain ⟨b, hb, hnd⟩ := isNoData0_spec (v := value) hp
  simpa [disaggregate1d, hb] using
    seq1d_spec (disaggregateActs_ok op outp hnd result.length) result rfl

/-- C12, 2D. -/
theorem C12_disaggregate_2d (op : LocalOp V R) (inp : InPolicy V) (outp : OutPolicy R) (value : V)
    (n1 n2 : Nat) (result : List (Cell R)) (hr : result.length = n1 * n2) (hp : PolicyFor inp 1) :
    ∃ out, disaggregate2d op inp outp value (n1, n2) result = some out ∧
      Elementwise (fun _ c c' => LocalCell op outp (NoDataAt inp [value] 0) value c c')
        result out := by
  obtain ⟨b, hb, hnd⟩ := isNoData0_spec (v := value) hp
  simpa [disaggregate2d, hb] using
    seq2d_spec (disaggregateActs_ok op outp hnd (n1 * n2)) result hr

/-- C04, disaggregate 1D. -/
theorem C04_disaggregate_1d (op : LocalOp V R) (inp : InPolicy V) (outp : OutPolicy R) (value : V)
    (result : List (Cell R)) (hp : PolicyFor inp 1) (t : Nat) (ht : 1 ≤ t)
    (o : Option (List (Cell R))) :
    ParResult (disaggregate1dTasks op inp outp t value result) result o ↔
      o = disaggregate1d op inp outp value result := by
  obtain ⟨b, hb, hnd⟩ := isNoData0_spec (v := value) hp
  simpa [disaggregate1d, disaggregate1dTasks, hb] using
    par1d_iff (disaggregateActs_ok op outp hnd result.length) ht result rfl o

/-- C04, disaggregate 2D. -/
theorem C04_disaggregate_2d (op : LocalOp V R) (inp : InPolicy V) (outp : OutPolicy R) (value : V)
    (n1 n2 : Nat) (result : List (Cell R)) (hr : result.length = n1 * n2) (hp : PolicyFor inp 1)
    (t : Nat) (ht : 1 ≤ t) (o : Option (List (Cell R))) :
    ParResult (disaggregate2dTasks op inp outp t value (n1, n2)) result o ↔
      o = disaggregate2d op inp outp value (n1, n2) result := by
  obtain ⟨b, hb, hnd⟩ := isNoData0_spec (v := value) hp
  simpa [disaggregate2d, disaggregate2dTasks, hb] using
    par2d_iff (disaggregateActs_ok op outp hnd (n1 * n2)) ht result hr o

/-! ### C10: binary local operations -/

/-- C10, 0D/0D. -/
theorem C10_binary_0d0d (op : LocalOp (V1 × V2) R) (in1 : InPolicy V1) (in2 : InPolicy V2)
    (outp : OutPolicy R) (v1 : V1) (v2 : V2) (c : Cell R) (h1 : PolicyFor in1 1)
    (h2 : PolicyFor in2 1) :
    ∃ c', binary0d0d op in1 in2 outp v1 v2 c = some c' ∧
      LocalCell op outp (NoDataAt in1 [v1] 0 ∨ NoDataAt in2 [v2] 0) (v1, v2) c c' := by
  obtain ⟨b1, hb1, hnd1⟩ := isNoData0_spec (v := v1) h1
  obtain ⟨b2, hb2, hnd2⟩ := isNoData0_spec (v := v2) h2
  refine ⟨foldActs (if b1 || b2 then [outp.mark] else valueActs op outp (v1, v2)) c, ?_,
    localActs_ok (by rw [← hnd1, ← hnd2]; simp) c⟩
  cases b1 <;> cases b2 <;> simp [binary0d0d, run0d, hb1, hb2, foldActs]

/-- C10, 1D/0D. -/
theorem C10_binary_1d0d (op : LocalOp (V1 × V2) R) (in1 : InPolicy V1) (in2 : InPolicy V2)
    (outp : OutPolicy R) (value1 : List V1) (v2 : V2) (result : List (Cell R))
    (hsize : value1.length = result.length) (h1 : PolicyFor in1 value1.length)
    (h2 : PolicyFor in2 1) :
    ∃ out, binary1d0d op in1 in2 outp value1 v2 result = some out ∧
      Elementwise (fun i c c' => ∀ v1, value1[i]? = some v1 →
        LocalCell op outp (NoDataAt in1 value1 i ∨ NoDataAt in2 [v2] 0) (v1, v2) c c')
        result out := by
  obtain ⟨b, hb, hnd⟩ := isNoData0_spec (v := v2) h2
  have := seq1d_spec (binaryArr0dActs_ok op outp rfl h1 hnd) result hsize.symm
  simpa [binary1d0d, hsize, hb] using this

/-- C04, binary 1D/0D. -/
theorem C04_binary_1d0d (op : LocalOp (V1 × V2) R) (in1 : InPolicy V1) (in2 : InPolicy V2)
    (outp : OutPolicy R) (value1 : List V1) (v2 : V2) (result : List (Cell R))
    (hsize : value1.length = result.length) (h1 : PolicyFor in1 value1.length)
    (h2 : PolicyFor in2 1) (t : Nat) (ht : 1 ≤ t) (o : Option (List (Cell R))) :
    ParResult (binary1d0dTasks t op in1 in2 outp value1 v2 result) result o ↔
      o = binary1d0d op in1 in2 outp value1 v2 result := by
  obtain ⟨b, hb, hnd⟩ := isNoData0_spec (v := v2) h2
  have := par1d_iff (binaryArr0dActs_ok op outp rfl h1 hnd) ht result hsize.symm o
  simpa [binary1d0d, binary1d0dTasks, hsize, hb] using this

/-- C10, 2D/0D. -/
theorem C10_binary_2d0d (op : LocalOp (V1 × V2) R) (in1 : InPolicy V1) (in2 : InPolicy V2)
    (outp : OutPolicy R) (n1 n2 : Nat) (value1 : List V1) (v2 : V2) (result : List (Cell R))
    (hv : value1.length = n1 * n2) (hr : result.length = n1 * n2) (h1 : PolicyFor in1 (n1 * n2))
    (h2 : PolicyFor in2 1) :
    ∃ out, binary2d0d op in1 in2 outp (n1, n2) value1 v2 (n1, n2) result = some out ∧
      Elementwise (fun i c c' => ∀ v1, value1[i]? = some v1 →
        LocalCell op outp (NoDataAt in1 value1 i ∨ NoDataAt in2 [v2] 0) (v1, v2) c c')
        result out := by
  obtain ⟨b, hb, hnd⟩ := isNoData0_spec (v := v2) h2
  have := seq2d_spec (binaryArr0dActs_ok op outp hv h1 hnd) result hr
  simpa [binary2d0d, hb] using this

/-- C04, binary 2D/0D. -/
theorem C04_binary_2d0d (op : LocalOp (V1 × V2) R) (in1 : InPolicy V1) (in2 : InPolicy V2)
    (outp : OutPolicy R) (n1 n2 : Nat) (value1 : List V1) (v2 : V2) (result : List (Cell R))
    (hv : value1.length = n1 * n2) (hr : result.length = n1 * n2) (h1 : PolicyFor in1 (n1 * n2))
    (h2 : PolicyFor in2 1) (t : Nat) (ht : 1 ≤ t) (o : Option (List (Cell R))) :
    ParResult (binary2d0dTasks t op in1 in2 outp (n1, n2) value1 v2 (n1, n2)) result o ↔
      o = binary2d0d op in1 in2 outp (n1, n2) value1 v2 (n1, n2) result := by
  obtain ⟨b, hb, hnd⟩ := isNoData0_spec (v := v2) h2
  have := par2d_iff (binaryArr0dActs_ok op outp hv h1 hnd) ht result hr o
  simpa [binary2d0d, binary2d0dTasks, hb] using this

/-- C10, 0D/2D. -/
theorem C10_binary_0d2d (op : LocalOp (V1 × V2) R) (in1 : InPolicy V1) (in2 : InPolicy V2)
    (outp : OutPolicy R) (n1 n2 : Nat) (v1 : V1) (value2 : List V2) (result : List (Cell R))
    (hv : value2.length = n1 * n2) (hr : result.length = n1 * n2) (h1 : PolicyFor in1 1)
    (h2 : PolicyFor in2 (n1 * n2)) :
    ∃ out, binary0d2d op in1 in2 outp v1 (n1, n2) value2 (n1, n2) result = some out ∧
      Elementwise (fun i c c' => ∀ v2, value2[i]? = some v2 →
        LocalCell op outp (NoDataAt in1 [v1] 0 ∨ NoDataAt in2 value2 i) (v1, v2) c c')
        result out := by
  obtain ⟨b, hb, hnd⟩ := isNoData0_spec (v := v1) h1
  have := seq2d_spec (binary0dArrActs_ok op outp hv h2 hnd) result hr
  simpa [binary0d2d, hb] using this

/-- C04, binary 0D/2D. -/
theorem C04_binary_0d2d (op : LocalOp (V1 × V2) R) (in1 : InPolicy V1) (in2 : InPolicy V2)
    (outp : OutPolicy R) (n1 n2 : Nat) (v1 : V1) (value2 : List V2) (result : List (Cell R))
    (hv : value2.length = n1 * n2) (hr : result.length = n1 * n2) (h1 : PolicyFor in1 1)
    (h2 : PolicyFor in2 (n1 * n2)) (t : Nat) (ht : 1 ≤ t) (o : Option (List (Cell R))) :
    ParResult (binary0d2dTasks t op in1 in2 outp v1 (n1, n2) value2 (n1, n2)) result o ↔
      o = binary0d2d op in1 in2 outp v1 (n1, n2) value2 (n1, n2) result := by
  obtain ⟨b, hb, hnd⟩ := isNoData0_spec (v := v1) h1
  have := par2d_iff (binary0dArrActs_ok op outp hv h2 hnd) ht result hr o
  simpa [binary0d2d, binary0d2dTasks, hb] using this

/-- C10, 2D/2D. -/
theorem C10_binary_2d2d (op : LocalOp (V1 × V2) R) (in1 : InPolicy V1) (in2 : InPolicy V2)
    (outp : OutPolicy R) (n1 n2 : Nat) (value1 : List V1) (value2 : List V2)
    (result : List (Cell R)) (hv1 : value1.length = n1 * n2) (hv2 : value2.length = n1 * n2)
    (hr : result.length = n1 * n2) (h1 : PolicyFor in1 (n1 * n2)) (h2 : PolicyFor in2 (n1 * n2)) :
    ∃ out, binary2d2d op in1 in2 outp (n1, n2) value1 (n1, n2) value2 (n1, n2) result = some out ∧
      Elementwise (fun i c c' => ∀ v1 v2, value1[i]? = some v1 → value2[i]? = some v2 →
        LocalCell op outp (NoDataAt in1 value1 i ∨ NoDataAt in2 value2 i) (v1, v2) c c')
        result out := by
  have := seq2d_spec (binary2d2dActs_ok op outp hv1 h1 hv2 h2) result hr
  simpa [binary2d2d] using this

/-- C04, binary 2D/2D. -/
theorem C04_binary_2d2d (op : LocalOp (V1 × V2) R) (in1 : InPolicy V1) (in2 : InPolicy V2)
    (outp : OutPolicy R) (n1 n2 : Nat) (value1 : List V1) (value2 : List V2)
    (result : List (Cell R)) (hv1 : value1.length = n1 * n2) (hv2 : value2.length = n1 * n2)
    (hr : result.length = n1 * n2) (h1 : PolicyFor in1 (n1 * n2)) (h2 : PolicyFor in2 (n1 * n2))
    (t : Nat) (ht : 1 ≤ t) (o : Option (List (Cell R))) :
    ParResult (binary2d2dTasks t op in1 in2 outp (n1, n2) value1 (n1, n2) value2 (n1, n2))
        result o ↔
      o = binary2d2d op in1 in2 outp (n1, n2) value1 (n1, n2) value2 (n1, n2) result := by
  have := par2d_iff (binary2d2dActs_ok op outp hv1 h1 hv2 h2) ht result hr o
  simpa [binary2d2d, binary2d2dTasks] using this

/-- C10, 0D/1D. The operation works on the second value converted to the first value's type. -/
theorem C10_binary_0d1d_converted (op : LocalOp (V1 × V1) R) (conv : V2 → V1) (in1 : InPolicy V1)
    (in2 : InPolicy V2) (outp : OutPolicy R) (v1 : V1) (value2 : List V2) (result : List (Cell R))
    (hsize : value2.length = result.length) (h1 : PolicyFor in1 1)
    (h2 : PolicyFor in2 value2.length) :
    ∃ out, binary0d1d op conv in1 in2 outp v1 value2 result = some out ∧
      Elementwise (fun i c c' => ∀ v2, value2[i]? = some v2 →
        LocalCell op outp (NoDataAt in1 [v1] 0 ∨ NoDataAt in2 value2 i) (v1, conv v2) c c')
        result out := by
  obtain ⟨b, hb, hnd⟩ := isNoData0_spec (v := v1) h1
  have := seq1d_spec (binary0d1dActs_ok op conv outp rfl h2 hnd) result hsize.symm
  simpa [binary0d1d, hsize, hb] using this

/-- C10, 1D/1D. The operation works on the second value converted to the first value's type. -/
theorem C10_binary_1d1d_converted (op : LocalOp (V1 × V1) R) (conv : V2 → V1) (in1 : InPolicy V1)
    (in2 : InPolicy V2) (outp : OutPolicy R) (value1 : List V1) (value2 : List V2)
    (result : List (Cell R)) (hsize1 : value1.length = result.length)
    (hsize2 : value2.length = result.length) (h1 : PolicyFor in1 result.length)
    (h2 : PolicyFor in2 result.length) :
    ∃ out, binary1d1d op conv in1 in2 outp value1 value2 result = some out ∧
      Elementwise (fun i c c' => ∀ v1 v2, value1[i]? = some v1 → value2[i]? = some v2 →
        LocalCell op outp (NoDataAt in1 value1 i ∨ NoDataAt in2 value2 i) (v1, conv v2) c c')
        result out := by
  have := seq1d_spec (binary1d1dActs_ok op conv outp hsize1 h1 hsize2 h2) result rfl
  simpa [binary1d1d, hsize1, hsize2] using this

/-- C04, binary 0D/1D. -/
theorem C04_binary_0d1d (op : LocalOp (V1 × V1) R) (conv : V2 → V1) (in1 : InPolicy V1)
    (in2 : InPolicy V2) (outp : OutPolicy R) (v1 : V1) (value2 : List V2) (result : List (Cell R))
    (hsize : value2.length = result.length) (h1 : PolicyFor in1 1)
    (h2 : PolicyFor in2 value2.length) (t : Nat) (ht : 1 ≤ t) (o : Option (List (Cell R))) :
    ParResult (binary0d1dTasks t op conv in1 in2 outp v1 value2) result o ↔
      o = binary0d1d op conv in1 in2 outp v1 value2 result := by
  obtain ⟨b, hb, hnd⟩ := isNoData0_spec (v := v1) h1
  have := par1d_iff (binary0d1dActs_ok op conv outp rfl h2 hnd) ht result hsize.symm o
  simpa [binary0d1d, binary0d1dTasks, hsize, hb] using this

/-- C04, binary 1D/1D. -/
theorem C04_binary_1d1d (op : LocalOp (V1 × V1) R) (conv : V2 → V1) (in1 : InPolicy V1)
    (in2 : InPolicy V2) (outp : OutPolicy R) (value1 : List V1) (value2 : List V2)
    (result : List (Cell R)) (hsize1 : value1.length = result.length)
    (hsize2 : value2.length = result.length) (h1 : PolicyFor in1 result.length)
    (h2 : PolicyFor in2 result.length) (t : Nat) (ht : 1 ≤ t) (o : Option (List (Cell R))) :
    ParResult (binary1d1dTasks t op conv in1 in2 outp value1 value2 result) result o ↔
      o = binary1d1d op conv in1 in2 outp value1 value2 result := by
  have := par1d_iff (binary1d1dActs_ok op conv outp hsize1 h1 hsize2 h2) ht result rfl o
  simpa [binary1d1d, binary1d1dTasks, hsize1, hsize2] using this

/-- The operation `op'`, instantiated for the first value's type twice, agrees with the intended
operation `op` through the conversion. -/
def ConvOk (op : LocalOp (V1 × V2) R) (op' : LocalOp (V1 × V1) R) (conv : V2 → V1) : Prop :=
  ∀ v1 v2, op'.withinDomain (v1, conv v2) = op.withinDomain (v1, v2) ∧
    op'.compute (v1, conv v2) = op.compute (v1, v2) ∧
    ∀ r, op'.withinRange (v1, conv v2) r = op.withinRange (v1, v2) r

theorem LocalCell.of_conv {op : LocalOp (V1 × V2) R} {op' : LocalOp (V1 × V1) R} {conv : V2 → V1}
    (h : ConvOk op op' conv) {outp : OutPolicy R} {nd : Prop} {v1 : V1} {v2 : V2} {c c' : Cell R}
    (hc : LocalCell op' outp nd (v1, conv v2) c c') : LocalCell op outp nd (v1, v2) c c' := by
  obtain ⟨hd, hcomp, hr⟩ := h v1 v2
  obtain ⟨a1, a2, a3, a4⟩ := hc
  rw [hd] at a2 a3 a4
  rw [hcomp, hr] at a3 a4
  exact ⟨a1, a2, a3, a4⟩

/-- C10, 1D/1D, conditional: when converting the second value to the first value's type does not
matter, the operation is the intended one. Without the condition the property is
false, see `C10_binary_1d1d_false`. -/
theorem C10_binary_1d1d_of_conv (op : LocalOp (V1 × V2) R) (op' : LocalOp (V1 × V1) R)
    (conv : V2 → V1) (hconv : ConvOk op op' conv) (in1 : InPolicy V1)
    (in2 : InPolicy V2) (outp : OutPolicy R) (value1 : List V1) (value2 : List V2)
    (result : List (Cell R)) (hsize1 : value1.length = result.length)
    (hsize2 : value2.length = result.length) (h1 : PolicyFor in1 result.length)
    (h2 : PolicyFor in2 result.length) :
    ∃ out, binary1d1d op' conv in1 in2 outp value1 value2 result = some out ∧
      Elementwise (fun i c c' => ∀ v1 v2, value1[i]? = some v1 → value2[i]? = some v2 →
        LocalCell op outp (NoDataAt in1 value1 i ∨ NoDataAt in2 value2 i) (v1, v2) c c')
        result out := by
  obtain ⟨out, ho, hl, hc⟩ := C10_binary_1d1d_converted op' conv in1 in2 outp value1 value2 result
    hsize1 hsize2 h1 h2
  refine ⟨out, ho, hl, fun i c hi => ?_⟩
  obtain ⟨c', hc', hP⟩ := hc i c hi
  exact ⟨c', hc', fun v1 v2 e1 e2 => LocalCell.of_conv hconv (hP v1 v2 e1 e2)⟩

/-- C10, 0D/1D, conditional (see `C10_binary_1d1d_of_conv`). -/
theorem C10_binary_0d1d_of_conv (op : LocalOp (V1 × V2) R) (op' : LocalOp (V1 × V1) R)
    (conv : V2 → V1) (hconv : ConvOk op op' conv) (in1 : InPolicy V1)
    (in2 : InPolicy V2) (outp : OutPolicy R) (v1 : V1) (value2 : List V2) (result : List (Cell R))
    (hsize : value2.length = result.length) (h1 : PolicyFor in1 1)
    (h2 : PolicyFor in2 value2.length) :
    ∃ out, binary0d1d op' conv in1 in2 outp v1 value2 result = some out ∧
      Elementwise (fun i c c' => ∀ v2, value2[i]? = some v2 →
        LocalCell op outp (NoDataAt in1 [v1] 0 ∨ NoDataAt in2 value2 i) (v1, v2) c c')
        result out := by
  obtain ⟨out, ho, hl, hc⟩ := C10_binary_0d1d_converted op' conv in1 in2 outp v1 value2 result
    hsize h1 h2
  refine ⟨out, ho, hl, fun i c hi => ?_⟩
  obtain ⟨c', hc', hP⟩ := hc i c hi
  exact ⟨c', hc', fun v2 e2 => LocalCell.of_conv hconv (hP v2 e2)⟩

/-- The greater-than comparison of an unsigned 8 bit first argument and a signed second argument;
`greaterU8` is its instantiation for two unsigned values. -/
def greaterU8S : LocalOp (BitVec 8 × Int) Bool := ⟨fun _ => true, fun p => decide ((p.1.toNat : Int) > p.2), fun _ _ => true⟩
@[inherit_doc greaterU8S]
def greaterU8 : LocalOp (BitVec 8 × BitVec 8) Bool :=
  ⟨fun _ => true, fun p => decide (p.1.toNat > p.2.toNat), fun _ _ => true⟩

/-- C10 is false for 1D/1D arguments of different types: `uint8_t` 5 > `int8_t` -1, but the operation
stores false since -1 is first converted to `uint8_t`. -/
theorem C10_binary_1d1d_false :
    binary1d1d greaterU8 (BitVec.ofInt 8) .skip .skip .dontMark [5#8] [-1] [⟨false, false⟩] =
      some [⟨false, false⟩] ∧ greaterU8S.compute (5#8, -1) = true := by
  constructor <;> rfl

/-- The same for 0D/1D. -/
theorem C10_binary_0d1d_false :
    binary0d1d greaterU8 (BitVec.ofInt 8) .skip .skip .dontMark (5#8) [-1] [⟨false, false⟩] =
      some [⟨false, false⟩] ∧ greaterU8S.compute (5#8, -1) = true := by
  constructor <;> rfl

/-! ### C05: footprints -/

/-- C05, 1D: the tasks of a parallel operation on an array of `n` elements, whatever its element
actions are, touch only elements of the array, and no two tasks touch the same element. -/
theorem C05_footprint_1d (acts : Nat → Option (List (γ → γ))) (t n : Nat) (blocks : List (List Nat))
    (hb : blocks1d t n = some blocks) (tasks : List (List (Act γ)))
    (h : parTasks acts blocks = some tasks) :
    (∀ task ∈ tasks, ∀ a ∈ task, a.idx < n) ∧
    ∀ p q (hp : p < tasks.length) (hq : q < tasks.length), p ≠ q →
      ∀ a ∈ tasks[p], ∀ b ∈ tasks[q], a.idx ≠ b.idx :=
  parTasks_footprint (blocks1d_flatten hb) h

/-- C05, 2D: the same for an array of `n1 * n2` elements. -/
theorem C05_footprint_2d (acts : Nat → Option (List (γ → γ))) (t n1 n2 : Nat)
    (blocks : List (List Nat)) (hb : blocks2d t n1 n2 n2 = some blocks)
    (tasks : List (List (Act γ))) (h : parTasks acts blocks = some tasks) :
    (∀ task ∈ tasks, ∀ a ∈ task, a.idx < n1 * n2) ∧
    ∀ p q (hp : p < tasks.length) (hq : q < tasks.length), p ≠ q →
      ∀ a ∈ tasks[p], ∀ b ∈ tasks[q], a.idx ≠ b.idx :=
  parTasks_footprint (blocks2d_flatten hb) h

end Fern

namespace Fern

open Spec

section
variable {V V1 V2 R γ : Type}

/-- C05 for the tasks of the unary 1D operation. -/
theorem C05_unary_1d (op : LocalOp V R) (inp : InPolicy V) (outp : OutPolicy R) (t : Nat)
    (value : List V) (result : List (Cell R)) (tasks : List (List (Act (Cell R))))
    (h : unary1dTasks op inp outp t value result = some tasks) :
    (∀ task ∈ tasks, ∀ a ∈ task, a.idx < result.length) ∧
    ∀ p q (hp : p < tasks.length) (hq : q < tasks.length), p ≠ q →
      ∀ a ∈ tasks[p], ∀ b ∈ tasks[q], a.idx ≠ b.idx := by
  unfold unary1dTasks at h
  by_cases hs : value.length = result.length
  · rw [hs] at h
    cases hb : blocks1d t result.length with
    | none => simp [hb] at h
    | some blocks => exact C05_footprint_1d _ _ _ _ hb _ (by simpa [hb] using h)
  · rw [show (value.length == result.length) = false by simpa using hs] at h
    simp at h

/-- C05 for the tasks of the binary 2D/2D operation. -/
theorem C05_binary_2d2d (op : LocalOp (V1 × V2) R) (in1 : InPolicy V1) (in2 : InPolicy V2)
    (outp : OutPolicy R) (t n1 n2 : Nat) (value1 : List V1) (value2 : List V2)
    (tasks : List (List (Act (Cell R))))
    (h : binary2d2dTasks t op in1 in2 outp (n1, n2) value1 (n1, n2) value2 (n1, n2) = some tasks) :
    (∀ task ∈ tasks, ∀ a ∈ task, a.idx < n1 * n2) ∧
    ∀ p q (hp : p < tasks.length) (hq : q < tasks.length), p ≠ q →
      ∀ a ∈ tasks[p], ∀ b ∈ tasks[q], a.idx ≠ b.idx := by
  cases hb : blocks2d t n1 n2 n2 with
  | none => simp [binary2d2dTasks, hb] at h
  | some blocks =>
    exact C05_footprint_2d _ _ _ _ _ hb _ (by simpa [binary2d2dTasks, hb] using h)

end

/-! Concrete cases. -/

/-- Absolute value of 8 bit integers, with the out-of-domain and out-of-range policies. -/
def exampleOp : LocalOp Int Int :=
  ⟨fun v => decide (v ≠ 13), fun v => v.natAbs, fun _ r => decide (r ≤ 127)⟩

/-- Five elements: fine, no-data, out of domain, out of range, fine. The hypotheses of the 1D theorems
hold here, and every case of `LocalCell` occurs. -/
example : unary1d exampleOp (.byMask [0, 1, 0, 0, 0] 1) .markMask [-4, 7, 13, -128, 5]
    [⟨0, false⟩, ⟨0, false⟩, ⟨0, false⟩, ⟨0, false⟩, ⟨0, true⟩] =
    some [⟨4, false⟩, ⟨0, true⟩, ⟨0, true⟩, ⟨128, true⟩, ⟨5, true⟩] := by rfl

example : [-4, 7, 13, -128, 5].length = [(⟨0, false⟩ : Cell Int), ⟨0, false⟩, ⟨0, false⟩,
    ⟨0, false⟩, ⟨0, true⟩].length ∧ PolicyFor (V := Int) (.byMask [0, 1, 0, 0, 0] 1) 5 := ⟨rfl, rfl⟩

/-- A schedule in which two tasks really interleave. -/
example : ParResult (unary1dTasks exampleOp .skip (.markValue 99) 2 [-4, 13] [⟨0, false⟩, ⟨0, false⟩])
    [⟨0, false⟩, ⟨0, false⟩] (some [⟨4, false⟩, ⟨99, false⟩]) := by
  refine ⟨_, Interleave.step (pre := []) (Interleave.step (pre := [_]) (Interleave.step (pre := [])
    (Interleave.done ?_))), ?_⟩
  · simp
  · rfl

/-- 2 x 2, second argument no-data / result out of range. -/
example : binary2d2d ⟨fun p => p.2 ≠ 0, fun p => p.1 / p.2, fun _ r => decide (r < 10)⟩
    (.detect (fun v => v == (99 : Int))) (.byMask [0, 0, 1, 0] 1) (.markValue (99 : Int))
    (2, 2) [8, 99, 6, 70] (2, 2) [(2 : Int), 1, 1, 0] (2, 2)
    [⟨0, false⟩, ⟨0, false⟩, ⟨0, false⟩, ⟨0, false⟩] =
    some [⟨4, false⟩, ⟨99, false⟩, ⟨99, false⟩, ⟨99, false⟩] := by rfl

example : disaggregate2d exampleOp .skip .markMask (-7) (2, 2) [⟨0, false⟩, ⟨0, true⟩, ⟨0, false⟩,
    ⟨0, false⟩] = some [⟨7, false⟩, ⟨7, true⟩, ⟨7, false⟩, ⟨7, false⟩] := by rfl

example : nullary1d (1 : Int) .dontMark (.byMask [0, 255] 255 : InPolicy Int) [3, 4]
    [⟨0, false⟩, ⟨0, false⟩] = some [⟨1, false⟩, ⟨0, false⟩] := by rfl

end Fern
