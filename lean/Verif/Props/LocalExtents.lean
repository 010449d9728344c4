import Verif.Props.LocalOps
/-
Properties C09 and C10: local operations on arguments of different extents.

`none` is an assertion that failed.
-/
namespace Fern

open Spec

variable {V V1 V2 R : Type}

section

variable (op : LocalOp (V1 × V2) R) (in1 : InPolicy V1) (in2 : InPolicy V2) (outp : OutPolicy R)

/-- C10: an array and a scalar, when the array and the result differ in size: refused. -/
theorem C10_extents_1d0d (value1 : List V1) (v2 : V2) (result : List (Cell R)) (t : Nat)
    (h : value1.length ≠ result.length) :
    binary1d0d op in1 in2 outp value1 v2 result = none ∧
      binary1d0dTasks t op in1 in2 outp value1 v2 result = none := by
  simp [binary1d0d, binary1d0dTasks, assert', h]

/-- C10: a raster and a scalar, when the raster and the result differ in extents: refused. -/
theorem C10_extents_2d0d (vs1 rs : Nat × Nat) (value1 : List V1) (v2 : V2) (result : List (Cell R))
    (t : Nat) (h : vs1 ≠ rs) :
    binary2d0d op in1 in2 outp vs1 value1 v2 rs result = none ∧
      binary2d0dTasks t op in1 in2 outp vs1 value1 v2 rs = none := by
  rw [binary2d0d, binary2d0dTasks]
  by_cases h1 : vs1.1 = rs.1
  · have h2 : vs1.2 ≠ rs.2 := fun h2 => h (Prod.ext h1 h2)
    simp [assert', h1, h2]
  · simp [assert', h1]

/-- C10: a scalar and a raster, when the raster and the result differ in extents: refused. -/
theorem C10_extents_0d2d (v1 : V1) (vs2 rs : Nat × Nat) (value2 : List V2) (result : List (Cell R))
    (t : Nat) (h : vs2 ≠ rs) :
    binary0d2d op in1 in2 outp v1 vs2 value2 rs result = none ∧
      binary0d2dTasks t op in1 in2 outp v1 vs2 value2 rs = none := by
  rw [binary0d2d, binary0d2dTasks]
  by_cases h1 : vs2.1 = rs.1
  · have h2 : vs2.2 ≠ rs.2 := fun h2 => h (Prod.ext h1 h2)
    simp [assert', h1, h2]
  · simp [assert', h1]

/-- C10: two rasters, when the three extents are not all the same: refused. -/
theorem C10_extents_2d2d (vs1 vs2 rs : Nat × Nat) (value1 : List V1) (value2 : List V2)
    (result : List (Cell R)) (t : Nat) (h : ¬ (vs1 = vs2 ∧ vs1 = rs)) :
    binary2d2d op in1 in2 outp vs1 value1 vs2 value2 rs result = none ∧
      binary2d2dTasks t op in1 in2 outp vs1 value1 vs2 value2 rs = none := by
  rw [binary2d2d, binary2d2dTasks]
  obtain ⟨a1, a2⟩ := vs1
  obtain ⟨b1, b2⟩ := vs2
  obtain ⟨c1, c2⟩ := rs
  by_cases h1 : a1 = b1
  · by_cases h2 : a2 = b2
    · by_cases h3 : a1 = c1
      · have h4 : a2 ≠ c2 := fun h4 => h (by simp [← h1, ← h2, ← h3, ← h4])
        subst h1 h2 h3
        simp [assert', h4]
      · subst h1 h2
        simp [assert', h3]
    · subst h1
      simp [assert', h2]
  · simp [assert', h1]

end

section

variable (op : LocalOp (V1 × V1) R) (conv : V2 → V1) (in1 : InPolicy V1) (in2 : InPolicy V2)
  (outp : OutPolicy R)

/-- C10: two arrays, when the three sizes are not all the same: refused. -/
theorem C10_extents_1d1d (value1 : List V1) (value2 : List V2) (result : List (Cell R)) (t : Nat)
    (h : ¬ (value1.length = value2.length ∧ value1.length = result.length)) :
    binary1d1d op conv in1 in2 outp value1 value2 result = none ∧
      binary1d1dTasks t op conv in1 in2 outp value1 value2 result = none := by
  by_cases h1 : value1.length = value2.length
  · have h2 : value2.length ≠ result.length := fun h2 => h ⟨h1, h1.trans h2⟩
    simp [binary1d1d, binary1d1dTasks, assert', h1, h2]
  · simp [binary1d1d, binary1d1dTasks, assert', h1]

/-- C10: a scalar and an array, one thread, when the array and the result differ in size: refused. -/
theorem C10_extents_0d1d (v1 : V1) (value2 : List V2) (result : List (Cell R))
    (h : value2.length ≠ result.length) :
    binary0d1d op conv in1 in2 outp v1 value2 result = none := by
  simp [binary0d1d, assert', h]

end

/-- C10: a scalar and an array on several threads is the one case where the sizes are not looked at:
given a result of three elements and an array of two, the sequential run is refused, and the parallel
run has an outcome: the third element keeps what it had. -/
theorem C10_extents_0d1d_false :
    ∃ (op : LocalOp (Nat × Nat) Nat) (value2 : List Nat) (result out : List (Cell Nat)),
      value2.length ≠ result.length ∧
      binary0d1d op id .skip .skip .dontMark 10 value2 result = none ∧
      ParResult (binary0d1dTasks 2 op id .skip .skip .dontMark 10 value2) result (some out) ∧
      out = [⟨11, false⟩, ⟨12, false⟩, ⟨7, false⟩] := by
  refine ⟨⟨fun _ => true, fun p => p.1 + p.2, fun _ _ => true⟩, [1, 2],
    [⟨5, false⟩, ⟨6, false⟩, ⟨7, false⟩], _, by decide, rfl,
    ⟨List.flatten _, Interleave.sequential _, rfl⟩, rfl⟩

/-- C09: the parallel unary operations refuse arguments of different extents as well. -/
theorem C09_unary_extents_par (op : LocalOp V R) (inp : InPolicy V) (outp : OutPolicy R) (t : Nat)
    (value : List V) (result : List (Cell R)) (vs rs : Nat × Nat) :
    (value.length ≠ result.length → unary1dTasks op inp outp t value result = none) ∧
      (vs ≠ rs → unary2dTasks op inp outp t vs value rs = none) := by
  refine ⟨fun h => by simp [unary1dTasks, assert', h], fun h => ?_⟩
  rw [unary2dTasks]
  by_cases h1 : vs.1 = rs.1
  · have h2 : vs.2 ≠ rs.2 := fun h2 => h (Prod.ext h1 h2)
    simp [assert', h1, h2]
  · simp [assert', h1]

/- Non-vacuity: different extents with the same number of elements. -/
example : ((2, 3) : Nat × Nat) ≠ (3, 2) := by decide

end Fern
