import Verif.Lemmas.Select
/-
Properties C14 (cover), C15 (if), C16 (no-data set algebra).
-/
namespace Fern

open Spec

variable {R V1 V2 : Type}

/-! ### C14 -/

/-- C14, 0D/0D. -/
theorem C14_cover_0d0d (in1 in2 : InPolicy R) (outp : OutPolicy R) (v1 v2 : R) (c : Cell R)
    (h1 : (Arg.scalar v1).Fits in1 1) (h2 : (Arg.scalar v2).Fits in2 1) :
    ∃ c', cover0d0d in1 in2 outp v1 v2 c = some c' ∧
      Cover outp in1 in2 (.scalar v1) (.scalar v2) 0 c c' := by
  obtain ⟨b1, hb1, hs1⟩ := scalar_at h1
  obtain ⟨b2, hb2, hs2⟩ := scalar_at h2
  cases b1 <;> cases b2 <;>
    simp [cover0d0d, run0d, Cover, hb1, hb2, (hs1 0).1, (hs1 0).2, (hs2 0).1, (hs2 0).2,
      become_store, mark_spec]

/-- C14, 2D/0D, sequential and parallel. -/
theorem C14_cover_2d0d (in1 in2 : InPolicy R) (outp : OutPolicy R) (n1 n2 : Nat) (value1 : List R)
    (v2 : R) (result : List (Cell R)) (hr : result.length = n1 * n2)
    (h1 : (Arg.array value1).Fits in1 (n1 * n2)) (h2 : (Arg.scalar v2).Fits in2 (n1 * n2)) :
    Computes (cover2d0d in1 in2 outp (n1, n2) value1 v2 (n1, n2))
      (Cover outp in1 in2 (.array value1) (.scalar v2)) result := by
  have : cover2d0d in1 in2 outp (n1, n2) value1 v2 (n1, n2) =
    some (.d2 n1 n2 n2 (cover2d0dActs in1 in2 outp value1 v2)) := by simp [cover2d0d]
  rw [this]
  refine computes_d2 (actsOk_intro fun i hi => ?_) hr
  obtain ⟨b1, w1, hb1, hw1, hn1, hv1⟩ := array_at h1 hi
  obtain ⟨b2, hb2, hs2⟩ := scalar_at h2
  constructor
  · cases b1 <;> cases b2 <;> simp [cover2d0dActs, hb1, hb2, hw1]
  · intro fs hfs c
    cases b1 <;> cases b2 <;>
      simp [cover2d0dActs, hb1, hb2, hw1] at hfs <;> subst hfs <;>
      simp [Cover, foldActs, hn1, hv1, (hs2 i).1, (hs2 i).2, become_store, mark_spec]

/-- C14, 2D/2D, sequential and parallel. -/
theorem C14_cover_2d2d (in1 in2 : InPolicy R) (outp : OutPolicy R) (n1 n2 : Nat)
    (value1 value2 : List R) (result : List (Cell R)) (hr : result.length = n1 * n2)
    (h1 : (Arg.array value1).Fits in1 (n1 * n2)) (h2 : (Arg.array value2).Fits in2 (n1 * n2)) :
    Computes (cover2d2d in1 in2 outp (n1, n2) value1 (n1, n2) value2 (n1, n2))
      (Cover outp in1 in2 (.array value1) (.array value2)) result := by
  have : cover2d2d in1 in2 outp (n1, n2) value1 (n1, n2) value2 (n1, n2) =
    some (.d2 n1 n2 n2 (cover2d2dActs in1 in2 outp value1 value2)) := by simp [cover2d2d]
  rw [this]
  refine computes_d2 (actsOk_intro fun i hi => ?_) hr
  obtain ⟨b1, w1, hb1, hw1, hn1, hv1⟩ := array_at h1 hi
  obtain ⟨b2, w2, hb2, hw2, hn2, hv2⟩ := array_at h2 hi
  constructor
  · cases b1 <;> cases b2 <;> simp [cover2d2dActs, hb1, hb2, hw1, hw2]
  · intro fs hfs c
    cases b1 <;> cases b2 <;>
      simp [cover2d2dActs, hb1, hb2, hw1, hw2] at hfs <;> subst hfs <;>
      simp [Cover, foldActs, hn1, hv1, hn2, hv2, become_store, mark_spec]

/-- A case for the hypotheses of C14: three elements of which the last is no-data in both. -/
example : runSeq (cover2d2d (.byMask [0, 1, 1] 1) (.byMask [1, 0, 1] 1) .markMask (1, 3) [1, 2, 3]
    (1, 3) [10, 20, 30] (1, 3)) [⟨0, false⟩, ⟨0, false⟩, ⟨0, false⟩] =
    some [⟨1, false⟩, ⟨20, false⟩, ⟨0, true⟩] := by rfl

end Fern
