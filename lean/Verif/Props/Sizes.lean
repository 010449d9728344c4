import Verif.Model.Clamp
import Verif.Model.Compress
import Verif.Model.Copy
import Verif.Model.Gradient
import Verif.Model.Select
import Verif.Model.Slope
import Verif.Model.Vector

/-!
# C132: arrays of different sizes
-/

namespace Fern

theorem of_assert {α : Type} {b : Bool} {k : Unit → Option α} {x : α} (h : (assert' b >>= k) = some x) :
    b = true ∧ k () = some x := by
  cases b
  · cases h
  · exact ⟨rfl, h⟩

theorem of_same {α : Type} {s t : Nat × Nat} {k : Unit → Option α} {x : α} (h : (assertSame s t >>= k) = some x) :
    s = t ∧ k () = some x := by
  obtain ⟨a, b⟩ := s
  obtain ⟨c, d⟩ := t
  unfold assertSame assert' at h
  by_cases h1 : a = c <;> by_cases h2 : b = d
  · subst h1 h2
    simp at h
    exact ⟨rfl, h⟩
  all_goals simp [h1, h2] at h

section Clamp

variable {V : Type} [LT V] [DecidableLT V] (inV inL inU : InPolicy V) (outp : OutPolicy V)

/-- Clamping of arrays, whatever the execution policy: the result and the bounds have the size of the value, or nothing
is clamped. -/
theorem C132_clamp_1d (value lower upper : List V) (lo hi : V) (n : Nat) (l : ElemLoop (Cell V)) :
    (clamp1d1d1d inV inL inU outp value lower upper n = some l →
      n = value.length ∧ lower.length = value.length ∧ upper.length = value.length) ∧
    (clamp1d1d0d inV inL inU outp value lower hi n = some l → n = value.length ∧ lower.length = value.length) ∧
    (clamp1d0d1d inV inL inU outp value lo upper n = some l → n = value.length ∧ upper.length = value.length) := by
  refine ⟨fun h => ?_, fun h => ?_, fun h => ?_⟩
  · obtain ⟨h1, h⟩ := of_assert h
    obtain ⟨h2, h⟩ := of_assert h
    obtain ⟨h3, h⟩ := of_assert h
    exact ⟨by simpa using h1, by simpa using h2, by simpa using h3⟩
  all_goals
    obtain ⟨h1, h⟩ := of_assert h
    obtain ⟨h2, h⟩ := of_assert h
    exact ⟨by simpa using h1, by simpa using h2⟩

/-- The same for rasters, both extents. -/
theorem C132_clamp_2d (value lower upper : List V) (lo hi : V) (vs ls us rs : Nat × Nat) (l : ElemLoop (Cell V)) :
    (clamp2d2d2d inV inL inU outp vs value ls lower us upper rs = some l → rs = vs ∧ ls = vs ∧ us = vs) ∧
    (clamp2d2d0d inV inL inU outp vs value ls lower hi rs = some l → rs = vs ∧ ls = vs) ∧
    (clamp2d0d2d inV inL inU outp vs value lo us upper rs = some l → rs = vs ∧ us = vs) := by
  refine ⟨fun h => ?_, fun h => ?_, fun h => ?_⟩
  · obtain ⟨h1, h⟩ := of_same h
    obtain ⟨h2, h⟩ := of_same h
    obtain ⟨h3, h⟩ := of_same h
    exact ⟨h1, h2, h3⟩
  all_goals
    obtain ⟨h1, h⟩ := of_same h
    obtain ⟨h2, h⟩ := of_same h
    exact ⟨h1, h2⟩

end Clamp

example : clamp1d1d1d (.skip : InPolicy Int) .skip .skip .dontMark [9, -3] [0, 0] [5, 5] 2 ≠ none ∧
    clamp1d1d1d (.skip : InPolicy Int) .skip .skip .dontMark [9, -3] [0, 0] [5] 2 = none := by
  constructor
  · intro h; cases h
  · rfl

section Select

variable {R V1 V2 : Type} (inC : InPolicy Bool) (inT inF : InPolicy R) (in1 : InPolicy V1) (in2 : InPolicy V2)
  (outp : OutPolicy R)

/-- Covering rasters, and uniting, intersecting and merging their no-data: the extents are all the same. -/
theorem C132_cover (v1 v2 : List R) (c : R) (w1 : List V1) (w2 : List V2) (vs1 vs2 rs : Nat × Nat)
    (l : ElemLoop (Cell R)) :
    (cover2d0d inT inF outp vs1 v1 c rs = some l → vs1 = rs) ∧
    (cover2d2d inT inF outp vs1 v1 vs2 v2 rs = some l → vs1 = rs ∧ vs2 = rs) ∧
    (unite2d in1 in2 outp vs1 w1 vs2 w2 rs = some l → vs1 = rs ∧ vs2 = rs) ∧
    (intersect2d in1 in2 outp vs1 w1 vs2 w2 rs = some l → vs1 = rs ∧ vs2 = rs) ∧
    (merge2d in1 outp vs1 w1 rs = some l → vs1 = rs) := by
  refine ⟨fun h => (of_same h).1, fun h => ?_, fun h => ?_, fun h => ?_, fun h => (of_same h).1⟩
  all_goals
    obtain ⟨h1, h⟩ := of_same h
    exact ⟨h1, (of_same h).1⟩

/-- Choosing by a condition: the extents of the rasters among the arguments are those of the result. -/
theorem C132_if (cond : List Bool) (c : Bool) (tv : List R) (t : R) (cs ts rs : Nat × Nat) (l : ElemLoop (Cell R)) :
    (ifThen0d2d inC inT outp c ts tv rs = some l → ts = rs) ∧
    (ifThen2d0d inC inT outp cs cond t rs = some l → cs = rs) ∧
    (ifThen2d2d inC inT outp cs cond ts tv rs = some l → cs = rs ∧ ts = rs) := by
  refine ⟨fun h => (of_same h).1.symm, fun h => (of_same h).1.symm, fun h => ?_⟩
  obtain ⟨h1, h⟩ := of_same h
  obtain ⟨h2, _⟩ := of_same h
  exact ⟨h2.symm, h1.trans h2.symm⟩

/-- Choosing between two by a condition, arrays: the sizes of the arrays are those of the result. The sequential choice
between two numbers by an array of conditions is the exception: it is only possible for one condition, whatever the size
of the result. -/
theorem C132_if_else_1d (cond : List Bool) (tv fv : List R) (t f : R) (n : Nat) (l : ElemLoop (Cell R)) :
    (ifThenElse1d0d0dPar inC inT inF outp cond t f n = some l → cond.length = n) ∧
    (ifThenElse1d0d0dSeq inC inT inF outp cond t f = some l → cond.length = 1) ∧
    (ifThenElse1d1d0d inC inT inF outp cond tv f n = some l → cond.length = n ∧ tv.length = n) ∧
    (ifThenElse1d0d1d inC inT inF outp cond t fv n = some l → cond.length = n ∧ fv.length = n) ∧
    (ifThenElse1d1d1d inC inT inF outp cond tv fv n = some l → cond.length = n ∧ tv.length = n ∧ fv.length = n) := by
  refine ⟨fun h => ?_, fun h => ?_, fun h => ?_, fun h => ?_, fun h => ?_⟩
  · have := (of_assert h).1; simp at this; omega
  · have := (of_assert h).1; simp at this; omega
  · obtain ⟨h1, h⟩ := of_assert h
    obtain ⟨h2, h⟩ := of_assert h
    simp at h1 h2; omega
  · obtain ⟨h1, h⟩ := of_assert h
    obtain ⟨h2, h⟩ := of_assert h
    simp at h1 h2; omega
  · obtain ⟨h1, h⟩ := of_assert h
    obtain ⟨h2, h⟩ := of_assert h
    obtain ⟨h3, h⟩ := of_assert h
    simp at h1 h2 h3; omega

/-- The same for rasters, both extents. -/
theorem C132_if_else_2d (cond : List Bool) (c : Bool) (tv fv : List R) (t f : R) (cs ts fs rs : Nat × Nat)
    (l : ElemLoop (Cell R)) :
    (ifThenElse2d0d0d inC inT inF outp cs cond t f rs = some l → cs = rs) ∧
    (ifThenElse2d2d0d inC inT inF outp cs cond ts tv f rs = some l → cs = rs ∧ ts = rs) ∧
    (ifThenElse2d0d2d inC inT inF outp cs cond t fs fv rs = some l → cs = rs ∧ fs = rs) ∧
    (ifThenElse2d2d2d inC inT inF outp cs cond ts tv fs fv rs = some l → cs = rs ∧ ts = rs ∧ fs = rs) ∧
    (ifThenElse0d2d2d inC inT inF outp c ts tv fs fv rs = some l → ts = rs ∧ fs = rs) ∧
    (ifThenElse0d0d2d inC inT inF outp c t fs fv rs = some l → fs = rs) ∧
    (ifThenElse0d2d0d inC inT inF outp c ts tv f rs = some l → ts = rs) := by
  refine ⟨fun h => (of_same h).1.symm, fun h => ?_, fun h => ?_, fun h => ?_, fun h => ?_, fun h => (of_same h).1,
    fun h => (of_same h).1⟩
  · obtain ⟨h1, h⟩ := of_same h
    obtain ⟨h2, _⟩ := of_same h
    exact ⟨h2.symm, h1.trans h2.symm⟩
  · obtain ⟨h1, h⟩ := of_same h
    obtain ⟨h2, _⟩ := of_same h
    exact ⟨h2.symm, h1.trans h2.symm⟩
  · obtain ⟨h1, h⟩ := of_same h
    obtain ⟨h2, h⟩ := of_same h
    obtain ⟨h3, _⟩ := of_same h
    exact ⟨h3.symm, h1.trans h3.symm, h2.trans h3.symm⟩
  · obtain ⟨h1, h⟩ := of_same h
    exact ⟨h1, (of_same h).1⟩

end Select

example : cover2d2d (.skip : InPolicy Int) .skip .dontMark (1, 2) [1, 2] (1, 2) [3, 4] (1, 2) ≠ none ∧
    cover2d2d (.skip : InPolicy Int) .skip .dontMark (1, 2) [1, 2] (2, 1) [3, 4] (1, 2) = none ∧
    ifThenElse1d1d1d .skip (.skip : InPolicy Int) .skip .dontMark [true, false] [1, 2] [3, 4] 2 ≠ none ∧
    ifThenElse1d1d1d .skip (.skip : InPolicy Int) .skip .dontMark [true, false] [1, 2] [3, 4] 3 = none ∧
    ifThenElse1d0d0dSeq .skip (.skip : InPolicy Int) .skip .dontMark [true, false] 1 2 = none := by
  refine ⟨?_, rfl, ?_, rfl, rfl⟩ <;> intro h <;> cases h

section Compress

variable {V P : Type}

/-- Compressing gives arrays with as many elements as there are results to hold them, in each schedule; and
decompressing results with at least as many elements as there are values. -/
theorem C132_compress (inp : InPolicy V) (inP : InPolicy P) (outp : OutPolicy V) (t : Nat) (value result : List V)
    (pvals : List P) (res : List (Cell V)) (vs : Nat × Nat) (o : List V × Nat) (out : List (Cell V)) :
    (compress1d inp value result = some o → result.length = value.length) ∧
    (compress2d inp vs value result = some o → result.length = value.length) ∧
    (Compress1dPar t inp value result (some o) → result.length = value.length) ∧
    (Compress2dPar t inp vs value result (some o) → result.length = value.length) ∧
    (decompress1d inP pvals outp value res = some out → value.length ≤ res.length) ∧
    (decompress2d inP pvals outp value vs res = some out → value.length ≤ res.length) := by
  refine ⟨fun h => ?_, fun h => ?_, fun h => ?_, fun h => ?_, fun h => ?_, fun h => ?_⟩
  · simpa using (of_assert h).1
  · simpa using (of_assert h).1
  · refine Decidable.byContradiction fun hn => ?_
    simp [Compress1dPar, CompressPar, assert', hn] at h
  · refine Decidable.byContradiction fun hn => ?_
    simp [Compress2dPar, CompressPar, assert', hn] at h
  · simpa using (of_assert h).1
  · simpa using (of_assert h).1

/-- Copying part of an array: source and destination are of the same size, also on several threads. -/
theorem C132_copy (inp : InPolicy V) (outp : OutPolicy V) (t : Nat) (source : List V) (range : IndexRange)
    (position : Nat) (destination out : List (Cell V)) (ts : List (List (Act (Cell V)))) :
    (copySeq inp outp source range position destination = some out → source.length = destination.length) ∧
    (copyTasks t inp outp source range position destination = some ts → source.length = destination.length) :=
  ⟨fun h => by simpa using (of_assert h).1, fun h => by simpa using (of_assert h).1⟩

end Compress

example : compress1d (.skip : InPolicy Int) [7, 8] [0, 0] = some ([7, 8], 2) ∧
    compress1d (.skip : InPolicy Int) [7, 8] [0, 0, 0] = none ∧
    copySeq (.skip : InPolicy Int) .dontMark [7, 8] ⟨0, 2⟩ 0 [⟨0, false⟩, ⟨0, false⟩] =
      some [⟨7, false⟩, ⟨8, false⟩] ∧
    copySeq (.skip : InPolicy Int) .dontMark [7, 8] ⟨0, 1⟩ 0 [⟨0, false⟩] = none := ⟨rfl, rfl, rfl, rfl⟩

section Vector

/-- Gradients: the extents of the result are those of the raster. -/
theorem C132_gradient {V R : Type} (ops : GradientOps V R) (a : GradientArgs V) (outp : OutPolicy R) (t : Nat)
    (rs : Nat × Nat) (res out : List (Cell R)) (ts : List (List (Act (Cell R)))) :
    (gradientX ops a outp rs res = some out → (a.rows, a.cols) = rs) ∧
    (gradientXTasks ops a outp t rs = some ts → (a.rows, a.cols) = rs) ∧
    (gradientY ops a outp rs res = some out → (a.rows, a.cols) = rs) ∧
    (gradientYTasks ops a outp t rs = some ts → (a.rows, a.cols) = rs) := by
  refine ⟨fun h => ?_, fun h => ?_, fun h => ?_, fun h => ?_⟩
  all_goals
    obtain ⟨h1, h⟩ := of_assert h
    obtain ⟨h2, _⟩ := of_assert h
    exact Prod.ext (by simpa using h1) (by simpa using h2)

example : gradientX (V := Int) (R := Int) ⟨fun a b => b - a, fun a b => b - a, 0⟩ ⟨1, 2, [3, 5], .skip⟩ .dontMark (1, 2)
      [⟨0, false⟩, ⟨0, false⟩] ≠ none ∧
    gradientX (V := Int) (R := Int) ⟨fun a b => b - a, fun a b => b - a, 0⟩ ⟨1, 2, [3, 5], .skip⟩ .dontMark (2, 1)
      [⟨0, false⟩, ⟨0, false⟩] = none := by
  constructor
  · decide
  · rfl

theorem of_assert_outcome {α : Type} {b : Bool} {f : Unit → Outcomes α} {o : Option α} (hb : b = false)
    (h : Outcomes.andThen (.one (assert' b)) f o) : o = none := by
  subst hb
  rcases h with ⟨_, h⟩ | ⟨a, h, _⟩
  · exact h
  · cases h

theorem of_asserts_outcome {α : Type} {s t : Nat × Nat} {f : Outcomes α} {o : α}
    (h : Outcomes.andThen (.one (assert' (s.1 == t.1)))
      (fun _ => Outcomes.andThen (.one (assert' (s.2 == t.2))) fun _ => f) (some o)) : s = t := by
  refine Decidable.byContradiction fun hn => ?_
  by_cases h1 : s.1 = t.1
  · have h2 : s.2 ≠ t.2 := fun h2 => hn (Prod.ext h1 h2)
    rcases h with ⟨_, h⟩ | ⟨_, _, h⟩
    · cases h
    · exact nomatch of_assert_outcome (by simpa using h2) h
  · exact nomatch of_assert_outcome (by simpa using h1) h

/-- Slopes, Laplacians and Lax's scheme: if there is an outcome, the extents of the result are those of the raster. -/
theorem C132_slope {F : Type} (n : NumOps F) (pow : F → F → F) (sqrt : F → F) (atMost20 : F → Bool) (m : Execution)
    (vs rs : Nat × Nat) (value : List F) (inp : InPolicy F) (mark : Bool) (x y : F) (res out : List (Cell F)) :
    (slope n pow sqrt m vs value inp mark x y rs res (some out) → vs = rs) ∧
    (laplacian n atMost20 m vs value inp mark x rs res (some out) → vs = rs) ∧
    (lax n m vs value inp mark x y rs res (some out) → vs = rs) :=
  ⟨fun h => of_asserts_outcome h, fun h => of_asserts_outcome h, fun h => of_asserts_outcome h⟩

/-- Convolution on several threads: the extents of the destination are those of the source, which are at least twice the
radius of the kernel. -/
theorem C132_convolve {V W A R : Type} (ops : ConvolveOps V W A R) (a : ConvolveArgs V W) (pol : ConvolvePolicy V)
    (outp : OutPolicy R) (inner : IndexRanges2 → Option (List (Act (Cell R)))) (t : Nat) (dest : Nat × Nat)
    (ts : List (List (Act (Cell R)))) (h : convolveTasks ops a pol outp inner t dest = some ts) :
    dest = (a.rows, a.cols) ∧ 2 * a.radius ≤ a.rows ∧ 2 * a.radius ≤ a.cols := by
  obtain ⟨h1, h⟩ := of_assert h
  obtain ⟨h2, h⟩ := of_assert h
  obtain ⟨h3, h⟩ := of_assert h
  obtain ⟨h4, _⟩ := of_assert h
  exact ⟨Prod.ext (by simpa using h1) (by simpa using h2), by simpa using h3, by simpa using h4⟩

end Vector

end Fern
