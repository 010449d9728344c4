import Verif.Lemmas.Copy
/-
Property C24: copy.
-/
namespace Fern

open Spec

variable {V : Type}

theorem copySeq_eq (inp : InPolicy V) (outp : OutPolicy V) (source : List V) (range : IndexRange)
    (position : Nat) (destination : List (Cell V)) (hsize : source.length = destination.length)
    (hp : PolicyFor inp source.length) (hr : range.b ≤ range.e) (hin : range.e ≤ source.length)
    (hpos : position + range.size ≤ destination.length) :
    copySeq inp outp source range position destination =
      some (copied inp outp source range.b position range.size destination) := by
  have h := copyLoop_eq (outp := outp) rfl hp range.b position range.size 0
    (by simp only [IndexRange.size]; omega)
  simp only [Nat.add_zero] at h
  have e : range.indices = List.range' range.b range.size := rfl
  simp only [copySeq, assert', hsize, BEq.rfl, if_true, Option.bind_eq_bind, Option.bind_some]
  rw [e, h, Option.bind_some, run_copy _ _ _ List.nodup_range' (by
    intro d hd
    rw [List.mem_range'_1] at hd
    omega)]
  rfl

/-- C24: sequential copy. -/
theorem C24_copy (inp : InPolicy V) (outp : OutPolicy V) (source : List V) (range : IndexRange)
    (position : Nat) (destination : List (Cell V)) (hsize : source.length = destination.length)
    (hp : PolicyFor inp source.length) (hr : range.b ≤ range.e) (hin : range.e ≤ source.length)
    (hpos : position + range.size ≤ destination.length) :
    ∃ out, copySeq inp outp source range position destination = some out ∧
      Elementwise (CopyCell inp outp source range position) destination out :=
  ⟨_, copySeq_eq inp outp source range position destination hsize hp hr hin hpos,
    copied_spec rfl hp range position hin destination⟩

/-- C24: for a non-empty range the parallel version gives the sequential result in every schedule. -/
theorem C24_copy_parallel (t : Nat) (ht : 1 ≤ t) (inp : InPolicy V) (outp : OutPolicy V)
    (source : List V) (range : IndexRange) (position : Nat) (destination : List (Cell V))
    (hsize : source.length = destination.length) (hp : PolicyFor inp source.length)
    (hr : range.b < range.e) (hin : range.e ≤ source.length)
    (hpos : position + range.size ≤ destination.length) (o : Option (List (Cell V))) :
    ParResult (copyTasks t inp outp source range position destination) destination o ↔
      o = copySeq inp outp source range position destination := by
  rw [copySeq_eq inp outp source range position destination hsize hp (by omega) hin hpos]
  obtain ⟨l, hl, hc⟩ := indexRanges_consecutive ht range.size
  have hpb : positionPerBlock position (l.map (fun r => (⟨range.b + r.b, range.b + r.e⟩ : IndexRange)))
      = some (l.map (fun r => position + r.b)) := by
    cases l with
    | nil =>
      simp only [Consecutive, IndexRange.size] at hc
      omega
    | cons r rs =>
      rw [List.map_cons, positionPerBlock, ← List.map_cons (f := fun r : IndexRange =>
        (⟨range.b + r.b, range.b + r.e⟩ : IndexRange))]
      have := positions_go (b := range.b) (pos := position) hc
      rw [Nat.add_zero] at this
      rw [this]
  have htasks := copyTasks_eq (inp := inp) (outp := outp) (source := source) (b := range.b)
    (pos := position) rfl hp hc (by simp only [IndexRange.size]; omega)
  have hfl := shifted_flatten (pos := position) hc
  rw [Nat.add_zero, Nat.sub_zero] at hfl
  apply parResult_iff
  intro o ho
  unfold copyTasks at ho
  simp only [assert', hsize, BEq.rfl, if_true, Option.bind_eq_bind, Option.bind_some, hl, hpb,
    htasks] at ho
  obtain ⟨il, hil, rfl⟩ := ho
  have hpw : Pointwise (elemStep (fun d => some (copyFn inp outp source range.b position d)))
      (fun d => foldActs (copyFn inp outp source range.b position d)) destination.length :=
    elemStep_pointwise (fun _ _ => rfl)
  have hlt : ∀ d ∈ List.range' position range.size, d < destination.length := by
    intro d hd
    rw [List.mem_range'_1] at hd
    omega
  rw [par_eq_seq hpw (by rw [hfl]; exact List.nodup_range') (by rw [hfl]; exact hlt) hil
    destination rfl, hfl, pointwise_loop hpw _ hlt List.nodup_range' destination rfl]
  rfl

/-- C24: for an empty range, the parallel version accesses an element of an empty vector, whereas the
sequential version does nothing. -/
theorem C24_copy_parallel_empty_false (t : Nat) (ht : 1 ≤ t) (inp : InPolicy V)
    (outp : OutPolicy V) (source : List V) (b position : Nat) (destination : List (Cell V))
    (hsize : source.length = destination.length) :
    copyTasks t inp outp source ⟨b, b⟩ position destination = none ∧
      copySeq inp outp source ⟨b, b⟩ position destination = some destination := by
  have ht0 : t ≠ 0 := by omega
  constructor
  · simp [copyTasks, assert', hsize, IndexRange.size, indexRanges, ht0, blockLoop, positionPerBlock]
  · simp [copySeq, assert', hsize, IndexRange.indices, copyLoop, runActs, forIn']

example : copySeq (.byMask [0, 1, 0, 0] 1) .markMask [10, 20, 30, 40] ⟨0, 3⟩ 1
    [⟨1, false⟩, ⟨2, false⟩, ⟨3, false⟩, ⟨4, false⟩] =
    some [⟨1, false⟩, ⟨10, false⟩, ⟨3, true⟩, ⟨30, false⟩] := by decide

end Fern
