import Verif.Lemmas.Clients
import Mathlib.Data.List.Infix

/-!
# C102: clients of libraries
-/

namespace Fern.Clients

open Spec

variable {L : Library}

/-- Whatever objects are created and destroyed, in whatever order: as long as the two classes for GDAL are not used at
the same time, and there is at most one object for OGR and for Python, everything can be used that there is a client
for, and nothing else. No assertion fails. -/
theorem C102_provided (hL : Library.Fine L) (l : List Event) (hw : WellFormed l) (ha : Apart l)
    (hp : Single .python l) (ho : Single .ogr l) : ∃ w, run L .initial l = some w ∧ Provided L l w := by
  obtain ⟨w, h1, h⟩ := inv_run hL l hw ha hp ho
  have hf : fernName ∉ w.registered.map Prod.fst := not_fern hL h
  have hg : w.gdalCount = gdalUsers l := h.gdal
  have hk : ∀ n, (∃ o, (n, o) ∈ w.registered) ↔ n ∈ w.registered.map Prod.fst := fun n => by simp
  refine ⟨w, h1, ?_, ?_, fun n => ?_, fun n hn => ?_, fun n o hn => ?_, fun n => ?_, ?_, ?_⟩
  · rw [h.hdf5Open, h.hdf5, decide_eq_true_iff]; rfl
  · rw [h.drivers, if_pos rfl, h.fern]
    show (if 0 < fernUsers l then some none else none) = some none ↔ _
    split <;> simp [*]
  · rw [h.drivers, hg]
    by_cases e : n = fernName
    · rw [if_pos e]
      constructor
      · rintro ⟨o, k⟩; split at k <;> cases k
      · rintro ⟨-, k, -⟩; exact absurd (e ▸ k) hL.other
    · rw [if_neg e]
      by_cases h0 : 0 < gdalUsers l
      · rw [if_pos h0, ← h.names (hg ▸ h0), ← lookup_isSome]
        cases w.registered.lookup n <;> simp [h0]
      · rw [if_neg h0]
        simp [h0]
  · rw [h.drivers, if_neg hn]
    split
    · cases w.registered.lookup n <;> simp
    · simp
  · rw [h.drivers] at hn
    split at hn
    · split at hn <;> cases hn
    · split at hn
      · obtain ⟨x, hx, e⟩ := Option.map_eq_some_iff.1 hn
        cases e
        exact (lookup_mem h.nodup n o).1 hx
      · cases hn
  · rw [hk]
    by_cases h0 : 0 < gdalUsers l
    · have h2 : live .fileGdal l = 0 := by
        have := h.fileGdal
        exact this.symm.trans (h.apart.resolve_left (by omega))
      rw [h.names (hg ▸ h0), h2]
      simp [h0]
    · by_cases h2 : 0 < live .fileGdal l
      · rw [h.names' (h.fileGdal ▸ h2)]
        simp [h2]
      · rw [h.unregistered (by omega) (by have : w.fileGdalCount = live .fileGdal l := h.fileGdal; omega)]
        simp [h0, h2]
  · rw [h.ogr, decide_eq_true_iff]; rfl
  · rw [h.initialised, decide_eq_true_iff]; rfl

/-- In particular: when no client is left, no driver can be found and GDAL has none; everything can begin anew. -/
theorem C102_nothing_left (hL : Library.Fine L) (l : List Event) (hw : WellFormed l) (ha : Apart l)
    (hp : Single .python l) (ho : Single .ogr l) (h0 : ∀ k, live k l = 0) (w : World)
    (h : run L .initial l = some w) :
    (∀ n, w.drivers.lookup n = none) ∧ w.registered = [] ∧ w.hdf5Open = false ∧ w.ogrRegistered = false ∧
      w.pythonInitialised = false := by
  obtain ⟨w', h1, g⟩ := C102_provided hL l hw ha hp ho
  cases h.symm.trans h1
  refine ⟨fun n => ?_, ?_, ?_, ?_, ?_⟩
  · cases hn : w.drivers.lookup n with
    | none => rfl
    | some x =>
      cases x with
      | none =>
        by_cases e : n = fernName
        · have := g.fern.1 (e ▸ hn)
          simp [fernUsers, h0] at this
        · exact absurd hn (g.others n e)
      | some o =>
        have := ((g.gdal n).1 ⟨o, hn⟩).1
        simp [gdalUsers, h0] at this
  · rw [List.eq_nil_iff_forall_not_mem]
    rintro ⟨n, o⟩ hm
    have := (g.manager n).1 ⟨o, hm⟩
    simp [gdalUsers, h0] at this
  · have := mt g.hdf5.1 (by simp [hdf5Users, h0])
    simpa using this
  · have := mt g.ogr.1 (by simp [h0])
    simpa using this
  · have := mt g.python.1 (by simp [h0])
    simpa using this

/-- GDAL with two drivers, one of which has bugs. -/
def exampleLibrary : Library := ⟨["GTiff".toList, "PDF".toList], ["PDF".toList]⟩

example : Library.Fine exampleLibrary := ⟨by decide, by decide, by decide⟩

/-- Two commands and an interpreter, one after the other. -/
def exampleHistory : List Event :=
  [.create .io, .create .io, .create .python, .destroy .io, .destroy .python, .destroy .io, .create .fileGdal,
   .destroy .fileGdal, .create .io]

theorem prefixes_iff {l : List Event} {P : List Event → Prop} : (∀ p, p <+: l → P p) ↔ ∀ p ∈ l.inits, P p := by
  simp [List.mem_inits]

example : Apart exampleHistory ∧ Single .python exampleHistory ∧ Single .ogr exampleHistory ∧
    gdalUsers exampleHistory = 1 ∧ (run exampleLibrary .initial exampleHistory).isSome := by
  refine ⟨prefixes_iff.2 (by decide), prefixes_iff.2 (by decide), prefixes_iff.2 (by decide), by decide, by decide⟩

/-! ### The two classes for GDAL -/

/-- They share the drivers, and not the count: when the last object of one class is destroyed, GDAL has no driver left,
however many objects of the other class there are. -/
theorem C102_shared_false (w w' : World) :
    (w.gdalCount = 1 → destroyGdal w = some w' → w'.registered = [] ∧ w'.fileGdalCount = w.fileGdalCount) ∧
    (w.fileGdalCount = 1 → destroyFileGdal w = some w' → w'.registered = [] ∧ w'.drivers = w.drivers ∧
      w'.gdalCount = w.gdalCount) := by
  constructor
  · intro h1 h
    rw [destroyGdal, if_neg (by omega)] at h
    simp only [h1] at h
    obtain ⟨d, -, rfl⟩ := Option.map_eq_some_iff.1 h
    exact ⟨rfl, rfl⟩
  · intro h1 h
    rw [destroyFileGdal, if_neg (by omega)] at h
    simp only [h1] at h
    cases h
    exact ⟨rfl, rfl, rfl⟩

/-- A driver is found that does not exist any more. -/
def Dangling (w : World) (n : Str) : Prop := ∃ o, w.drivers.lookup n = some (some o) ∧ (n, o) ∉ w.registered

/-- A file is read while a command is being executed: afterwards the command finds drivers that don't exist any more. The
driver is found even when all clients are gone, and the next command can't begin. -/
theorem C102_dangling_false :
    (∃ w, run exampleLibrary .initial [.create .io, .create .fileGdal, .destroy .fileGdal] = some w ∧
      Dangling w "GTiff".toList) ∧
    (∃ w, run ⟨["GTiff".toList], []⟩ .initial
      [.create .io, .create .fileGdal, .destroy .fileGdal, .destroy .io] = some w ∧ Dangling w "GTiff".toList) ∧
    run ⟨["GTiff".toList], []⟩ .initial
      [.create .io, .create .fileGdal, .destroy .fileGdal, .destroy .io, .create .io] = none := by
  refine ⟨⟨_, rfl, 0, by decide, by decide⟩, ⟨_, rfl, 0, by decide, by decide⟩, by decide⟩

/-- A command is executed while files are read: afterwards no file can be read. -/
theorem C102_unloaded_false : ∃ w,
    run exampleLibrary .initial [.create .fileGdal, .create .io, .destroy .io] = some w ∧ w.registered = [] ∧
    live .fileGdal [.create .fileGdal, .create .io, .destroy .io] = 1 :=
  ⟨_, rfl, by decide, by decide⟩

/-- The driver with bugs that had been removed comes back by reading a file during a command, which then can't end. -/
theorem C102_buggy_false : WellFormed [.create .io, .create .fileGdal, .destroy .io] ∧
    run exampleLibrary .initial [.create .io, .create .fileGdal, .destroy .io] = none := by
  refine ⟨prefixes_iff.2 ?_, by decide⟩
  intro p hp k
  cases k <;> revert p <;> decide

/-! ### Python and OGR -/

/-- Whether Python and OGR can be used depends on the last event only: after one object has been destroyed they can't, no
matter how many others there are. -/
theorem C102_last (w w' : World) (l : List Event) (e : Event) (h : run L w (l ++ [e]) = some w') :
    (e = .create .python → w'.pythonInitialised = true) ∧ (e = .destroy .python → w'.pythonInitialised = false) ∧
    (e = .create .ogr → w'.ogrRegistered = true) ∧ (e = .destroy .ogr → w'.ogrRegistered = false) := by
  rw [run, List.foldlM_append] at h
  obtain ⟨w1, -, h⟩ := Option.bind_eq_some_iff.1 h
  have h : step L w1 e = some w' := by simpa using h
  refine ⟨?_, ?_, ?_, ?_⟩
  · rintro rfl; cases h; rfl
  · rintro rfl
    rw [step, destroyPython] at h
    split at h
    · split at h
      · cases h
      · cases h; rfl
    · rename_i hn; cases h; simpa using hn
  · rintro rfl; cases h; rfl
  · rintro rfl; cases h; rfl

/-- Two interpreters, of which one is destroyed: the other one can't parse any more. -/
theorem C102_python_false : ∃ w, run L .initial [.create .python, .create .python, .destroy .python] = some w ∧
    live .python [.create .python, .create .python, .destroy .python] = 1 ∧ w.pythonInitialised = false :=
  ⟨_, rfl, by decide, rfl⟩

/-- Two objects that overlap. -/
def overlap : List Event := [.create .python, .create .python, .destroy .python, .destroy .python]

/-- Each time two objects overlap, the count of objects for Python gets one too high; when it overflows, an assertion
fails. -/
theorem C102_python_count (n : Nat) :
    if n < 65535 then ∃ w, run L .initial (List.replicate n overlap).flatten = some w ∧ w.pythonCount = n ∧
      w.pythonInitialised = false
    else run L .initial (List.replicate n overlap).flatten = none := by
  induction n with
  | zero => exact ⟨.initial, rfl, rfl, rfl⟩
  | succ n ih =>
    have hr : run L .initial (List.replicate (n + 1) overlap).flatten =
        (run L .initial (List.replicate n overlap).flatten).bind fun w => run L w overlap := by
      rw [List.replicate_succ', List.flatten_append, run, List.foldlM_append]
      simp only [List.flatten_cons, List.flatten_nil, List.append_nil]
      rfl
    rw [hr]
    by_cases h : n < 65535
    · rw [if_pos h] at ih
      obtain ⟨w, h1, h2, h3⟩ := ih
      rw [h1, Option.bind_some]
      have hs : run L w overlap =
          (destroyPython (createPython (createPython w))).bind fun w => (destroyPython w).bind some := rfl
      have hc : createPython (createPython w) =
          { w with pythonInitialised := true, pythonCount := ((n + 1) % 65536 + 1) % 65536 } := by
        simp only [createPython, h2]
      rw [hs, hc, destroyPython, if_pos rfl]
      by_cases h4 : n + 1 < 65535
      · rw [if_pos h4, if_neg (by simp; omega)]
        refine ⟨_, rfl, ?_, rfl⟩
        show ((n + 1) % 65536 + 1) % 65536 - 1 = n + 1
        omega
      · rw [if_neg h4, if_pos (by simp; omega)]
        rfl
    · rw [if_neg h] at ih
      rw [if_neg (by omega), ih]
      rfl

theorem overlap_wellFormed (n : Nat) : WellFormed (List.replicate n overlap).flatten := by
  induction n with
  | zero =>
    intro p hp k
    rw [show (List.replicate 0 overlap).flatten = [] from rfl, List.prefix_nil] at hp
    subst hp
    simp
  | succ n ih =>
    intro p hp k
    rw [List.replicate_succ, List.flatten_cons] at hp
    have h0 : ∀ p ∈ overlap.inits, p.count (.destroy k) ≤ p.count (.create k) := by
      cases k <;> decide
    rcases List.prefix_or_prefix_of_prefix hp (List.prefix_append overlap _) with h | ⟨q, rfl⟩
    · exact h0 p ((List.mem_inits _ _).2 h)
    · have h1 := ih q ((List.prefix_append_right_inj _).1 hp) k
      have h2 := h0 overlap (by decide)
      rw [List.count_append, List.count_append]
      omega

end Fern.Clients
