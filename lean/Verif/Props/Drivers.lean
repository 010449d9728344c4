import Verif.Lemmas.Drivers

/-!
# C80: choosing a driver
# C81: reading and writing data in Fern format
-/

namespace Fern

open Spec

section
variable {W : Type} {drivers : List (Str × Driver W)}

/-! ### C80 -/

/-- Without format all drivers are tried, Fern's first, the others in the order of their names. -/
theorem C80_order (h : Registered drivers) (hne : drivers ≠ []) (name : Str) :
    ∃ ds, driversToTry drivers name [] = .ok ds ∧ ds.Perm (drivers.map Prod.snd) ∧
      (∀ d, (fernName, d) ∈ drivers → ds.head? = some d) ∧
      ds.filter (fun d => decide (d.name ≠ fernName)) =
        (drivers.map Prod.snd).filter fun d => decide (d.name ≠ fernName) := by
  refine ⟨_, by rw [driversToTry, if_neg hne, if_neg (by simp)], attempts_perm h, ?_, ?_⟩
  · intro d hd
    rw [driver_lookup_of_mem h.once hd]
    rfl
  · rw [List.filter_append, List.filter_filter]
    have : (drivers.lookup fernName).toList.filter (fun d => decide (d.name ≠ fernName)) = [] := by
      rw [List.filter_eq_nil_iff]
      intro d hd
      rw [Option.mem_toList] at hd
      have := h.byName _ _ (driver_mem_of_lookup hd)
      simp [this]
    rw [this, List.nil_append]
    congr 1
    funext d
    simp

/-- With a format only that driver is tried. -/
theorem C80_format (h : Registered drivers) (name format : Str) (hf : format ≠ []) (d : Driver W)
    (hd : (format, d) ∈ drivers) : driversToTry drivers name format = .ok [d] := by
  rw [driversToTry, if_neg (by rintro rfl; simp at hd), if_pos hf, driver_lookup_of_mem h.once hd]

/-- A format that isn't registered is an error. -/
theorem C80_unknown_format (hne : drivers ≠ []) (name format : Str) (mode : OpenMode) (w : W) (hf : format ≠ [])
    (hd : format ∉ drivers.map Prod.fst) :
    openDataset drivers name mode format w = (.error ⟨name, .noSuchDriver format⟩, w) ∧
    datasetExists drivers name mode format w = (.error ⟨name, .noSuchDriver format⟩, w) := by
  have e : driversToTry drivers name format = .error ⟨name, .noSuchDriver format⟩ := by
    rw [driversToTry, if_neg hne, if_pos hf, driver_lookup_none hd]
  rw [openDataset, datasetExists, e]
  exact ⟨rfl, rfl⟩

/-- Without drivers the assertion fails. -/
theorem C80_no_drivers (name format : Str) (mode : OpenMode) (w : W) :
    openDataset ([] : List (Str × Driver W)) name mode format w = (.fails, w) := by
  rw [openDataset, driversToTry, if_pos rfl]

/-- The dataset is opened by the first driver that says it can; if there is none, nothing is opened, and the
error depends on the mode. -/
theorem C80_open {ds : List (Driver W)} {name format : Str} (hds : driversToTry drivers name format = .ok ds)
    (mode : OpenMode) (w : W) (hh : ∀ d ∈ ds, Harmless mode d) :
    (∀ d, FirstToOpen ds name mode w d → openDataset drivers name mode format w = d.openIt name mode w) ∧
    ((∀ d ∈ ds, ¬ CanOpen d name mode w) →
      openDataset drivers name mode format w = (.error ⟨name, refusal mode⟩, w)) := by
  rw [openDataset, hds]
  exact ⟨fun d hd => openLoop_first hh hd, fun hn => openLoop_none hh hn⟩

/-- A dataset exists exactly if one of the drivers can open it; then opening it does not end with the message
that it can't be read or written, unless this comes from the driver. -/
theorem C80_exists {ds : List (Driver W)} {name format : Str} (hds : driversToTry drivers name format = .ok ds)
    (mode : OpenMode) (w : W) (hh : ∀ d ∈ ds, Harmless mode d) :
    ∃ b, datasetExists drivers name mode format w = (.ok b, w) ∧
      (b = true ↔ ∃ d ∈ ds, CanOpen d name mode w) ∧
      (b = true → ∃ d ∈ ds, CanOpen d name mode w ∧
        openDataset drivers name mode format w = d.openIt name mode w) ∧
      (b = false → openDataset drivers name mode format w = (.error ⟨name, refusal mode⟩, w)) := by
  obtain ⟨h1, h2⟩ := existsLoop_eq (name := name) (w := w) hh
  have h3 := C80_open hds mode w hh
  refine ⟨(existsLoop name mode ds w).1, by rw [datasetExists, hds]; simp only [h1], h2, ?_, ?_⟩
  · intro hb
    obtain ⟨d, hd⟩ := exists_first (h2.1 hb)
    have h4 := h3.1 d hd
    obtain ⟨b, a, rfl, _, h5⟩ := hd
    exact ⟨d, by simp, h5, h4⟩
  · intro hb
    refine h3.2 fun d hd hc => ?_
    rw [h2.2 ⟨d, hd, hc⟩] at hb
    cases hb

end

/-! #### Drivers that are not registered by their name -/

/-- A driver that can open everything. -/
def anyDriver (name : Str) : Driver Unit where
  name := name
  canOpen _ _ w := (true, w)
  openIt name _ w := (.error ⟨name, .other⟩, w)

/-- The map is searched by key, but Fern's driver is skipped by name: a driver with the name Fern and another
key is not tried, one with the key Fern and another name is tried twice. -/
theorem C80_keys_and_names :
    driversToTry [(['X'], anyDriver fernName)] [] [] = .ok [] ∧
    driversToTry [(fernName, anyDriver ['X'])] [] [] = .ok [anyDriver ['X'], anyDriver ['X']] := by
  constructor <;> rfl

example : Registered [(['A'], anyDriver ['A']), (fernName, anyDriver fernName)] ∧
    driversToTry [(['A'], anyDriver ['A']), (fernName, anyDriver fernName)] [] [] =
      .ok [anyDriver fernName, anyDriver ['A']] := by
  refine ⟨⟨by decide, ?_⟩, rfl⟩
  intro k d h
  simp at h
  rcases h with ⟨rfl, rfl⟩ | ⟨rfl, rfl⟩ <;> rfl

/-! ### C81 -/

variable {convert : Number → Number → Number}

/-- To ask Fern's driver whether a dataset can be read or updated changes nothing. -/
theorem C81_asking (mode : OpenMode) (hm : mode ≠ .overwrite) : Harmless mode (fernDriver convert) := by
  intro name w
  cases mode with
  | overwrite => exact absurd rfl hm
  | read =>
    change (match (openForRead name w, w) with | (.ok _, w) => (true, w) | (_, w) => (false, w)).2 = w
    cases openForRead name w <;> rfl
  | update =>
    change (match (openForUpdate name w, w) with | (.ok _, w) => (true, w) | (_, w) => (false, w)).2 = w
    cases openForUpdate name w <;> rfl

/-- To ask Fern's driver whether a dataset can be overwritten makes it empty, also if it is in another
format. -/
theorem C81_asking_to_overwrite (name : Str) (w : Disk) (f : DiskFile) (hf : w.files name = some f)
    (hw : f.writable = true) :
    ∃ w' f', (fernDriver convert).canOpen name .overwrite w = (true, w') ∧ w'.files name = some f' ∧
      f'.contents = some .empty := by
  refine ⟨w.set name ⟨some .empty, f.readable, true⟩, ⟨some .empty, f.readable, true⟩, ?_, by simp [Disk.set],
    rfl⟩
  simp only [fernDriver, openFile, openForOverwrite, hf, hw, if_true]

/-- So does asking whether such a dataset exists. -/
theorem C81_exists_destroys (drivers : List (Str × Driver Disk)) (h : Registered drivers)
    (hf : (fernName, fernDriver convert) ∈ drivers) (name : Str) (w : Disk) (f : DiskFile)
    (hn : w.files name = some f) (hw : f.writable = true) :
    ∃ w' f', datasetExists drivers name .overwrite [] w = (.ok true, w') ∧ w'.files name = some f' ∧
      f'.contents = some .empty := by
  obtain ⟨w', f', h1, h2, h3⟩ := C81_asking_to_overwrite (convert := convert) name w f hn hw
  refine ⟨w', f', ?_, h2, h3⟩
  have hne : drivers ≠ [] := by rintro rfl; simp at hf
  rw [datasetExists, driversToTry, if_neg hne, if_neg (by simp), driver_lookup_of_mem h.once hf]
  simp only [Option.toList_some, List.singleton_append, existsLoop, h1, if_true]

theorem dataName_database {s db path : Str} (h : dataName s = some (db, path)) : dataName db = some (db, ['/']) := by
  obtain ⟨rest, names, hp, _, _⟩ := (C46_data_name s db path).1 h
  exact (C46_root db [] hp.1 hp.2.1 (by simp)).1

theorem pathNames_eq (r : Str) : pathNames r = some (splitBy isSlash r) := by
  rw [pathNames, split, if_neg (by decide), if_neg (by decide)]
  congr 2
  funext c
  simp [inSet, isSlash]
  rfl

/-- Fern's driver can open a file for reading if it is in Fern format and not protected against reading, and for
updating if in addition it is not protected against writing. -/
theorem C81_can_open (name : Str) (w : Disk) :
    ((fernDriver convert).canOpen name .read w = (true, w) ↔
      ∃ f, w.files name = some f ∧ f.contents ≠ none ∧ f.readable = true) ∧
    ((fernDriver convert).canOpen name .update w = (true, w) ↔
      ∃ f, w.files name = some f ∧ f.contents ≠ none ∧ f.readable = true ∧ f.writable = true) := by
  simp only [fernDriver, openFile, openForRead, openForUpdate]
  cases h : w.files name with
  | none => simp
  | some f =>
    rcases f with ⟨_ | c, _ | _, _ | _⟩ <;> simp

/-- A file that is protected against reading, or not in Fern format, is not read if Fern's driver is the only
one. -/
theorem C81_read_refused (name db path : Str) (hn : dataName name = some (db, path)) (w : Disk)
    (hf : ∀ f, w.files db = some f → f.contents = none ∨ f.readable = false) :
    readData [(fernName, fernDriver convert)] name w = (.error ⟨db, .cannotBeRead⟩, w) := by
  have hc : (fernDriver convert).canOpen db .read w = (false, w) := by
    simp only [fernDriver, openFile, openForRead]
    cases h : w.files db with
    | none => rfl
    | some f =>
      have := hf f h
      rcases f with ⟨_ | c, _ | _, b⟩ <;> simp_all
  have ho : openDataset [(fernName, fernDriver convert)] db .read [] w = (.error ⟨db, .cannotBeRead⟩, w) := by
    rw [openDataset, driversToTry, if_neg (by simp), if_neg (by simp)]
    have e : (List.lookup fernName [(fernName, fernDriver convert)]).toList ++
        (([(fernName, fernDriver convert)]).map Prod.snd).filter (fun d => decide (d.name ≠ fernName)) =
        [fernDriver convert] := rfl
    rw [e]
    simp [openLoop, hc]
  rw [readData, hn]
  simp only [ho]

/-- A dataset that is opened by any name, also one with a path: an attribute written to it is written to the file
that the name refers to, and to no other. If it has been opened for reading, writing to it makes an assertion
fail. -/
theorem C81_opened (name db path : Str) (hn : dataName name = some (db, path)) (mode : OpenMode) (w w1 : Disk)
    (d : OpenDataset Disk) (ho : (fernDriver convert).openIt name mode w = (.ok d, w1)) (v : AttributeValue)
    (p : Str) :
    (mode = .read → d.writeAttribute v p w1 = .fails) ∧
    (∀ w2, d.writeAttribute v p w1 = .ok w2 → mode ≠ .read ∧ ∃ n f f' r wr, v = .number n ∧
      w1.files db = some ⟨some f, r, wr⟩ ∧
      Hdf5.writeNumber convert f (splitBy isSlash p) n = some f' ∧
      w2 = w1.set db ⟨some f', r, wr⟩) := by
  have hd : d = fernDataset convert name db mode := by
    simp only [fernDriver, hn] at ho
    split at ho
    · cases ho; rfl
    · cases ho
    · cases ho
  subst hd
  have e : (fernDataset convert name db mode).writeAttribute v p w1 =
    match v, w1.files db with
    | .number n, some ⟨_, r, wr⟩ =>
      if mode = .read then .fails
      else withContents db p w1 fun f q =>
        (ofAssert (f.writeNumber convert q n)).andThen fun f => .ok (w1.set db ⟨some f, r, wr⟩)
    | _, _ => .fails := rfl
  rw [e]
  constructor
  · intro hm
    split
    · rw [if_pos hm]
    · rfl
  · intro w2 h2
    split at h2
    · next n c r wr hf =>
      split at h2
      · cases h2
      · next hm =>
        rw [withContents, hf, Option.bind_some, pathNames_eq] at h2
        cases c with
        | none => cases h2
        | some f =>
          simp only at h2
          cases hx : Hdf5.writeNumber convert f (splitBy isSlash p) n with
          | none => rw [hx] at h2; cases h2
          | some f' => rw [hx] at h2; cases h2; exact ⟨hm, n, f, f', r, wr, rfl, hf, hx, rfl⟩
    · cases h2

/-- Opening by Fern's driver. -/
theorem fern_open (db s path : Str) (h : dataName s = some (db, path)) (mode : OpenMode) (w w' : Disk)
    (ho : openFile db mode w = (.ok (), w')) :
    (fernDriver convert).openIt db mode w = (.ok (fernDataset convert db db mode), w') := by
  simp only [fernDriver, dataName_database h, ho]

/-- A file that Fern's driver can update. -/
theorem fern_update (db : Str) (w : Disk) (f : Hdf5) (hf : w.files db = some ⟨some f, true, true⟩) :
    openFile db .update w = (.ok (), w) ∧ openFile db .read w = (.ok (), w) := by
  simp [openFile, openForUpdate, openForRead, hf]

/-- Writing to a dataset that exists: the attribute is written, nothing else changes. -/
theorem C81_write_existing (drivers : List (Str × Driver Disk)) (h : Registered drivers)
    (hd : (fernName, fernDriver convert) ∈ drivers) (name db path : Str) (hn : dataName name = some (db, path))
    (w : Disk) (f : Hdf5) (hf : w.files db = some ⟨some f, true, true⟩) (n : Number) :
    writeData drivers (.number n) name fernName w =
      match Hdf5.writeNumber convert f (splitBy isSlash path) n with
      | some f' => (.ok (), w.set db ⟨some f', true, true⟩)
      | none => (.fails, w) := by
  obtain ⟨h1, _⟩ := fern_update db w f hf
  have hc : (fernDriver convert).canOpen db .update w = (true, w) := by
    simp only [fernDriver, h1]
  have ht : driversToTry drivers db fernName = .ok [fernDriver convert] :=
    C80_format h db fernName (by decide) _ hd
  have he : datasetExists drivers db .update fernName w = (.ok true, w) := by
    rw [datasetExists, ht]
    simp only [existsLoop, hc, if_true]
  have ho : openDataset drivers db .update fernName w = (.ok (fernDataset convert db db .update), w) := by
    rw [openDataset, ht]
    simp only [openLoop, hc, if_true, fern_open db name path hn .update w w h1]
  rw [writeData, hn]
  simp only [he, Bool.not_true, Bool.false_eq_true, if_false, ho]
  simp only [fernDataset, hf, withContents, Option.bind_some, pathNames_eq, reduceCtorEq, if_false]
  cases Hdf5.writeNumber convert f (splitBy isSlash path) n <;> rfl

/-- Writing to a dataset that does not exist, or to a file in another format: what was in the file is lost. -/
theorem C81_write_new (drivers : List (Str × Driver Disk)) (h : Registered drivers)
    (hd : (fernName, fernDriver convert) ∈ drivers) (name db path : Str) (hn : dataName name = some (db, path))
    (w : Disk)
    (hf : w.files db = none ∧ w.creatable db = true ∨ w.files db = some ⟨none, true, true⟩) (n : Number) :
    writeData drivers (.number n) name fernName w =
      match Hdf5.writeNumber convert .empty (splitBy isSlash path) n with
      | some f' => (.ok (), (w.set db ⟨some .empty, true, true⟩).set db ⟨some f', true, true⟩)
      | none => (.fails, w.set db ⟨some .empty, true, true⟩) := by
  have h1 : openFile db .overwrite w = (.ok (), w.set db ⟨some .empty, true, true⟩) := by
    rcases hf with ⟨h1, h2⟩ | h1 <;> simp [openFile, openForOverwrite, *]
  have h2 : openFile db .overwrite (w.set db ⟨some .empty, true, true⟩) =
      (.ok (), w.set db ⟨some .empty, true, true⟩) := by
    have e : (w.set db ⟨some .empty, true, true⟩).set db ⟨some .empty, true, true⟩ =
        w.set db ⟨some .empty, true, true⟩ := by
      simp only [Disk.set, Disk.mk.injEq, and_true]
      funext m
      split <;> rfl
    have e2 : (w.set db ⟨some .empty, true, true⟩).files db = some ⟨some .empty, true, true⟩ := by
      simp [Disk.set]
    simp only [openFile, openForOverwrite, e2, if_true, e]
  have hcu : (fernDriver convert).canOpen db .update w = (false, w) := by
    rcases hf with ⟨h1, _⟩ | h1 <;> simp [fernDriver, openFile, openForUpdate, h1]
  have hco : (fernDriver convert).canOpen db .overwrite w = (true, w.set db ⟨some .empty, true, true⟩) := by
    simp only [fernDriver, h1]
  have ht : driversToTry drivers db fernName = .ok [fernDriver convert] :=
    C80_format h db fernName (by decide) _ hd
  have he : datasetExists drivers db .update fernName w = (.ok false, w) := by
    rw [datasetExists, ht]
    simp [existsLoop, hcu]
  have ho : openDataset drivers db .overwrite fernName w =
      (.ok (fernDataset convert db db .overwrite), w.set db ⟨some .empty, true, true⟩) := by
    rw [openDataset, ht]
    simp only [openLoop, hco, if_true, fern_open db name path hn .overwrite _ _ h2]
  have e2 : (w.set db ⟨some .empty, true, true⟩).files db = some ⟨some .empty, true, true⟩ := by
    simp [Disk.set]
  rw [writeData, hn]
  simp only [he, Bool.not_false, if_true, ho]
  simp only [fernDataset, e2, withContents, Option.bind_some, pathNames_eq, reduceCtorEq, if_false]
  cases Hdf5.writeNumber convert .empty (splitBy isSlash path) n <;> rfl

/-- A file that Fern's driver can neither update nor create is an error, and nothing changes. -/
theorem C81_write_refused (drivers : List (Str × Driver Disk)) (h : Registered drivers)
    (hd : (fernName, fernDriver convert) ∈ drivers) (name db path : Str) (hn : dataName name = some (db, path))
    (w : Disk)
    (hf : w.files db = none ∧ w.creatable db = false ∨ ∃ f, w.files db = some f ∧ f.writable = false)
    (v : AttributeValue) :
    writeData drivers v name fernName w = (.error ⟨db, .cannotBeWritten⟩, w) := by
  have hcu : (fernDriver convert).canOpen db .update w = (false, w) := by
    rcases hf with ⟨h1, _⟩ | ⟨f, h1, h2⟩ <;> simp [fernDriver, openFile, openForUpdate, *]
  have hco : (fernDriver convert).canOpen db .overwrite w = (false, w) := by
    rcases hf with ⟨h1, _⟩ | ⟨f, h1, h2⟩ <;> simp [fernDriver, openFile, openForOverwrite, *]
  have ht : driversToTry drivers db fernName = .ok [fernDriver convert] :=
    C80_format h db fernName (by decide) _ hd
  have he : datasetExists drivers db .update fernName w = (.ok false, w) := by
    rw [datasetExists, ht]
    simp [existsLoop, hcu]
  have ho : openDataset drivers db .overwrite fernName w = (.error ⟨db, .cannotBeWritten⟩, w) := by
    rw [openDataset, ht]
    simp [openLoop, hco]
  rw [writeData, hn]
  simp only [he, Bool.not_false, if_true, ho]

/-- Reading from a dataset that Fern's driver can read, whatever other drivers there are. -/
theorem C81_read (drivers : List (Str × Driver Disk)) (h : Registered drivers)
    (hd : (fernName, fernDriver convert) ∈ drivers) (name db path : Str) (hn : dataName name = some (db, path))
    (w : Disk) (f : Hdf5) (b : Bool) (hf : w.files db = some ⟨some f, true, b⟩) (hwf : WellFormedFile f) :
    (∀ n, f (splitBy isSlash path) = some (.scalar n) → readData drivers name w = (.ok (.number n), w)) ∧
    (splitBy isSlash path ≠ [] → f (splitBy isSlash path).dropLast = some .group →
      f (splitBy isSlash path) = none →
      readData drivers name w = (.error ⟨db, .doesNotContainData path⟩, w)) ∧
    (f (splitBy isSlash path) = some .group → readData drivers name w = (.fails, w)) := by
  have h1 : openFile db .read w = (.ok (), w) := by simp [openFile, openForRead, hf]
  have hc : (fernDriver convert).canOpen db .read w = (true, w) := by
    simp only [fernDriver, h1]
  have hne : drivers ≠ [] := by rintro rfl; simp at hd
  have ho : openDataset drivers db .read [] w = (.ok (fernDataset convert db db .read), w) := by
    rw [openDataset, driversToTry, if_neg hne, if_neg (by simp), driver_lookup_of_mem h.once hd]
    simp only [Option.toList_some, List.singleton_append, openLoop, hc, if_true,
      fern_open db name path hn .read w w h1]
  generalize hp : splitBy isSlash path = p
  have key : readData drivers name w =
      ((ofAssert (f.containsFeature p)).andThen fun b =>
        if b then (fernDataset convert db db .read).readFeature path w
        else (ofAssert (f.containsAttribute p)).andThen fun b =>
          if b then (fernDataset convert db db .read).readAttribute path w
          else .error ⟨db, .doesNotContainData path⟩, w) := by
    rw [readData, hn]
    simp only [ho]
    simp only [fernDataset, withContents, hf, Option.bind_some, pathNames_eq, hp]
  have hra : (fernDataset convert db db .read).readAttribute path w =
      match f.readAttribute p with
      | .ok n => .ok (.number n)
      | .error _ => .error ⟨db, .doesNotContainAttribute path⟩
      | .fails => .fails := by
    simp only [fernDataset, withContents, hf, Option.bind_some, pathNames_eq, hp]
    cases f.readAttribute p <;> rfl
  have hrf : (fernDataset convert db db .read).readFeature path w =
      (ofAssert (f.isGroup p)).andThen fun b =>
      if b then .fails else .error ⟨db, .doesNotContainFeature path⟩ := by
    simp only [fernDataset, withContents, hf, Option.bind_some, pathNames_eq, hp]
  obtain ⟨g1, g2⟩ := C79_contains_feature hwf p
  obtain ⟨a1, a2⟩ := C79_contains_attribute hwf p
  have gfalse : p ≠ [] → f p.dropLast = some .group → f p ≠ some .group → f.containsFeature p = some false := by
    intro k1 k2 k3
    cases hx : f.containsFeature p with
    | none => exact absurd k2 (g2.1 hx).2
    | some x =>
      cases x with
      | false => rfl
      | true => exact absurd (g1.1 hx) k3
  refine ⟨?_, ?_, ?_⟩
  · intro n hnum
    rcases List.eq_nil_or_concat p with rfl | ⟨q, m, rfl⟩
    · rw [hwf.root] at hnum; cases hnum
    · rw [List.concat_eq_append] at *
      have k1 := gfalse (by simp) (by rw [List.dropLast_concat]; exact hwf.above q m (by rw [hnum]; simp))
        (by rw [hnum]; simp)
      have k2 := a1.2 ⟨_, hnum, by simp⟩
      rw [key, k1, k2, hra, (C79_read hwf _ n).2 hnum]
      rfl
  · intro k0 k1 k2
    have k3 := gfalse k0 k1 (by rw [k2]; simp)
    have k4 : f.containsAttribute p = some false := by
      cases hx : f.containsAttribute p with
      | none =>
        obtain ⟨k5, k6⟩ := a2.1 hx
        exfalso
        refine k6 ?_
        have e : p.dropLast.dropLast = p.dropLast.take (p.length - 2) := by
          rw [List.dropLast_eq_take (l := p.dropLast), List.length_dropLast]
          rfl
        rw [e]
        exact wf_groups hwf p.dropLast k1 _
      | some x =>
        cases x with
        | false => rfl
        | true =>
          obtain ⟨o, ho, _⟩ := a1.1 hx
          rw [k2] at ho; cases ho
    rw [key, k3, k4]
    rfl
  · intro k1
    have k3 : f.isGroup p = some true := by
      rcases List.eq_nil_or_concat p with rfl | ⟨q, m, rfl⟩
      · rw [Hdf5.isGroup, object_root, k1]; rfl
      · rw [List.concat_eq_append] at *
        rw [isGroup_snoc hwf, if_pos (hwf.above q m (by rw [k1]; simp)), k1]; simp
    rw [key, g1.2 k1]
    change ((fernDataset convert db db .read).readFeature path w, w) = _
    rw [hrf, k3]
    rfl

/-- What is written can be read, whatever other drivers there are. -/
theorem C81_write_read (drivers : List (Str × Driver Disk)) (h : Registered drivers)
    (hd : (fernName, fernDriver convert) ∈ drivers) (name db path : Str) (hn : dataName name = some (db, path))
    (w w' : Disk) (f : Hdf5)
    (hf : w.files db = some ⟨some f, true, true⟩ ∨
      f = .empty ∧ (w.files db = none ∧ w.creatable db = true ∨ w.files db = some ⟨none, true, true⟩))
    (hwf : WellFormedFile f) (n : Number)
    (hw : writeData drivers (.number n) name fernName w = (.ok (), w')) :
    readData drivers name w' =
      (.ok (.number (stored convert (f (splitBy isSlash path)) n)), w') ∧
    (∀ db', db' ≠ db → w'.files db' = w.files db') := by
  obtain ⟨f', h1, h2, h3⟩ : ∃ f', Hdf5.writeNumber convert f (splitBy isSlash path) n = some f' ∧
      w'.files db = some ⟨some f', true, true⟩ ∧ ∀ db', db' ≠ db → w'.files db' = w.files db' := by
    rcases hf with hf | ⟨rfl, hf⟩
    · rw [C81_write_existing drivers h hd name db path hn w f hf n] at hw
      cases hx : Hdf5.writeNumber convert f (splitBy isSlash path) n with
      | none => rw [hx] at hw; cases hw
      | some f' =>
        rw [hx] at hw
        cases hw
        exact ⟨f', rfl, by simp [Disk.set], fun db' hne => by simp [Disk.set, hne]⟩
    · rw [C81_write_new drivers h hd name db path hn w hf n] at hw
      cases hx : Hdf5.writeNumber convert .empty (splitBy isSlash path) n with
      | none => rw [hx] at hw; cases hw
      | some f' =>
        rw [hx] at hw
        cases hw
        exact ⟨f', rfl, by simp [Disk.set], fun db' hne => by simp [Disk.set, hne]⟩
  refine ⟨?_, h3⟩
  have h4 := C79_tree hwf _ n f' h1
  exact (C81_read drivers h hd name db path hn w' f' true h2 h4).1 _
    ((C79_read h4 _ _).1 (C79_read_back hwf _ n f' h1))

/-- Without format, a dataset is overwritten by Fern's driver if it can create it, whatever the name of the
file, also if there is a file in another format that another driver can open. -/
theorem C81_overwrite_without_format (drivers : List (Str × Driver Disk)) (h : Registered drivers)
    (hd : (fernName, fernDriver convert) ∈ drivers) (name db path : Str) (hn : dataName name = some (db, path))
    (w : Disk)
    (hf : w.files db = none ∧ w.creatable db = true ∨ ∃ f, w.files db = some f ∧ f.writable = true) :
    ∃ w' f', openDataset drivers db .overwrite [] w = (.ok (fernDataset convert db db .overwrite), w') ∧
      w'.files db = some f' ∧ f'.contents = some .empty := by
  have hne : drivers ≠ [] := by rintro rfl; simp at hd
  obtain ⟨r, h1⟩ : ∃ r, openFile db .overwrite w = (.ok (), w.set db ⟨some .empty, r, true⟩) := by
    rcases hf with ⟨h1, h2⟩ | ⟨f, h1, h2⟩
    · exact ⟨true, by simp [openFile, openForOverwrite, *]⟩
    · exact ⟨f.readable, by simp [openFile, openForOverwrite, *]⟩
  have e2 : (w.set db ⟨some .empty, r, true⟩).files db = some ⟨some .empty, r, true⟩ := by
    simp [Disk.set]
  have h2 : openFile db .overwrite (w.set db ⟨some .empty, r, true⟩) =
      (.ok (), (w.set db ⟨some .empty, r, true⟩).set db ⟨some .empty, r, true⟩) := by
    simp only [openFile, openForOverwrite, e2, if_true]
  have hco : (fernDriver convert).canOpen db .overwrite w = (true, w.set db ⟨some .empty, r, true⟩) := by
    simp only [fernDriver, h1]
  refine ⟨(w.set db ⟨some .empty, r, true⟩).set db ⟨some .empty, r, true⟩, ⟨some .empty, r, true⟩, ?_,
    by simp [Disk.set], rfl⟩
  · rw [openDataset, driversToTry, if_neg hne, if_neg (by simp), driver_lookup_of_mem h.once hd]
    simp only [Option.toList_some, List.singleton_append, openLoop, hco, if_true,
      fern_open db name path hn .overwrite _ _ h2]

/-! #### Examples -/

/-- A raster in some format. -/
def exampleDisk : Disk where
  files n := if n = ['r', '.', 't', 'i', 'f'] then some ⟨none, true, true⟩ else none
  creatable _ := true

/-- Write and read. -/
example :
    let w := (writeData [(fernName, fernDriver convertExample)] (.number (.int .i32 5)) "d.h5:a/x".toList fernName
      exampleDisk).2
    (readData [(fernName, fernDriver convertExample)] "d.h5:/a/x".toList w).1 = .ok (.number (.int .i32 5)) ∧
    (readData [(fernName, fernDriver convertExample)] "d.h5:/a/y".toList w).1 =
      .error ⟨"d.h5".toList, .doesNotContainData "/a/y".toList⟩ := by
  decide +kernel

/-- Asking for data that is not there: an error if only its last component doesn't exist, otherwise the
assertion fails. -/
theorem C81_missing_data :
    let w := (writeData [(fernName, fernDriver convertExample)] (.number (.int .i32 5)) "d.h5:a/x".toList fernName
      exampleDisk).2
    (readData [(fernName, fernDriver convertExample)] "d.h5:/b".toList w).1 =
      .error ⟨"d.h5".toList, .doesNotContainData "/b".toList⟩ ∧
    (readData [(fernName, fernDriver convertExample)] "d.h5:/b/x".toList w).1 = .fails := by
  decide +kernel

/-- A file that is protected against reading. -/
example : readData [(fernName, fernDriver convertExample)] "d.h5:/b".toList
    (exampleDisk.set "d.h5".toList ⟨some .empty, false, true⟩) =
      (.error ⟨"d.h5".toList, .cannotBeRead⟩, exampleDisk.set "d.h5".toList ⟨some .empty, false, true⟩) :=
  C81_read_refused _ "d.h5".toList "/b".toList (by decide +kernel) _ fun f h => by
    simp only [Disk.set, if_true, Option.some.injEq] at h
    subst h
    exact Or.inr rfl

/-- A dataset that is opened by a name with a path, and for reading: it can't be written. -/
example : ∃ d, (fernDriver convertExample).openIt "d.h5:/b".toList .read
    (exampleDisk.set "d.h5".toList ⟨some .empty, true, true⟩) =
      (.ok d, exampleDisk.set "d.h5".toList ⟨some .empty, true, true⟩) ∧
    d.writeAttribute (.number (.int .i32 5)) "/a/x".toList
      (exampleDisk.set "d.h5".toList ⟨some .empty, true, true⟩) = .fails := by
  have hn : dataName "d.h5:/b".toList = some ("d.h5".toList, "/b".toList) := by decide +kernel
  have ho : (fernDriver convertExample).openIt "d.h5:/b".toList .read
    (exampleDisk.set "d.h5".toList ⟨some .empty, true, true⟩) =
      (.ok (fernDataset convertExample "d.h5:/b".toList "d.h5".toList .read),
        exampleDisk.set "d.h5".toList ⟨some .empty, true, true⟩) := by
    simp only [fernDriver, hn, openFile, openForRead, Disk.set, if_true]
    rfl
  exact ⟨_, ho, (C81_opened _ _ _ hn _ _ _ _ ho _ _).1 rfl⟩

end Fern
