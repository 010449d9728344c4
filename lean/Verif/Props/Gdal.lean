import Verif.Lemmas.Gdal

/-!
# C87: rasters in GDAL datasets
-/

namespace Fern.Gdal

open Fern Fern.Domains Fern.Features

variable {fmt : Format} {d : Disk}

/-! ### Names -/

/-- C87: the name of a raster is the last part of its pathname, without extension. -/
theorem C87_name {dir base ext : Str} (hd : dir = [] ∨ dir.getLast? = some '/') (hb : base ≠ [])
    (h1 : '/' ∉ base) (h2 : '/' ∉ ext) (h3 : '.' ∉ ext) (h4 : base ≠ ['.']) :
    stem (dir ++ base ++ '.' :: ext) = base ∧ ('.' ∉ base → stem (dir ++ base) = base) := by
  constructor
  · have hf : (Path.ofString (dir ++ (base ++ '.' :: ext))).filename = base ++ '.' :: ext :=
      filename_eq hd (by simp) (by simp [h1, h2])
    have hr : ((base ++ '.' :: ext).reverse.dropWhile (· != '.')).drop 1 = base.reverse := by
      rw [List.reverse_append, List.reverse_cons, List.append_assoc]
      rw [List.dropWhile_append_of_pos]
      · simp
      · intro c hc
        rw [List.mem_reverse] at hc
        simp
        rintro rfl
        exact h3 hc
    unfold stem
    dsimp only
    rw [List.append_assoc, hf, hr, if_neg, List.reverse_reverse]
    rintro (h | h)
    · cases base with
      | nil => exact hb rfl
      | cons c cs =>
        cases cs with
        | nil =>
          simp at h
          exact h4 (by rw [h.1])
        | cons => simp at h
    · simp [hb] at h
  · intro hdot
    have hf : (Path.ofString (dir ++ base)).filename = base := filename_eq hd hb h1
    unfold stem
    dsimp only
    rw [hf, if_pos]
    right
    have : base.reverse.dropWhile (· != '.') = [] := by
      rw [List.dropWhile_eq_nil_iff]
      intro c hc
      rw [List.mem_reverse] at hc
      simp
      rintro rfl
      exact hdot hc
    rw [this]
    rfl

example : stem "data/soil.v2.map".toList = "soil.v2".toList ∧ stem "data/soil".toList = "soil".toList := by
  constructor
  · exact (C87_name (dir := "data/".toList) (base := "soil.v2".toList) (ext := "map".toList) (by decide) (by decide)
      (by decide) (by decide) (by decide) (by decide)).1
  · exact (C87_name (dir := "data/".toList) (base := "soil".toList) (ext := []) (by decide) (by decide) (by decide)
      (by decide) (by decide) (by decide)).2 (by decide)

/-- C87: a dataset has one attribute, `/name/name`. Every other path is refused, by reading with the message that the
attribute is not there, by `expression_type` with the message that a feature is not there. -/
theorem C87_paths {ds : Dataset} (ho : ds.isOpen = true) (hs : stem ds.name ≠ []) {p : Path}
    (hp : p ≠ Spec.attributePath (stem ds.name)) :
    readAttribute d ds p = .error .doesNotContainAttribute ∧
      expressionType d ds p = .error .doesNotContainFeature := by
  have hc : containsAttribute ds p = false := by rw [attributePath_contains hs, decide_eq_false hp]
  constructor
  · unfold readAttribute band
    rw [ho, hc]
    rfl
  · unfold expressionType
    rw [ho, hc]
    rfl

/-! ### Opening -/

/-- C87: opening in `READ` or `UPDATE` mode changes no file. -/
theorem C87_open_keeps {name : Str} {mode : OpenMode} (h : mode ≠ .overwrite) :
    (openDataset fmt d name mode).1 = d := by
  unfold openDataset
  split
  · split <;> rfl
  · split
    · split <;> rfl
    · rfl
    · rfl
  · exact absurd rfl h

/-- C87: opening in `READ` mode succeeds for rasters and fails for other files and without file. -/
theorem C87_open_read (name : Str) :
    (∀ ds, (openDataset fmt d name .read).2 = .ok ds → (∃ i, d name = some (.image i)) ∧ ds = ⟨name, .read, true⟩) ∧
    ((∃ i, d name = some (.image i)) → (openDataset fmt d name .read).2 = .ok ⟨name, .read, true⟩) ∧
    (d name = none → (openDataset fmt d name .read).2 = .error .doesNotExist) := by
  unfold openDataset
  dsimp only
  refine ⟨?_, ?_, ?_⟩
  · intro ds h
    split at h
    · rename_i i hi
      cases h
      exact ⟨⟨i, hi⟩, rfl⟩
    · cases h
    · cases h
  · rintro ⟨i, hi⟩
    rw [hi]
  · intro h
    rw [h]

/-- C87: opening in `OVERWRITE` mode deletes the raster, before anything is known about what will be written. Other
files, also one of another kind with this name, remain. -/
theorem C87_open_overwrite (name : Str) :
    (openDataset fmt d name .overwrite).2 = .ok ⟨name, .overwrite, false⟩ ∧
    (∀ n, n ≠ name → (openDataset fmt d name .overwrite).1 n = d n) ∧
    (openDataset fmt d name .overwrite).1 name = (match d name with | some .other => some .other | _ => none) := by
  unfold openDataset
  dsimp only
  split
  · rename_i i hi
    refine ⟨rfl, fun n hn => set_other d none hn, (set_same d name none).trans ?_⟩
    rw [hi]
  · rename_i h
    refine ⟨rfl, fun n _ => rfl, ?_⟩
    rcases hd : d name with - | (i | -)
    · exact hd
    · exact absurd hd (h i)
    · exact hd

/-- C87: constants, fields with values of other types and fields with more or less than one box are refused when
the old raster has been deleted already. -/
theorem C87_refused {name : Str} {i : Image} (hi : d name = some (.image i)) {a : Attribute}
    (ha : a = .constant ∨ (∃ t es, a = .field t es ∧ (gdalType t = none ∨ es.length ≠ 1))) (p : Path) :
    let opened := openDataset fmt d name .overwrite
    (writeAttribute fmt opened.1 ⟨name, .overwrite, false⟩ a p).1 name = none ∧
      (writeAttribute fmt opened.1 ⟨name, .overwrite, false⟩ a p).2 = .assertion := by
  have hn : (openDataset fmt d name .overwrite).1 name = none := by
    rw [(C87_open_overwrite name).2.2, hi]
  dsimp only
  rcases ha with rfl | ⟨t, es, rfl, h⟩
  · exact ⟨hn, rfl⟩
  · unfold writeAttribute
    dsimp only
    cases ht : gdalType t with
    | none => exact ⟨hn, rfl⟩
    | some g =>
      rcases h with h | h
      · rw [ht] at h
        cases h
      · unfold writeField
        rw [if_neg (by simp)]
        match es, h with
        | [], _ => exact ⟨hn, rfl⟩
        | [e], h => exact absurd rfl h
        | _ :: _ :: _, _ => exact ⟨hn, rfl⟩

/-- The values that cannot be written: truth values and integers of 8 bits with sign or of 64 bits. -/
example : gdalType .bool = none ∧ gdalType (.int .i8) = none ∧ gdalType (.int .u64) = none ∧
    gdalType (.int .i64) = none := ⟨rfl, rfl, rfl, rfl⟩

/-- C87: writing changes no other file. -/
theorem C87_write_frame (ds : Dataset) (a : Attribute) (p : Path) {n : Str} (hn : n ≠ ds.name) :
    (writeAttribute fmt d ds a p).1 n = d n := by
  unfold writeAttribute
  split
  · rfl
  · split
    · rfl
    · unfold writeField
      split
      · rfl
      · split
        · dsimp only
          split
          · rfl
          · rename_i d' i hc
            have hd : d' n = d n := by
              split at hc
              · split at hc
                · cases hc
                  rfl
                · cases hc
              · rw [Option.map_eq_some_iff] at hc
                obtain ⟨j, -, hj⟩ := hc
                cases hj
                exact set_other d _ hn
            split
            · exact hd
            · split
              · exact hd
              · exact (set_other _ _ hn).trans hd
        · rfl

/-! ### Writing and reading -/

/-- C87: rasters of complex numbers are refused by the language when they are read; asking for their type and reading
them in Python fails an assertion. -/
theorem C87_complex {name : Str} (hs : stem name ≠ []) {i : Image} (hi : d name = some (.image i)) (ht : i.type = .other)
    (hb : i.bands = 1) (mode : OpenMode) {round32 : Flt → Flt} :
    readAttribute d ⟨name, mode, true⟩ (Spec.attributePath (stem name)) = .error .unsupportedValueType ∧
      expressionType d ⟨name, mode, true⟩ (Spec.attributePath (stem name)) = .assertion ∧
      pyRead fmt round32 d name = .assertion := by
  have hc : containsAttribute ⟨name, mode, true⟩ (Spec.attributePath (stem name)) = true := by
    rw [attributePath_contains hs]
    exact decide_eq_true rfl
  refine ⟨?_, ?_, ?_⟩
  · unfold readAttribute band
    simp [hc, hi, hb, ht, valueType]
  · unfold expressionType
    simp [hc, hi, hb, ht, valueType]
  · unfold pyRead
    simp [hi, hb, ht, valueType]

/-- C87: the language handles rasters of one band only; other rasters fail an assertion when they are read. The Python
extension reads the first band. -/
theorem C87_bands {name : Str} (hs : stem name ≠ []) {i : Image} (hi : d name = some (.image i)) (hb : i.bands ≠ 1)
    (mode : OpenMode) {round32 : Flt → Flt} :
    readAttribute d ⟨name, mode, true⟩ (Spec.attributePath (stem name)) = .assertion ∧
      expressionType d ⟨name, mode, true⟩ (Spec.attributePath (stem name)) = .assertion ∧
      (i.bands = 0 → pyRead fmt round32 d name = .assertion) ∧
      (i.bands ≠ 0 → pyRead fmt round32 d name =
        pyRead fmt round32 (d.set name (some (.image { i with bands := 1 }))) name) := by
  have hc : containsAttribute ⟨name, mode, true⟩ (Spec.attributePath (stem name)) = true := by
    rw [attributePath_contains hs]
    exact decide_eq_true rfl
  refine ⟨?_, ?_, ?_, ?_⟩
  · unfold readAttribute band
    simp [hc, hi, hb]
  · unfold expressionType
    simp [hc, hi, hb]
  · intro h0
    unfold pyRead
    simp [hi, h0]
  · intro h0
    unfold pyRead
    simp only [hi, Disk.set, if_true]
    rw [if_neg (by omega), if_neg (by omega)]

/-- C87: if the driver cannot create the dataset, writing is refused; an existing raster is gone by then. -/
theorem C87_cannot_create {name : Str} {t : NumTy} {g : GType} {box : Box} {a : FieldArray} (p : Path)
    (ht : gdalType t = some g) (hc : fmt.creates g = false ∨ a.rows = 0 ∨ a.cols = 0) :
    let opened := openDataset fmt d name .overwrite
    writeAttribute fmt opened.1 ⟨name, .overwrite, false⟩ (.field t [(box, a)]) p =
        (opened.1, .error .cannotBeCreated) ∧
      ∀ i, d name = some (.image i) → opened.1 name = none := by
  have hcr : createDataset fmt g a.rows a.cols = none := by
    unfold createDataset
    rcases hc with h | h | h <;> simp [h]
  refine ⟨?_, fun i hi => ?_⟩
  · unfold writeAttribute
    simp only [ht]
    unfold writeField
    simp [hcr]
  · rw [(C87_open_overwrite name).2.2, hi]

/-- What `writeImage` does to an image that is large enough. -/
theorem writeImage_ok {i : Image} {type : GType} {box : Box} {a : FieldArray} {cell : Rat}
    (hg : Spec.Gridded box a cell) (ht : fmt.transforms = true) (hr : a.rows ≤ i.rows) (hc : a.cols ≤ i.cols)
    (hm : a.array.hasMaskedValues = false) :
    writeImage fmt i type box a =
      ({ i with
          transform := some ⟨box.west, cell, 0, box.north, 0, cell⟩
          values := window i.cols a.rows a.cols (a.array.values.map (fmt.convert type i.type)) i.values }, .ok ()) := by
  unfold writeImage
  dsimp only
  rw [(cells hg).1, (cells hg).2, if_neg (not_not.2 hg.positive), if_neg (not_not.2 rfl), ht, if_neg (by simp),
    if_neg (by omega), hm]
  rfl

theorem writeImage_masked {i : Image} {type : GType} {box : Box} {a : FieldArray} {cell : Rat}
    (hg : Spec.Gridded box a cell) (ht : fmt.transforms = true) (hr : a.rows ≤ i.rows) (hc : a.cols ≤ i.cols)
    (hm : a.array.hasMaskedValues = true) (hi : i.mask = .allValid) (hf : fmt.masks = true) {bytes : List Int}
    (hb : a.array.writeMask .u8 (List.replicate (a.rows * a.cols) 0) = some bytes) :
    writeImage fmt i type box a =
      ({ i with
          transform := some ⟨box.west, cell, 0, box.north, 0, cell⟩
          values := window i.cols a.rows a.cols (a.array.values.map (fmt.convert type i.type)) i.values
          mask := .bytes false (window i.cols a.rows a.cols bytes (List.replicate (i.rows * i.cols) 0)) },
        .ok ()) := by
  unfold writeImage
  dsimp only
  rw [(cells hg).1, (cells hg).2, if_neg (not_not.2 hg.positive), if_neg (not_not.2 rfl), ht, if_neg (by simp),
    if_neg (by omega), hm, if_neg (by simp), hb, hi, hf]
  rfl

/-- The image written in `OVERWRITE` mode. -/
def written (g : GType) (box : Box) (a : FieldArray) (cell : Rat) (m : Mask) : Image :=
  ⟨a.rows, a.cols, 1, g, a.array.values, none, some ⟨box.west, cell, 0, box.north, 0, cell⟩, m⟩

theorem writeImage_new {type : GType} {box : Box} {a : FieldArray} {cell : Rat}
    (hg : Spec.Gridded box a cell) (ht : fmt.transforms = true)
    (hf : a.array.hasMaskedValues = true → fmt.masks = true)
    (hv : ∀ v ∈ a.array.values, fmt.convert type type v = v) {i : Image}
    (hi : createDataset fmt type a.rows a.cols = some i) :
    ∃ m, writeImage fmt i type box a = (written type box a cell m, .ok ()) ∧
      ((a.array.hasMaskedValues = false ∧ m = .allValid) ∨
        ∃ bytes, m = .bytes false bytes ∧
          a.array.writeMask .u8 (List.replicate (a.rows * a.cols) 0) = some bytes) := by
  unfold createDataset at hi
  split at hi
  swap
  · cases hi
  cases hi
  have hconv : a.array.values.map (fmt.convert type type) = a.array.values := by
    conv => rhs; rw [← List.map_id a.array.values]
    exact List.map_congr_left fun v h => hv v h
  have hw : window a.cols a.rows a.cols a.array.values (List.replicate (a.rows * a.cols) (.fin 0)) = a.array.values :=
    window_full (by simp) hg.values
  cases hm : a.array.hasMaskedValues with
  | false =>
    refine ⟨.allValid, ?_, .inl ⟨rfl, rfl⟩⟩
    rw [writeImage_ok hg ht le_rfl le_rfl hm, hconv, hw]
    rfl
  | true =>
    obtain ⟨bytes, hb, hl, -⟩ := C50_write_mask .u8 a.array (List.replicate (a.rows * a.cols) 0)
      (by rw [List.length_replicate, hg.values])
    refine ⟨.bytes false bytes, ?_, .inr ⟨bytes, rfl, hb⟩⟩
    rw [writeImage_masked hg ht le_rfl le_rfl hm rfl (hf hm) hb, hconv, hw,
      window_full (by simp) (by rw [hl, hg.mask])]
    rfl

/-- Conditions for writing a new raster. -/
structure Writable (fmt : Format) (t : NumTy) (g : GType) (box : Box) (a : FieldArray) (cell : Rat) : Prop where
  type : gdalType t = some g
  creates : fmt.creates g = true
  transforms : fmt.transforms = true
  masks : a.array.hasMaskedValues = true → fmt.masks = true
  grid : Spec.Gridded box a cell
  convert : ∀ v ∈ a.array.values, fmt.convert g g v = v

theorem write_new {name : Str} (hs : stem name ≠ []) {t : NumTy} {g : GType} {box : Box} {a : FieldArray}
    {cell : Rat} (hw : Writable fmt t g box a cell) :
    ∃ m, writeAttribute fmt d ⟨name, .overwrite, false⟩ (.field t [(box, a)])
          (Spec.attributePath (stem name)) =
        (d.set name (some (.image (written g box a cell m))), .ok ⟨name, .overwrite, true⟩) ∧
      ((a.array.hasMaskedValues = false ∧ m = .allValid) ∨
        ∃ bytes, m = .bytes false bytes ∧
          a.array.writeMask .u8 (List.replicate (a.rows * a.cols) 0) = some bytes) := by
  have hr := hw.grid.rows
  have hc := hw.grid.cols
  have hcr : createDataset fmt g a.rows a.cols =
      some ⟨a.rows, a.cols, 1, g, List.replicate (a.rows * a.cols) (.fin 0), none, none, .allValid⟩ := by
    unfold createDataset
    rw [hw.creates, if_pos]
    simp
    omega
  obtain ⟨m, h1, h2⟩ := writeImage_new hw.grid hw.transforms hw.masks hw.convert hcr
  refine ⟨m, ?_, h2⟩
  unfold writeAttribute writeField
  dsimp only
  rw [hw.type]
  dsimp only
  rw [if_neg (by simp), if_neg (by simp), hcr]
  dsimp only [Option.map_some]
  rw [writablePath_eq (by exact hs), if_neg (by simp), if_neg (by simp), h1, set_set]

/-- C87: a field with square cells, written in `OVERWRITE` mode by a driver that can store it, is read back: the same
type, box, shape, values and mask. -/
theorem C87_write_read {name : Str} (hs : stem name ≠ []) {t : NumTy} {g : GType} {box : Box} {a : FieldArray}
    {cell : Rat} (hw : Writable fmt t g box a cell) :
    let opened := openDataset fmt d name .overwrite
    let path := Spec.attributePath (stem name)
    let disk := (writeAttribute fmt opened.1 ⟨name, .overwrite, false⟩ (.field t [(box, a)]) path).1
    opened.2 = .ok ⟨name, .overwrite, false⟩ ∧
    (writeAttribute fmt opened.1 ⟨name, .overwrite, false⟩ (.field t [(box, a)]) path).2 =
      .ok ⟨name, .overwrite, true⟩ ∧
    (openDataset fmt disk name .read).2 = .ok ⟨name, .read, true⟩ ∧
    expressionType disk ⟨name, .read, true⟩ path = .ok t ∧
    readAttribute disk ⟨name, .read, true⟩ path = .ok (.field t [(box, a)]) := by
  obtain ⟨m, h1, h2⟩ := write_new (d := (openDataset fmt d name .overwrite).1) hs hw
  dsimp only
  rw [h1]
  dsimp only
  have hc : containsAttribute ⟨name, .read, true⟩ (Spec.attributePath (stem name)) = true := by
    rw [attributePath_contains (by exact hs)]
    simp
  have hd : ∀ f, Disk.set (openDataset fmt d name .overwrite).1 name f name = f := fun f => set_same _ _ _
  have ht := gdalType_valueType hw.type
  refine ⟨(C87_open_overwrite name).1, rfl, (C87_open_read name).2.1 ⟨_, hd _⟩, ?_, ?_⟩
  · unfold expressionType
    rw [hc]
    simp only [hd, written, ht]
    rfl
  · have hb : band (Disk.set (openDataset fmt d name .overwrite).1 name (some (.image (written g box a cell m))))
        ⟨name, .read, true⟩ (Spec.attributePath (stem name)) = .ok (written g box a cell m) := by
      unfold band
      rw [hc]
      simp only [hd]
      rfl
    unfold readAttribute
    rw [hb]
    dsimp only
    have hv : valueType (written g box a cell m).type = some t := ht
    rw [hv]
    dsimp only
    have hbox : (⟨box.west, box.north - a.rows * cell, box.west + a.cols * cell, box.north⟩ : Box) = box := by
      have e1 : box.north - a.rows * cell = box.south := by rw [← hw.grid.height]; ring
      have e2 : box.west + a.cols * cell = box.east := by rw [← hw.grid.width]; ring
      rw [e1, e2]
    have habs : abs cell = cell := abs_of_pos hw.grid.positive
    unfold readField
    simp only [written, Option.getD_some, habs, ne_eq, not_true_eq_false, if_false, hbox]
    rcases h2 with ⟨hmf, rfl⟩ | ⟨bytes, rfl, hbytes⟩
    · simp only [Image.effectiveMask]
      have : MaskedArray.ofValues a.array.values = a.array := by
        have hmask : a.array.mask = List.replicate a.array.values.length false := by
          rw [hw.grid.values, ← hw.grid.mask]
          refine List.eq_replicate_iff.2 ⟨rfl, fun b hb => ?_⟩
          cases b with
          | false => rfl
          | true =>
            have := (C50_has_masked_values a.array).2 (List.mem_iff_getElem?.1 hb)
            rw [hmf] at this
            cases this
        unfold MaskedArray.ofValues
        rw [← hmask]
      rw [this]
    · simp only [Image.effectiveMask]
      obtain ⟨out, c, k1, k2, k3, k4⟩ := C50_round_trip .u8 a.array (MaskedArray.ofValues a.array.values)
        (List.replicate (a.rows * a.cols) 0) (by rw [hw.grid.mask, hw.grid.values])
        (by rw [List.length_replicate, hw.grid.values]) rfl rfl
      rw [hbytes] at k1
      cases k1
      rw [k2]
      have : c = a.array := by
        cases c
        cases h : a.array
        rw [h] at k3 k4
        cases k3
        cases k4
        rfl
      rw [this]

/-- A field of two rows and two columns. -/
def sampleField : FieldArray := ⟨2, 2, ⟨[.fin 1, .fin 2, .nan, .fin 4], [false, true, false, false]⟩⟩

/-- A driver that can do everything and does not change values. -/
def sampleFormat : Format := ⟨fun _ => true, true, true, true, true, true, fun _ _ v => v, .fin 0⟩

theorem sample_gridded : Spec.Gridded ⟨10, 20, 30, 40⟩ sampleField 10 :=
  ⟨by decide, by decide, by norm_num, by norm_num [sampleField], by norm_num [sampleField], rfl, rfl⟩

example : Writable sampleFormat .f64 .float64 ⟨10, 20, 30, 40⟩ sampleField 10 :=
  ⟨rfl, rfl, rfl, fun _ => rfl, sample_gridded, fun _ _ => rfl⟩

/-- C87: a dataset opened in `OVERWRITE` mode can be written once; writing again fails an assertion and changes
nothing. -/
theorem C87_write_once {d : Disk} {ds ds' : Dataset} {a b : Attribute} {p q : Path} (hm : ds.mode = .overwrite)
    (h : (writeAttribute fmt d ds a p).2 = .ok ds') :
    ∀ d', writeAttribute fmt d' ds' b q = (d', .assertion) := by
  have hds : ds'.mode = .overwrite ∧ ds'.isOpen = true := by
    unfold writeAttribute at h
    split at h
    · cases h
    · split at h
      · cases h
      · unfold writeField at h
        split at h
        · cases h
        · split at h
          · dsimp only at h
            split at h
            · dsimp only at h
              split at h <;> cases h
            · split at h
              · cases h
              · split at h
                · cases h
                · dsimp only at h
                  split at h
                  · cases h
                    exact ⟨hm, rfl⟩
                  · cases h
                  · cases h
                  · cases h
          · cases h
  intro d'
  unfold writeAttribute
  split
  · rfl
  · split
    · rfl
    · unfold writeField
      rw [if_pos]
      rw [hds.1, hds.2]
      rfl

/-- C87: cells that are not square are refused; in `OVERWRITE` mode a raster of zeros without transformation is left
behind. -/
theorem C87_not_square {name : Str} (hs : stem name ≠ []) {t : NumTy} {g : GType} {box : Box} {a : FieldArray}
    (ht : gdalType t = some g) (hc : fmt.creates g = true) (hr : 0 < a.rows) (hk : 0 < a.cols)
    (hb : (box.east - box.west) / a.cols ≠ (box.north - box.south) / a.rows) :
    writeAttribute fmt d ⟨name, .overwrite, false⟩ (.field t [(box, a)]) (Spec.attributePath (stem name)) =
      (d.set name (some (.image
        ⟨a.rows, a.cols, 1, g, List.replicate (a.rows * a.cols) (.fin 0), none, none, .allValid⟩)), .assertion) := by
  have hcr : createDataset fmt g a.rows a.cols =
      some ⟨a.rows, a.cols, 1, g, List.replicate (a.rows * a.cols) (.fin 0), none, none, .allValid⟩ := by
    unfold createDataset
    rw [hc, if_pos]
    simp
    omega
  have hw : ∀ i, writeImage fmt i g box a = (i, .assertion) := by
    intro i
    unfold writeImage
    dsimp only
    split <;> rfl
  unfold writeAttribute writeField
  dsimp only
  rw [ht]
  dsimp only
  rw [if_neg (by simp), if_neg (by simp), hcr]
  dsimp only [Option.map_some]
  rw [writablePath_eq (by exact hs), if_neg (by simp), if_neg (by simp), hw, set_set]

/-! ### Updating -/

theorem write_update {name : Str} (hs : stem name ≠ []) {i : Image} (hi : d name = some (.image i)) (hb : i.bands = 1)
    {t : NumTy} {g : GType} (ht : gdalType t = some g) (box : Box) (a : FieldArray) :
    writeAttribute fmt d ⟨name, .update, true⟩ (.field t [(box, a)]) (Spec.attributePath (stem name)) =
      (d.set name (some (.image (writeImage fmt i g box a).1)),
        match (writeImage fmt i g box a).2 with
        | .ok () => .ok ⟨name, .update, true⟩
        | .error m => .error m
        | .assertion => .assertion
        | .undefined => .undefined) := by
  unfold writeAttribute writeField
  dsimp only
  rw [ht]
  dsimp only
  rw [if_neg (by simp), if_pos rfl, hi]
  dsimp only
  rw [writablePath_eq (by exact hs), if_neg (by simp), if_neg (by simp [hb])]
  rcases (writeImage fmt i g box a).2 with ⟨⟨⟩⟩ | _ | _ | _ <;> rfl

/-- C87: writing a field without masked values to an existing raster in `UPDATE` mode replaces the values of the cells
in its first rows and columns, whatever the boxes are, and keeps the others. The transformation is always
replaced. The mask is kept: cells that were masked remain masked, although they have new values. -/
theorem C87_update {name : Str} (hs : stem name ≠ []) {i : Image} (hi : d name = some (.image i)) (hb : i.bands = 1)
    (hl : i.values.length = i.rows * i.cols) {t : NumTy} {g : GType} (ht : gdalType t = some g) {box : Box}
    {a : FieldArray} {cell : Rat} (hg : Spec.Gridded box a cell) (hf : fmt.transforms = true)
    (hm : a.array.hasMaskedValues = false) (hr : a.rows ≤ i.rows) (hc : a.cols ≤ i.cols) :
    ∃ j : Image,
      writeAttribute fmt d ⟨name, .update, true⟩ (.field t [(box, a)]) (Spec.attributePath (stem name)) =
        (d.set name (some (.image j)), .ok ⟨name, .update, true⟩) ∧
      j.rows = i.rows ∧ j.cols = i.cols ∧ j.type = i.type ∧ j.mask = i.mask ∧ j.noData = i.noData ∧
      j.transform = some ⟨box.west, cell, 0, box.north, 0, cell⟩ ∧ j.values.length = i.values.length ∧
      ∀ r c, r < i.rows → c < i.cols →
        Spec.at' i.cols j.values r c =
          if r < a.rows ∧ c < a.cols then (Spec.at' a.cols a.array.values r c).map (fmt.convert g i.type)
          else Spec.at' i.cols i.values r c := by
  refine ⟨{ i with
      transform := some ⟨box.west, cell, 0, box.north, 0, cell⟩
      values := window i.cols a.rows a.cols (a.array.values.map (fmt.convert g i.type)) i.values }, ?_, ?_⟩
  · rw [write_update hs hi hb ht, writeImage_ok hg hf hr hc hm]
  · refine ⟨rfl, rfl, rfl, rfl, rfl, rfl, window_length _ _ _ _ _, fun r c h1 h2 => ?_⟩
    dsimp only
    rw [window_at hl (by rw [List.length_map, hg.values]) h1 h2]
    unfold Spec.at'
    rw [List.getElem?_map]

/-- C87: if the field has masked values and the raster has a mask that can be replaced, the mask of the first rows and
columns becomes that of the field. -/
theorem C87_update_masked {name : Str} (hs : stem name ≠ []) {i : Image} (hi : d name = some (.image i))
    (hb : i.bands = 1) {alpha : Bool} {old : List Int} (ho : i.mask = .bytes alpha old)
    (hl : old.length = i.rows * i.cols) {t : NumTy} {g : GType} (ht : gdalType t = some g) {box : Box}
    {a : FieldArray} {cell : Rat} (hg : Spec.Gridded box a cell) (hf : fmt.transforms = true)
    (hfm : fmt.remasks = true) (hm : a.array.hasMaskedValues = true) (hr : a.rows ≤ i.rows) (hc : a.cols ≤ i.cols) :
    ∃ (j : Image) (new : List Int),
      writeAttribute fmt d ⟨name, .update, true⟩ (.field t [(box, a)]) (Spec.attributePath (stem name)) =
        (d.set name (some (.image j)), .ok ⟨name, .update, true⟩) ∧
      j.mask = .bytes false new ∧ new.length = old.length ∧
      ∀ r c, r < i.rows → c < i.cols →
        if r < a.rows ∧ c < a.cols then
          (Spec.at' i.cols new r c = some 0 ↔ Spec.at' a.cols a.array.mask r c = some true)
        else Spec.at' i.cols new r c = Spec.at' i.cols old r c := by
  obtain ⟨bytes, h1, h2, -, h3⟩ := C50_write_mask .u8 a.array (List.replicate (a.rows * a.cols) 0)
    (by rw [List.length_replicate, hg.values])
  have hw : writeImage fmt i g box a =
      ({ i with
          transform := some ⟨box.west, cell, 0, box.north, 0, cell⟩
          values := window i.cols a.rows a.cols (a.array.values.map (fmt.convert g i.type)) i.values
          mask := .bytes false (window i.cols a.rows a.cols bytes old) }, .ok ()) := by
    unfold writeImage
    dsimp only
    rw [(cells hg).1, (cells hg).2, if_neg (not_not.2 hg.positive), if_neg (not_not.2 rfl), hf, if_neg (by simp),
      if_neg (by omega), hm, if_neg (by simp), h1, ho, hfm]
    rfl
  refine ⟨(writeImage fmt i g box a).1, window i.cols a.rows a.cols bytes old, ?_, by rw [hw], window_length _ _ _ _ _, fun r c hr hc => ?_⟩
  · rw [write_update hs hi hb ht, hw]
  · rw [window_at hl (by rw [h2, hg.mask]) hr hc]
    split
    · exact (h3 _).1.symm
    · rfl

/-- C87: a field that is larger than the raster is refused, but the transformation has been replaced by then: from then
on the old values are at the place of the new field. -/
theorem C87_update_too_large {name : Str} (hs : stem name ≠ []) {i : Image} (hi : d name = some (.image i))
    (hb : i.bands = 1) {t : NumTy} {g : GType} (ht : gdalType t = some g) {box : Box}
    {a : FieldArray} {cell : Rat} (hg : Spec.Gridded box a cell) (hf : fmt.transforms = true)
    (hr : i.rows < a.rows ∨ i.cols < a.cols) :
    writeAttribute fmt d ⟨name, .update, true⟩ (.field t [(box, a)]) (Spec.attributePath (stem name)) =
      (d.set name (some (.image { i with transform := some ⟨box.west, cell, 0, box.north, 0, cell⟩ })),
        .error .cannotBeWritten) := by
  have : writeImage fmt i g box a =
      ({ i with transform := some ⟨box.west, cell, 0, box.north, 0, cell⟩ }, .error .cannotBeWritten) := by
    unfold writeImage
    dsimp only
    rw [(cells hg).1, (cells hg).2, if_neg (not_not.2 hg.positive), if_neg (not_not.2 rfl), hf, if_neg (by simp),
      if_pos hr]
  rw [write_update hs hi hb ht, this]

/-! ### Coordinates -/

/-- C87: the transformation written is upside down by GDAL's convention: by it, all rows of cells but the upper border
of the first are north of the field's box. -/
theorem C87_upside_down {box : Box} {a : FieldArray} {cell : Rat} (hg : Spec.Gridded box a cell) {g : GType} {m : Mask}
    {t : Transform} (ht : (written g box a cell m).transform = some t) {column row : Rat} (h : 0 < row) :
    ¬ Spec.Box.contains box (Spec.position t column row) := by
  cases ht
  unfold Spec.Box.contains Spec.position
  have := mul_pos h hg.positive
  intro hc
  have := hc.2.2.2
  dsimp only at this
  linarith

/-- C87: for a raster with its north up and without rotation the box read is the part of the plane that the raster
covers by GDAL's convention; this covers the borders and all positions in between. -/
theorem C87_north_up {i : Image} {t : NumTy} {tr : Transform} (hi : i.transform = some tr) (h2 : tr.t2 = 0)
    (h4 : tr.t4 = 0) (h5 : tr.t5 = - tr.t1) (h1 : 0 < tr.t1) {box : Box} {a : FieldArray} {rest}
    (hr : readField i t = .ok (.field t ((box, a) :: rest))) :
    Spec.position tr 0 0 = (box.west, box.north) ∧ Spec.position tr i.cols i.rows = (box.east, box.south) ∧
    ∀ column row : Rat, Spec.Box.contains box (Spec.position tr column row) ↔
      0 ≤ column ∧ column ≤ i.cols ∧ 0 ≤ row ∧ row ≤ i.rows := by
  have hbox : box = ⟨tr.t0, tr.t3 - i.rows * tr.t1, tr.t0 + i.cols * tr.t1, tr.t3⟩ := by
    unfold readField at hr
    rw [hi] at hr
    dsimp only [Option.getD_some] at hr
    split at hr
    · cases hr
    · split at hr
      · cases hr
        rfl
      · cases hr
      · split at hr
        · cases hr
        · cases hr
          rfl
  subst hbox
  refine ⟨?_, ?_, ?_⟩
  · simp [Spec.position]
  · simp [Spec.position, h2, h4, h5]
    ring
  · intro c r
    simp only [Spec.position, Spec.Box.contains, h2, h4, h5]
    constructor
    · rintro ⟨k1, k2, k3, k4⟩
      refine ⟨?_, ?_, ?_, ?_⟩
      · by_contra h
        have := mul_neg_of_neg_of_pos (not_le.1 h) h1
        linarith
      · have : c * tr.t1 ≤ i.cols * tr.t1 := by linarith
        exact le_of_mul_le_mul_right this h1
      · by_contra h
        have := mul_neg_of_neg_of_pos (not_le.1 h) h1
        linarith
      · have : r * tr.t1 ≤ i.rows * tr.t1 := by linarith
        exact le_of_mul_le_mul_right this h1
    · rintro ⟨k1, k2, k3, k4⟩
      have e1 := mul_le_mul_of_nonneg_right k2 h1.le
      have e2 := mul_le_mul_of_nonneg_right k4 h1.le
      have e3 := mul_nonneg k1 h1.le
      have e4 := mul_nonneg k3 h1.le
      refine ⟨by linarith, by linarith, by linarith, by linarith⟩

/-- C87: a raster with its south up is read as if its north was up: its inner positions are outside the box read. -/
theorem C87_south_up {i : Image} {t : NumTy} {tr : Transform} (hi : i.transform = some tr)
    (h4 : tr.t4 = 0) (h5 : tr.t5 = tr.t1) (h1 : 0 < tr.t1) {box : Box} {a : FieldArray} {rest}
    (hr : readField i t = .ok (.field t ((box, a) :: rest))) {column row : Rat} (h : 0 < row) :
    ¬ Spec.Box.contains box (Spec.position tr column row) := by
  have hbox : box.north = tr.t3 := by
    unfold readField at hr
    rw [hi] at hr
    dsimp only [Option.getD_some] at hr
    split at hr
    · cases hr
    · split at hr
      · cases hr
        rfl
      · cases hr
      · split at hr
        · cases hr
        · cases hr
          rfl
  unfold Spec.Box.contains Spec.position
  rw [hbox, h4, h5]
  intro hc
  have := hc.2.2.2
  have := mul_pos h h1
  dsimp only at *
  linarith

/-! ### The Python extension -/

theorem trunc_int (z : Int) : truncRat (z : Rat) = z := by
  unfold truncRat
  split
  · exact Rat.floor_intCast z
  · exact Rat.ceil_intCast z

/-- The value reserved for no-data can be converted to the type. -/
theorem castTo_noData {round32 : Flt → Flt} {t : NumTy} {nd : Rat} (h : noDataValue t = some nd)
    (h32 : round32 (.fin (1 / 2 ^ 126)) = .fin (1 / 2 ^ 126)) : castTo round32 t (.fin nd) = some (.fin nd) := by
  cases t with
  | bool => cases h
  | f32 =>
    cases h
    exact congrArg some h32
  | f64 => rfl
  | int t =>
    have key : ∀ z : Int, t.min ≤ z → z ≤ t.max → castTo round32 (.int t) (.fin z) = some (.fin z) := by
      intro z h1 h2
      unfold castTo toInteger
      dsimp only
      rw [trunc_int, if_pos ⟨h1, h2⟩, Option.map_some]
    have hz : nd = ((if t.signed then t.min else t.max : Int) : Rat) := by
      cases h
      split <;> rfl
    rw [hz]
    refine key _ ?_ ?_ <;> cases t <;> decide

theorem eq_iff {a : Flt} {x : Rat} : a.eq (.fin x) = true ↔ a = .fin x := by
  cases a <;> simp [Flt.eq]

/-- C87: a raster written by the Python extension, by a driver that stores transformations, is read back by it. -/
theorem C87_py_write_read {round32 : Flt → Flt} {r : PyRaster} {name : Str} {g : GType}
    (ht : gdalType r.type = some g) (hc : fmt.creates g = true) (hf : fmt.transforms = true)
    (hr : 0 < r.rows) (hk : 0 < r.cols) (hl : r.values.length = r.rows * r.cols)
    (h32 : round32 (.fin (1 / 2 ^ 126)) = .fin (1 / 2 ^ 126))
    (ha : fmt.noDataValues = false → castTo round32 r.type fmt.absent ≠ none) :
    (pyWrite fmt d r name).2 = .ok () ∧ pyRead fmt round32 (pyWrite fmt d r name).1 name = .ok r := by
  have hcr : createDataset fmt g r.rows r.cols =
      some ⟨r.rows, r.cols, 1, g, List.replicate (r.rows * r.cols) (.fin 0), none, none, .allValid⟩ := by
    unfold createDataset
    rw [hc, if_pos]
    simp
    omega
  have hn : ∃ nd, noDataValue r.type = some nd := by
    cases hrt : r.type with
    | bool => rw [hrt] at ht; cases ht
    | f32 => exact ⟨_, rfl⟩
    | f64 => exact ⟨_, rfl⟩
    | int => exact ⟨_, rfl⟩
  obtain ⟨nd, hnd⟩ := hn
  have hv := gdalType_valueType ht
  have hw : window r.cols r.rows r.cols r.values (List.replicate (r.rows * r.cols) (.fin 0)) = r.values :=
    window_full (by simp) hl
  have hmark : markValues r.type (.fin nd) r.values = r.values := by
    unfold markValues
    conv => rhs; rw [← List.map_id r.values]
    refine List.map_congr_left fun v _ => ?_
    rw [hnd]
    split
    · rename_i h
      exact (eq_iff.1 h).symm
    · rfl
  unfold pyWrite
  rw [ht, hnd]
  dsimp only
  rw [hcr, hf]
  dsimp only
  rw [if_pos rfl]
  refine ⟨rfl, ?_⟩
  unfold pyRead
  rw [set_same]
  cases hfn : fmt.noDataValues with
  | true =>
    simp only [if_true, hv, Option.getD_some, castTo_noData hnd h32, hw, hmark, Option.isSome_some]
    rfl
  | false =>
    obtain ⟨x, hx⟩ := Option.ne_none_iff_exists'.1 (ha hfn)
    simp only [Bool.false_eq_true, if_false, hv, Option.getD_none, hx, hw, Option.isSome_none, Option.getD_some]
    rfl

/-- C87: origin and cell sizes are those of the transformation, without the terms for rotation. -/
theorem C87_py_read_origin {round32 : Flt → Flt} {name : Str} {i : Image} {q : PyRaster}
    (hd : d name = some (.image i)) (h : pyRead fmt round32 d name = .ok q) :
    (∀ t, i.transform = some t → q.origin = Spec.position t 0 0 ∧ q.cellSizes = (t.t1, t.t5)) ∧
    (i.transform = none → q.origin = (0, 0) ∧ q.cellSizes = (1, 1)) := by
  unfold pyRead at h
  rw [hd] at h
  dsimp only at h
  split at h
  · cases h
  split at h
  · cases h
  split at h
  · cases h
  cases h
  constructor
  · intro t ht
    rw [ht]
    exact ⟨by simp [Spec.position], rfl⟩
  · intro ht
    rw [ht]
    exact ⟨rfl, rfl⟩

/-- C87: without support for transformations by the driver the raster is written without complaint, and origin and cell
sizes are lost. -/
theorem C87_py_transformation_lost {round32 : Flt → Flt} {r q : PyRaster} {name : Str} (hf : fmt.transforms = false)
    (h1 : (pyWrite fmt d r name).2 = .ok ()) (h2 : pyRead fmt round32 (pyWrite fmt d r name).1 name = .ok q) :
    q.origin = (0, 0) ∧ q.cellSizes = (1, 1) := by
  have hi : ∃ i : Image, (pyWrite fmt d r name).1 name = some (.image i) ∧ i.transform = none := by
    unfold pyWrite at h1 ⊢
    split at h1
    swap
    · cases h1
    dsimp only at h1 ⊢
    split at h1
    · cases h1
    rename_i i hi
    unfold createDataset at hi
    split at hi
    swap
    · cases hi
    cases hi
    refine ⟨_, set_same _ _ _, ?_⟩
    rw [hf]
    cases fmt.noDataValues <;> rfl
  obtain ⟨i, hd, ht⟩ := hi
  exact (C87_py_read_origin hd h2).2 ht

/-- C87: reading a raster by the Python extension keeps the shape and the first band's values, but gives the cells that
equal the file's no-data value the reserved value. -/
theorem C87_py_read_values {round32 : Flt → Flt} {name : Str} {i : Image} {q : PyRaster}
    (hd : d name = some (.image i)) (h : pyRead fmt round32 d name = .ok q) :
    valueType i.type = some q.type ∧ q.rows = i.rows ∧ q.cols = i.cols ∧
    (i.noData = none → q.values = i.values) ∧
    ∀ nd, i.noData = some nd → ∃ x, castTo round32 q.type nd = some x ∧ q.values.length = i.values.length ∧
      ∀ (k : Nat) v, i.values[k]? = some v →
        (v.eq x = true → q.values[k]? = (noDataValue q.type).map .fin) ∧
        (v.eq x = false → q.values[k]? = some v) := by
  unfold pyRead at h
  rw [hd] at h
  dsimp only at h
  split at h
  · cases h
  split at h
  · cases h
  rename_i t ht
  split at h
  · cases h
  rename_i x hx
  cases h
  refine ⟨ht, rfl, rfl, fun h => ?_, fun nd h => ?_⟩
  · rw [h]
    rfl
  · rw [h] at hx
    refine ⟨x, hx, ?_, fun k v hk => ?_⟩
    · rw [h]
      exact List.length_map _
    · have hnd : ∃ z, noDataValue t = some z := by
        cases t with
        | bool => unfold valueType at ht; split at ht <;> cases ht
        | f32 => exact ⟨_, rfl⟩
        | f64 => exact ⟨_, rfl⟩
        | int => exact ⟨_, rfl⟩
      obtain ⟨z, hz⟩ := hnd
      rw [h]
      dsimp only [Option.isSome_some]
      rw [if_pos rfl]
      unfold markValues
      rw [List.getElem?_map, hk, hz]
      constructor
      · intro he
        rw [Option.map_some, if_pos he]
        rfl
      · intro he
        rw [Option.map_some, he]
        rfl

/-- C87: if the file's no-data value is not a number, no cell is marked. -/
theorem C87_py_nan {round32 : Flt → Flt} {name : Str} {i : Image} (hd : d name = some (.image i)) (hb : 1 ≤ i.bands)
    (ht : i.type = .float64) (hn : i.noData = some .nan) :
    ∃ q, pyRead fmt round32 d name = .ok q ∧ q.values = i.values := by
  unfold pyRead
  rw [hd]
  dsimp only
  rw [if_neg (by omega), ht]
  dsimp only [valueType]
  rw [hn]
  dsimp only [Option.getD_some, castTo]
  refine ⟨_, rfl, ?_⟩
  dsimp only [Option.isSome_some]
  rw [if_pos rfl]
  unfold markValues
  conv => rhs; rw [← List.map_id i.values]
  refine List.map_congr_left fun v _ => ?_
  cases v <;> rfl

/-- C87: the no-data value is converted even if there is none: reading integers is undefined if what the driver returns
in that case is out of range, as it is for GDAL's default of -1e10. -/
theorem C87_py_absent {round32 : Flt → Flt} {name : Str} {i : Image} {t : IntTy} (hd : d name = some (.image i))
    (hb : 1 ≤ i.bands) (ht : valueType i.type = some (.int t)) (hn : i.noData = none)
    (ha : fmt.absent = .fin (-10000000000)) : pyRead fmt round32 d name = .undefined := by
  have hc : castTo round32 (.int t) (.fin (-10000000000)) = none := by
    have : ((-10000000000 : Int) : Rat) = -10000000000 := by norm_num
    unfold castTo toInteger
    dsimp only
    rw [← this, trunc_int]
    unfold valueType at ht
    split at ht <;> cases ht <;> decide +kernel
  unfold pyRead
  rw [hd]
  dsimp only
  rw [if_neg (by omega), ht]
  dsimp only
  rw [hn, Option.getD_none, ha, hc]

/-- C87: masked cells of a raster that was written by the language are ordinary values for the Python extension. -/
theorem C87_mask_lost {round32 : Flt → Flt} {name : Str} (hs : stem name ≠ []) {t : NumTy} {g : GType} {box : Box}
    {a : FieldArray} {cell : Rat} (hw : Writable fmt t g box a cell) {q : PyRaster}
    (hq : pyRead fmt round32 (writeAttribute fmt d ⟨name, .overwrite, false⟩ (.field t [(box, a)])
      (Spec.attributePath (stem name))).1 name = .ok q) :
    q.type = t ∧ q.values = a.array.values := by
  obtain ⟨m, h1, -⟩ := write_new (d := d) hs hw
  rw [h1] at hq
  have hd := set_same d name (some (.image (written g box a cell m)))
  have := C87_py_read_values hd hq
  refine ⟨?_, this.2.2.2.1 rfl⟩
  have h2 := this.1
  rw [show (written g box a cell m).type = g from rfl, gdalType_valueType hw.type] at h2
  exact (Option.some.inj h2).symm

/-- C87: the language reads a raster that was written by the Python extension with the same values, and exactly the
no-data cells masked. -/
theorem C87_py_to_language {r : PyRaster} {name : Str} (hs : stem name ≠ []) {g : GType}
    (ht : gdalType r.type = some g) {nd : Rat} (hnd : noDataValue r.type = some nd)
    (hc : fmt.creates g = true) (hf : fmt.transforms = true) (hfn : fmt.noDataValues = true)
    (hr : 0 < r.rows) (hk : 0 < r.cols) (hl : r.values.length = r.rows * r.cols)
    (hsq : r.cellSizes.1 = |r.cellSizes.2|) :
    ∃ box a, readAttribute (pyWrite fmt d r name).1 ⟨name, .read, true⟩ (Spec.attributePath (stem name)) =
        .ok (.field r.type [(box, a)]) ∧
      a.rows = r.rows ∧ a.cols = r.cols ∧ a.array.values = r.values ∧ a.array.mask.length = r.values.length ∧
      (box.west, box.north) = r.origin ∧
      ∀ k : Nat, a.array.mask[k]? = some true ↔ r.values[k]? = some (.fin nd) := by
  have hcr : createDataset fmt g r.rows r.cols =
      some ⟨r.rows, r.cols, 1, g, List.replicate (r.rows * r.cols) (.fin 0), none, none, .allValid⟩ := by
    unfold createDataset
    rw [hc, if_pos]
    simp
    omega
  have hv := gdalType_valueType ht
  have hw : window r.cols r.rows r.cols r.values (List.replicate (r.rows * r.cols) (.fin 0)) = r.values :=
    window_full (by simp) hl
  have hcon : containsAttribute ⟨name, .read, true⟩ (Spec.attributePath (stem name)) = true := by
    rw [attributePath_contains (by exact hs)]
    simp
  have hpw : (pyWrite fmt d r name).1 name = some (.image ⟨r.rows, r.cols, 1, g, r.values, some (.fin nd),
      some ⟨r.origin.1, r.cellSizes.1, 0, r.origin.2, 0, r.cellSizes.2⟩, .allValid⟩) := by
    unfold pyWrite
    rw [ht, hnd]
    dsimp only
    rw [hcr, hf, hfn]
    dsimp only
    rw [set_same, if_pos rfl, if_pos rfl]
    dsimp only
    rw [hw]
  have hb : band (pyWrite fmt d r name).1 ⟨name, .read, true⟩ (Spec.attributePath (stem name)) =
      .ok ⟨r.rows, r.cols, 1, g, r.values, some (.fin nd),
        some ⟨r.origin.1, r.cellSizes.1, 0, r.origin.2, 0, r.cellSizes.2⟩, .allValid⟩ := by
    unfold band
    rw [hcon]
    simp only [hpw]
    rfl
  obtain ⟨b, k1, k2, k3, k4⟩ := C50_set_mask .u8 (MaskedArray.ofValues r.values)
    (r.values.map fun v : Flt => if v = Flt.fin nd then (0 : Int) else 255) 0 (by simp [MaskedArray.ofValues])
    (by simp [MaskedArray.ofValues])
    (by
      intro m hm
      obtain ⟨v, -, rfl⟩ := List.mem_map.1 hm
      split <;> decide)
    (by decide)
  refine ⟨⟨r.origin.1, r.origin.2 - r.rows * r.cellSizes.1, r.origin.1 + r.cols * r.cellSizes.1, r.origin.2⟩,
    ⟨r.rows, r.cols, b⟩, ?_, rfl, rfl, k2, ?_, rfl, fun k => ?_⟩
  · unfold readAttribute
    rw [hb]
    dsimp only
    rw [hv]
    dsimp only
    unfold readField
    dsimp only [Option.getD_some]
    rw [if_neg (not_not.2 hsq)]
    simp only [Image.effectiveMask, k1]
  · rw [k3]
    simp [MaskedArray.ofValues]
  · rw [k4, List.getElem?_map]
    have hfalse : (MaskedArray.ofValues r.values).mask[k]? ≠ some true := by
      intro h
      have := List.eq_of_mem_replicate (List.mem_of_getElem? h)
      cases this
    constructor
    · rintro (h | h)
      · exact absurd h hfalse
      · obtain ⟨v, hv, he⟩ := Option.map_eq_some_iff.1 h
        split at he
        · rename_i hvn
          rw [hv, hvn]
        · cases he
    · intro h
      right
      rw [h]
      simp

/-! ### Cases -/

/-- A raster of three rows and columns with a mask. -/
def sampleImage : Image :=
  ⟨3, 3, 1, .float64, List.replicate 9 (.fin 7), none, some ⟨0, 1, 0, 0, 0, -1⟩,
    .bytes false (0 :: List.replicate 8 255)⟩

/-- A disk with this raster. -/
def sampleDisk : Disk := fun n => if n = "a.map".toList then some (.image sampleImage) else none

theorem sample_stem : stem "a.map".toList ≠ [] ∧ stem "b".toList ≠ [] := by
  constructor
  · have := (C87_name (dir := []) (base := "a".toList) (ext := "map".toList) (.inl rfl) (by decide) (by decide)
      (by decide) (by decide) (by decide)).1
    rw [show "a.map".toList = [] ++ "a".toList ++ '.' :: "map".toList from rfl, this]
    decide
  · have := (C87_name (dir := []) (base := "b".toList) (ext := []) (.inl rfl) (by decide) (by decide)
      (by decide) (by decide) (by decide)).2 (by decide)
    rw [show "b".toList = [] ++ "b".toList from rfl, this]
    decide

/-- The hypotheses of `C87_update`: the upper left cell is replaced, and remains masked. -/
example : ∃ j : Image,
    writeAttribute sampleFormat sampleDisk ⟨"a.map".toList, .update, true⟩
        (.field .f64 [(⟨10, 20, 20, 30⟩, ⟨1, 1, ⟨[.fin 5], [false]⟩⟩)]) (Spec.attributePath (stem "a.map".toList)) =
      (sampleDisk.set "a.map".toList (some (.image j)), .ok ⟨"a.map".toList, .update, true⟩) ∧
    j.mask = .bytes false (0 :: List.replicate 8 255) ∧ Spec.at' 3 j.values 0 0 = some (.fin 5) ∧
    Spec.at' 3 j.values 0 1 = some (.fin 7) := by
  obtain ⟨j, h1, h2, h3, h4, h5, h6, h7, h8, h9⟩ := C87_update (fmt := sampleFormat) (d := sampleDisk)
    (name := "a.map".toList) sample_stem.1 (i := sampleImage) rfl rfl rfl (t := .f64) (g := .float64) rfl
    (box := ⟨10, 20, 20, 30⟩) (a := ⟨1, 1, ⟨[.fin 5], [false]⟩⟩) (cell := 10)
    ⟨by decide, by decide, by norm_num, by norm_num, by norm_num, rfl, rfl⟩ rfl rfl (by decide) (by decide)
  exact ⟨j, h1, h5, h9 0 0 (by decide) (by decide), h9 0 1 (by decide) (by decide)⟩

/-- The hypotheses of `C87_update_too_large`. -/
example : (writeAttribute sampleFormat sampleDisk ⟨"a.map".toList, .update, true⟩
    (.field .f64 [(⟨10, 20, 20, 60⟩, ⟨4, 1, ⟨List.replicate 4 .nan, List.replicate 4 false⟩⟩)])
      (Spec.attributePath (stem "a.map".toList))).2 = .error .cannotBeWritten := by
  rw [C87_update_too_large (fmt := sampleFormat) (d := sampleDisk)
    (name := "a.map".toList) sample_stem.1 (i := sampleImage) rfl rfl (t := .f64) (g := .float64) rfl
    (cell := 10) ⟨by decide, by decide, by norm_num, by norm_num, by norm_num, rfl, rfl⟩ rfl (.inl (by decide))]

/-- The hypotheses of `C87_north_up` and of `C87_py_read_values`. -/
example : (∃ box a, readField sampleImage .f64 = .ok (.field .f64 [(box, a)])) ∧
    ∃ q, pyRead sampleFormat id sampleDisk "a.map".toList = .ok q := by
  refine ⟨?_, ⟨_, rfl⟩⟩
  unfold readField
  dsimp only [sampleImage, Option.getD_some]
  rw [if_neg (by norm_num)]
  exact ⟨_, _, rfl⟩

/-- The hypotheses of `C87_py_write_read` and `C87_py_to_language`. -/
example : (pyRead sampleFormat id (pyWrite sampleFormat sampleDisk
      ⟨.int .u8, 1, 2, (0, 0), (1, -1), [.fin 3, .fin 255]⟩ "b".toList).1 "b".toList =
        .ok ⟨.int .u8, 1, 2, (0, 0), (1, -1), [.fin 3, .fin 255]⟩) ∧
    ∃ box a, readAttribute (pyWrite sampleFormat sampleDisk
      ⟨.int .u8, 1, 2, (0, 0), (1, -1), [.fin 3, .fin 255]⟩ "b".toList).1 ⟨"b".toList, .read, true⟩
        (Spec.attributePath (stem "b".toList)) = .ok (.field (.int .u8) [(box, a)]) ∧
      a.array.mask[0]? ≠ some true ∧ a.array.mask[1]? = some true := by
  constructor
  · exact (C87_py_write_read (g := .byte) rfl rfl rfl (by decide) (by decide) rfl rfl (fun h => by cases h)).2
  · obtain ⟨box, a, h1, -, -, -, -, -, h2⟩ := C87_py_to_language (fmt := sampleFormat) (d := sampleDisk)
      (r := ⟨.int .u8, 1, 2, (0, 0), (1, -1), [.fin 3, .fin 255]⟩) (name := "b".toList) sample_stem.2 (g := .byte) rfl
      (nd := 255) rfl rfl rfl rfl (by decide) (by decide) rfl (by norm_num)
    refine ⟨box, a, h1, fun h => ?_, (h2 1).2 rfl⟩
    have := (h2 0).1 h
    simp at this

end Fern.Gdal
