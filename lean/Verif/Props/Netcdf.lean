import Verif.Lemmas.Netcdf

/-!
# C106: reading netCDF datasets
-/

namespace Fern.Netcdf

open Fern.Spec Fern.Netcdf.Spec

/-! ## The conventions that a dataset names -/

/-- A dataset without the attribute names no conventions. -/
theorem C106_absent {α : Type} (d : Dataset α) (h : d.attr "Conventions".toList = none) :
    conventions d = some [] :=
  conventions_absent d h

/-- The conventions are those that the text of the attribute names, and no others. -/
theorem C106_named {α : Type} (d : Dataset α) (value : Str) (h : Conventions d value) :
    ∃ l, conventions d = some l ∧ ∀ name, name ∈ l ↔ Names value name :=
  ⟨_, conventions_text d value h, mem_listed value⟩

/-- Names that are separated by commas are found in their order, without the white space around them, and may have
white space inside. -/
theorem C106_commas {α : Type} (d : Dataset α) (items : List Str) (hl : 2 ≤ items.length)
    (hi : ∀ t ∈ items, t ≠ [] ∧ ',' ∉ t) (h : Conventions d (join items [','])) :
    ∃ l, conventions d = some l ∧ List.Forall₂ (Stripped Space) items l := by
  refine ⟨_, conventions_text d _ h, ?_⟩
  have hm : ',' ∈ join items [','] := by
    match items, hl with
    | a :: b :: r, _ => simp [join]
  have hs := C47_join_split items [','] [','] (by intro c hc; rw [List.mem_singleton.1 hc]; decide) (by simp)
    (fun c hc => .inr hc) (fun t ht => ⟨(hi t ht).1, fun c hc => by
      rintro (⟨hn, -⟩ | hn)
      · cases hn
      · rw [List.mem_singleton.1 hn] at hc; exact (hi t ht).2 hc⟩)
  rw [split_comma, Option.some.injEq] at hs
  rw [listed, if_pos hm, hs]
  clear hl hi h hm hs
  induction items with
  | nil => exact .nil
  | cons t ts ih => exact .cons ((strip_iff t _).1 rfl) ih

/-- Names without commas and white space that are separated by white space are found in their order. -/
theorem C106_blanks {α : Type} (d : Dataset α) (names : List Str) (separator : Str) (hs : separator ≠ [])
    (hsp : ∀ c ∈ separator, Space c) (hn : ∀ t ∈ names, t ≠ [] ∧ ',' ∉ t ∧ ∀ c ∈ t, ¬ Space c)
    (h : Conventions d (join names separator)) : conventions d = some names := by
  rw [conventions_text d _ h]
  have hc : ',' ∉ join names separator := by
    have key : ∀ names : List Str, (∀ t ∈ names, ',' ∉ t) → ',' ∉ join names separator := by
      intro names
      induction names with
      | nil => intro _ hm; cases hm
      | cons t ts ih =>
        intro hn hm
        cases ts with
        | nil => exact hn t (by simp) hm
        | cons u us =>
          rw [join, List.mem_append, List.mem_append] at hm
          rcases hm with hm | hm | hm
          · exact hn t (by simp) hm
          · have := hsp _ hm
            revert this; unfold Space; decide
          · exact ih (fun x hx => hn x (by simp [hx])) hm
    exact key names fun t ht => (hn t ht).2.1
  have := C47_join_split names separator [] (by intro c hc; cases hc) hs
    (fun c hc => by rw [splitsAt_nil]; exact hsp c hc)
    (fun t ht => ⟨(hn t ht).1, by rw [splitsAt_nil]; exact (hn t ht).2.2⟩)
  rw [split_space, Option.some.injEq] at this
  rw [listed, if_neg hc, this]

/-- A dataset with this value of the attribute and without variables. -/
def withConventions (value : Str) : Dataset Nat :=
  ⟨fun n => if n = "Conventions".toList then some (.text value) else none, fun _ => none⟩

example : conventions (withConventions " CF 1.0 ,COARDS,".toList) = some ["CF 1.0".toList, "COARDS".toList] ∧
    conventions (withConventions " CF-1.0 \t COARDS\n".toList) = some ["CF-1.0".toList, "COARDS".toList] := by
  decide +kernel

/-- A single name with white space is taken for several names. -/
theorem C106_single_false :
    conventions (withConventions "CF 1.0".toList) = some ["CF".toList, "1.0".toList] := by
  decide +kernel

/-- White space between two commas is taken for an empty name. -/
theorem C106_empty_false :
    conventions (withConventions "CF-1.0, ,COARDS".toList) = some ["CF-1.0".toList, [], "COARDS".toList] := by
  decide +kernel

/-- An attribute that is no text, or that ends with a null character as texts written by C programs often do, makes an
assertion fail. -/
theorem C106_unusable {α : Type} (d : Dataset α) : conventions d = none ↔ Unusable d := by
  refine ⟨fun h => ?_, conventions_unusable d⟩
  have : conformsToCoards d = none := by simp [conformsToCoards, h]
  exact (conforms_none d).1 this

/-- A dataset is taken to follow the conventions of COARDS exactly if it says so. -/
theorem C106_conforms {α : Type} (d : Dataset α) :
    (conformsToCoards d = some true ↔ Coards d) ∧
      (conformsToCoards d = some false ↔ ¬ Coards d ∧ ¬ Unusable d) := by
  refine ⟨conforms_true d, ?_⟩
  rw [← conforms_true, ← conforms_none]
  cases conformsToCoards d with
  | none => simp
  | some b => cases b <;> simp

/-! ## Reading -/

theorem reads {α : Type} (fs : Str → File α) (name pathname rest n : Str)
    (hp : NameParts name pathname rest) (hr : Runs (· = '/') rest [n]) :
    readCoards fs name = match fs pathname with
      | .missing => .error pathname .doesNotExist
      | .unreadable => .error pathname .cannotBeRead
      | .dataset d =>
        match conformsToCoards d with
        | none => .fails
        | some false => .error pathname .doesNotConform
        | some true =>
          match d.var n with
          | none => .error pathname (.noVariable n)
          | some v =>
            if v.dimensions ≠ 0 then .error pathname (.notScalar n)
            else if valueType v.type = some .float64 then .ok v.value
            else .fails := by
  have hd := (C46_data_name name pathname (absolutePath [n])).2 ⟨rest, [n], hp, hr, rfl⟩
  have hn : pathNames (absolutePath [n]) = some [n] := by
    rw [C46_names name pathname rest _ hp hd, pathNames, split, if_neg (by simp), if_neg (by decide),
      inSet_slash, Option.some.injEq]
    exact splitBy_iff.2 (by rw [slash_pred]; exact hr)
  unfold readCoards
  rw [hd]
  simp only [hn]
  cases fs pathname with
  | missing => rfl
  | unreadable => rfl
  | dataset d =>
    dsimp only
    cases conformsToCoards d with
    | none => rfl
    | some b => cases b <;> rfl

/-- Reading the number `pathname:/n` gives a value exactly if the file is a dataset that says that it follows the
conventions of COARDS and has a variable `n` without dimensions of type `double`; the value is that of the
variable. -/
theorem C106_read {α : Type} (fs : Str → File α) (name pathname rest n : Str)
    (hp : NameParts name pathname rest) (hr : Runs (· = '/') rest [n]) (value : α) :
    readCoards fs name = .ok value ↔
      ∃ d, fs pathname = .dataset d ∧ Coards d ∧ d.var n = some ⟨.double, 0, value⟩ := by
  rw [reads fs name pathname rest n hp hr]
  cases hf : fs pathname with
  | missing => simp
  | unreadable => simp
  | dataset d =>
    simp only [File.dataset.injEq, exists_eq_left']
    rw [← conforms_true]
    cases hc : conformsToCoards d with
    | none => simp
    | some b =>
      cases b with
      | false => simp
      | true =>
        cases hv : d.var n with
        | none => simp
        | some v =>
          obtain ⟨t, k, x⟩ := v
          cases t <;> simp [valueType] <;> split <;> simp_all

/-- Whatever else there is, an error says what is missing, in this order: the file, that it is readable, that it
conforms, the variable, that it is a scalar. -/
theorem C106_errors {α : Type} (fs : Str → File α) (name pathname rest n : Str)
    (hp : NameParts name pathname rest) (hr : Runs (· = '/') rest [n]) (p : Str) (problem : Problem) :
    readCoards fs name = .error p problem ↔ p = pathname ∧
      match problem with
      | .doesNotExist => fs pathname = .missing
      | .cannotBeRead => fs pathname = .unreadable
      | .doesNotConform => ∃ d, fs pathname = .dataset d ∧ ¬ Coards d ∧ ¬ Unusable d
      | .noVariable m => m = n ∧ ∃ d, fs pathname = .dataset d ∧ Coards d ∧ d.var n = none
      | .notScalar m => m = n ∧
        ∃ d, fs pathname = .dataset d ∧ Coards d ∧ ∃ v, d.var n = some v ∧ v.dimensions ≠ 0 := by
  rw [reads fs name pathname rest n hp hr]
  cases hf : fs pathname with
  | missing => cases problem <;> simp [eq_comm]
  | unreadable => cases problem <;> simp [eq_comm]
  | dataset d =>
    simp only [File.dataset.injEq, exists_eq_left']
    have h1 := (C106_conforms d).1
    have h2 := (C106_conforms d).2
    rw [← h2, ← h1]
    cases hc : conformsToCoards d with
    | none => cases problem <;> simp
    | some b =>
      cases b with
      | false => cases problem <;> simp [eq_comm]
      | true =>
        cases hv : d.var n with
        | none => cases problem <;> simp [eq_comm]
        | some v =>
          by_cases h0 : v.dimensions = 0
          · by_cases ht : valueType v.type = some .float64 <;> cases problem <;> simp [h0, ht]
          · cases problem <;> simp [h0, eq_comm]

/-- Otherwise an assertion fails: the attribute `Conventions` is no text or ends with a null character, or the
variable is a scalar of another type than `double`. For the latter an `IOError` is documented. -/
theorem C106_fails {α : Type} (fs : Str → File α) (name pathname rest n : Str)
    (hp : NameParts name pathname rest) (hr : Runs (· = '/') rest [n]) :
    readCoards fs name = .fails ↔ ∃ d, fs pathname = .dataset d ∧
      (Unusable d ∨ Coards d ∧ ∃ v, d.var n = some v ∧ v.dimensions = 0 ∧ v.type ≠ .double) := by
  rw [reads fs name pathname rest n hp hr]
  cases hf : fs pathname with
  | missing => simp
  | unreadable => simp
  | dataset d =>
    simp only [File.dataset.injEq, exists_eq_left']
    rw [← conforms_true, ← conforms_none]
    cases hc : conformsToCoards d with
    | none => simp
    | some b =>
      cases b with
      | false => simp
      | true =>
        cases hv : d.var n with
        | none => simp
        | some v =>
          obtain ⟨t, k, x⟩ := v
          cases t <;> simp [valueType] <;> split <;> simp_all

/-- A name without variable, or with a path of several names, makes an assertion fail if the dataset conforms. -/
theorem C106_path_false {α : Type} (fs : Str → File α) (name pathname rest : Str) (names : List Str)
    (hp : NameParts name pathname rest) (hr : Runs (· = '/') rest names) (hn : names.length ≠ 1)
    (d : Dataset α) (hf : fs pathname = .dataset d) (hc : Coards d) : readCoards fs name = .fails := by
  have hd := (C46_data_name name pathname (absolutePath names)).2 ⟨rest, names, hp, hr, rfl⟩
  have he : pathNames (absolutePath names) = some names := by
    rw [C46_names name pathname rest _ hp hd, pathNames, split, if_neg (by simp), if_neg (by decide),
      inSet_slash, Option.some.injEq]
    exact splitBy_iff.2 (by rw [slash_pred]; exact hr)
  unfold readCoards
  rw [hd]
  simp only [hf, (conforms_true d).2 hc, he]
  split
  · rename_i h; cases h; simp at hn
  · rfl

/-- A dataset with a gravity of 98 and an age in whole years. -/
def earth : Dataset Nat :=
  ⟨fun n => if n = "Conventions".toList then some (.text "COARDS".toList) else none,
    fun n => if n = "gravity".toList then some ⟨.double, 0, 98⟩
      else if n = "age".toList then some ⟨.int, 0, 4⟩
      else if n = "height".toList then some ⟨.double, 2, 7⟩ else none⟩

example : readCoards (fun _ => .dataset earth) "earth.nc:/gravity".toList = .ok 98 ∧
    readCoards (fun _ => .dataset earth) "earth.nc:/age".toList = .fails ∧
    readCoards (fun _ => .dataset earth) "earth.nc:height".toList =
      .error "earth.nc".toList (.notScalar "height".toList) ∧
    readCoards (fun _ => .dataset earth) "earth.nc".toList = .fails ∧
    readCoards (fun _ => .dataset earth) "earth.nc:/a".toList =
      .error "earth.nc".toList (.noVariable "a".toList) ∧
    readCoards (fun _ => (.missing : File Nat)) "earth.nc:/a".toList =
      .error "earth.nc".toList .doesNotExist := by decide +kernel

/-- The hypotheses about names hold of a name that is written as usual. -/
theorem C106_usual (pathname n : Str) (h1 : pathname ≠ []) (h2 : ':' ∉ pathname) (h3 : n ≠ []) (h4 : '/' ∉ n)
    (h5 : '\n' ∉ n) (h6 : '\r' ∉ n) :
    NameParts (pathname ++ ":/".toList ++ n) pathname ('/' :: n) ∧ Runs (· = '/') ('/' :: n) [n] := by
  refine ⟨⟨h1, h2, .inr (by simp), by simpa using h5, by simpa using h6⟩, ?_⟩
  have := Runs.run (sep := (· = '/')) ['/'] n [] [] (by simp) h3 (fun c hc e => h4 (e ▸ hc)) (by simp)
    (.done [] (by simp))
  simpa using this

/-- The types of netCDF and those of Fern correspond one to one, but for types that are defined in a file. -/
theorem C106_types (s t : NcType) (v : ValueType) (hs : valueType s = some v) (ht : valueType t = some v) :
    s = t := by
  cases s <;> cases t <;> cases hs <;> first | rfl | cases ht

end Fern.Netcdf
