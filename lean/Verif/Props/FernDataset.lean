import Verif.Lemmas.FernDataset

/-!
# C79: features and attributes in a dataset in Fern format
-/

namespace Fern

open Spec Hdf5

variable {f : Hdf5} {convert : Number → Number → Number}

/-- Asking for a feature: it is there, or not, or the assertion fails, which happens exactly if the
parent is not a feature either. -/
theorem C79_contains_feature (h : WellFormedFile f) (p : List Str) :
    (f.containsFeature p = some true ↔ f p = some .group) ∧
    (f.containsFeature p = none ↔ p ≠ [] ∧ f p.dropLast ≠ some .group) := by
  refine ⟨containsFeature_true h p, ?_⟩
  rcases List.eq_nil_or_concat p with rfl | ⟨p, n, rfl⟩
  · simp [containsFeature_root]
  · rw [List.concat_eq_append, containsFeature_snoc h, List.dropLast_concat]
    by_cases h1 : f p = some .group <;> simp [h1]

/-- Asking for an attribute: it is there, or not, or the assertion fails, which happens exactly if the
parent of the parent is not a feature. -/
theorem C79_contains_attribute (h : WellFormedFile f) (p : List Str) :
    (f.containsAttribute p = some true ↔ IsAttribute f p) ∧
    (f.containsAttribute p = none ↔ 2 ≤ p.length ∧ f p.dropLast.dropLast ≠ some .group) := by
  rcases List.eq_nil_or_concat p with rfl | ⟨p, n, rfl⟩
  · rw [containsAttribute_root h]
    simp [IsAttribute, h.root]
  · rw [List.concat_eq_append, containsAttribute_snoc, List.dropLast_concat]
    have h2 := isDataset_snoc h p n
    by_cases h1 : f p = some .group
    · rw [(containsFeature_true h p).2 h1, Option.bind_some, if_pos rfl]
      refine ⟨by rw [h2.1, and_iff_right h1], ?_⟩
      rw [h2.2.2]
      constructor
      · intro h3; exact absurd h1 h3
      · rintro ⟨h3, h4⟩
        rcases List.eq_nil_or_concat p with rfl | ⟨q, m, rfl⟩
        · simp at h3
        · rw [List.concat_eq_append] at h1 h4
          rw [List.dropLast_concat] at h4
          exact absurd (h.above q m (by rw [h1]; simp)) h4
    · have h3 : ¬ IsAttribute f (p ++ [n]) := by
        rintro ⟨o, ho, _⟩
        exact h1 (h.above p n (by rw [ho]; simp))
      rcases List.eq_nil_or_concat p with rfl | ⟨q, m, rfl⟩
      · exact absurd h.root h1
      · rw [List.concat_eq_append] at h1 h3 ⊢
        rw [containsFeature_snoc h, List.dropLast_concat]
        rw [List.append_assoc] at h3
        by_cases h4 : f q = some .group <;> simp [h4, h1]
        · exact h3
        · exact h3

/-- When writing succeeds, and what it does: the number is stored, the last feature of the path is created
if it didn't exist. -/
theorem C79_write (h : WellFormedFile f) (features : List Str) (name : Str) (n : Number) (f' : Hdf5) :
    writeNumber convert f (features ++ [name]) n = some f' ↔
      Writable f features name n ∧
      ∀ q, f' q =
        if q = features ++ [name] then some (.scalar (stored convert (f (features ++ [name])) n))
        else if q = features then some .group else f q := by
  rw [writeNumber_snoc convert h]
  refine and_congr_right fun _ => ?_
  rw [funext_iff]
  rfl

/-- A dataset stays a tree. -/
theorem C79_tree (h : WellFormedFile f) (p : List Str) (n : Number) (f' : Hdf5)
    (hw : writeNumber convert f p n = some f') : WellFormedFile f' := by
  rcases List.eq_nil_or_concat p with rfl | ⟨p, name, rfl⟩
  · rw [writeNumber_root convert h] at hw; cases hw
  · rw [List.concat_eq_append] at hw
    obtain ⟨h1, rfl⟩ := (writeNumber_snoc convert h p name n f').1 hw
    have h2 : f (p ++ [name]) ≠ some .group := by
      intro h2
      rcases h1.here with h3 | ⟨_, h3, _⟩ <;> rw [h3] at h2 <;> cases h2
    have h3 : WellFormedFile (f.put p .group) := by
      rcases h1.parents with h4 | ⟨_, h5, h4⟩
      · have e : f.put p .group = f := by
          funext q
          rw [put]
          split
          · next hq => rw [hq, h4]
          · rfl
        rwa [e]
      · rcases List.eq_nil_or_concat p with rfl | ⟨q, m, rfl⟩
        · exact absurd rfl h5
        · rw [List.concat_eq_append] at h4 ⊢
          rw [List.dropLast_concat] at h4
          exact wf_put_group h q m h4
    refine wf_put_scalar h3 p name _ (by simp [put]) ?_
    rw [put, if_neg (by simp)]
    exact h2

/-- An attribute that is written can be read: the number itself if the attribute is new. -/
theorem C79_read_back (h : WellFormedFile f) (p : List Str) (n : Number) (f' : Hdf5)
    (hw : writeNumber convert f p n = some f') : f'.readAttribute p = .ok (stored convert (f p) n) := by
  have h' := C79_tree h p n f' hw
  rcases List.eq_nil_or_concat p with rfl | ⟨p, name, rfl⟩
  · rw [writeNumber_root convert h] at hw; cases hw
  · rw [List.concat_eq_append] at *
    have h1 := ((C79_write h p name n f').1 hw).2 (p ++ [name])
    rw [if_pos rfl] at h1
    have h2 := (C79_contains_attribute h' (p ++ [name])).1.2 ⟨_, h1, by simp⟩
    rw [readAttribute, h2, h1]

/-- Attributes that exist can be read, and what can be read exists. -/
theorem C79_read (h : WellFormedFile f) (p : List Str) (n : Number) :
    f.readAttribute p = .ok n ↔ f p = some (.scalar n) := by
  rw [readAttribute]
  constructor
  · intro h1
    split at h1 <;> try cases h1
    split at h1
    · next h2 => cases h1; exact h2
    · cases h1
  · intro h1
    rw [(C79_contains_attribute h p).1.2 ⟨_, h1, by simp⟩, h1]

/-- Writing an attribute leaves all other attributes as they are. -/
theorem C79_others (h : WellFormedFile f) (p q : List Str) (n m : Number) (f' : Hdf5)
    (hw : writeNumber convert f p n = some f') (hq : q ≠ p) :
    f'.readAttribute q = .ok m ↔ f.readAttribute q = .ok m := by
  rw [C79_read (C79_tree h p n f' hw), C79_read h]
  rcases List.eq_nil_or_concat p with rfl | ⟨p, name, rfl⟩
  · rw [writeNumber_root convert h] at hw; cases hw
  · rw [List.concat_eq_append] at *
    obtain ⟨h1, h2⟩ := (C79_write h p name n f').1 hw
    rw [h2 q, if_neg hq]
    split
    · next h3 =>
      subst h3
      rcases h1.parents with h4 | ⟨h4, _⟩ <;> simp [h4]
    · rfl

/-- The root can't be written: a data name needs a path. -/
theorem C79_root (h : WellFormedFile f) (n : Number) : writeNumber convert f [] n = none :=
  writeNumber_root convert h n

/-- An attribute in a feature of a feature, neither of which exists, can't be written: the assertion that
looks for the feature fails. -/
theorem C79_two_levels (h : WellFormedFile f) (features : List Str) (a b name : Str) (n : Number)
    (ha : f (features ++ [a]) = none) :
    writeNumber convert f (features ++ [a] ++ [b] ++ [name]) n = none := by
  cases hw : writeNumber convert f (features ++ [a] ++ [b] ++ [name]) n with
  | none => rfl
  | some f' =>
    obtain ⟨h1, _⟩ := (C79_write h _ name n f').1 hw
    have h2 : f (features ++ [a] ++ [b]) = none := wf_child_none h _ b (by rw [ha]; simp)
    rcases h1.parents with h3 | ⟨_, _, h3⟩
    · rw [h2] at h3; cases h3
    · rw [List.dropLast_concat, ha] at h3; cases h3

theorem writeAll_tree (h : WellFormedFile f) (ws : List (List Str × Number)) (f' : Hdf5)
    (hw : writeAll convert f ws = some f') : WellFormedFile f' := by
  induction ws generalizing f with
  | nil => rw [writeAll] at hw; cases hw; exact h
  | cons w ws ih =>
    obtain ⟨g, h1, h2⟩ := Option.bind_eq_some_iff.1 hw
    exact ih (C79_tree h w.1 w.2 g h1) h2

theorem writeAll_append (ws ws' : List (List Str × Number)) (f : Hdf5) :
    writeAll convert f (ws ++ ws') = (writeAll convert f ws).bind fun f => writeAll convert f ws' := by
  induction ws generalizing f with
  | nil => rfl
  | cons w ws ih =>
    rw [List.cons_append, writeAll, writeAll]
    cases writeNumber convert f w.1 w.2 with
    | none => rfl
    | some g => exact ih g

/-- After any number of writes to a new dataset, of which those to the same path write numbers of the same
type, each attribute has the number that was written last. -/
theorem C79_history (hc : ∀ a b, SameType a b → convert a b = b) (ws : List (List Str × Number))
    (ht : ∀ w ∈ ws, ∀ w' ∈ ws, w.1 = w'.1 → SameType w.2 w'.2) (f' : Hdf5)
    (hw : writeAll convert .empty ws = some f') (p : List Str) (n : Number) :
    f'.readAttribute p = .ok n ↔ lastWritten ws p = some n := by
  have h0 : WellFormedFile Hdf5.empty := ⟨by simp [Hdf5.empty], by
    intro p n h; simp [Hdf5.empty] at h⟩
  induction ws using List.reverseRecOn generalizing f' n with
  | nil =>
    rw [writeAll] at hw
    cases hw
    rw [C79_read h0]
    simp only [Hdf5.empty, lastWritten]
    split <;> simp
  | append_singleton ws w ih =>
    rw [writeAll_append] at hw
    obtain ⟨g, h1, h2⟩ := Option.bind_eq_some_iff.1 hw
    have hg := writeAll_tree h0 ws g h1
    have h3 : writeNumber convert g w.1 w.2 = some f' := by
      obtain ⟨g', h4, h5⟩ := Option.bind_eq_some_iff.1 h2
      rw [writeAll] at h5; cases h5
      exact h4
    have ih' : ∀ m, g.readAttribute p = .ok m ↔ lastWritten ws p = some m := fun m =>
      ih (fun w hw w' hw' => ht w (by simp [hw]) w' (by simp [hw'])) g h1 m
    by_cases hp : w.1 = p
    · subst hp
      have h4 : lastWritten (ws ++ [w]) w.1 = some w.2 := by
        simp [lastWritten, List.filter_append]
      rw [h4, C79_read_back hg w.1 w.2 f' h3]
      have h5 : stored convert (g w.1) w.2 = w.2 := by
        cases ho : g w.1 with
        | none => rfl
        | some o =>
          cases o with
          | group => rfl
          | other => rfl
          | scalar o =>
          have h6 := (ih' o).1 ((C79_read hg w.1 o).2 ho)
          refine hc o w.2 ?_
          rw [lastWritten, Option.map_eq_some_iff] at h6
          obtain ⟨w', h7, rfl⟩ := h6
          have h8 := List.mem_of_getLast? h7
          rw [List.mem_filter, decide_eq_true_iff] at h8
          exact ht w' (by simp [h8.1]) w (by simp) h8.2
      rw [h5]
      simp
    · have h4 : lastWritten (ws ++ [w]) p = lastWritten ws p := by
        simp [lastWritten, List.filter_append, hp]
      rw [h4, ← ih' n]
      exact C79_others hg w.1 p w.2 n f' h3 (Ne.symm hp)

/-! ### Examples -/

/-- A conversion that keeps the type. -/
def convertExample : Number → Number → Number
  | .int t _, .int t' v => if t = t' then .int t v else .int t (t.wrap v)
  | .float32 _, .float32 v => .float32 v
  | .float64 _, .float64 v => .float64 v
  | o, _ => o

example : (writeAll convertExample .empty
    [([['a'], ['x']], .int .i32 5), ([['a'], ['b'], ['y']], .int .i8 1), ([['a'], ['x']], .int .i32 6)]).map
      (fun f => (f.readAttribute [['a'], ['x']], f.readAttribute [['a'], ['b'], ['y']],
        f.readAttribute [['z']])) = some (.ok (.int .i32 6), .ok (.int .i8 1), .error ()) := by
  decide +kernel

/-- A new dataset has no features: an attribute of a feature can be written, an attribute of a feature of
a feature can't. -/
theorem C79_new_dataset :
    (writeNumber convertExample .empty [['a'], ['x']] (.int .i32 5)).isSome ∧
    writeNumber convertExample .empty [['a'], ['b'], ['x']] (.int .i32 5) = none ∧
    Hdf5.containsFeature .empty [['a'], ['b']] = none := by
  refine ⟨by decide +kernel, ?_, by decide +kernel⟩
  have h : (writeNumber convertExample .empty [['a'], ['b'], ['x']] (.int .i32 5)).isNone := by
    decide +kernel
  exact Option.isNone_iff_eq_none.1 h

/-- Writing a number into an attribute of another type: the attribute keeps its type. -/
theorem C79_other_type :
    (writeAll convertExample .empty [([['x']], .int .i8 5), ([['x']], .int .i32 7)]).map
      (fun f => f.readAttribute [['x']]) = some (.ok (.int .i8 7)) ∧
    (writeAll convertExample .empty [([['x']], .int .i8 5), ([['x']], .float32 0)]).isNone := by
  decide +kernel

end Fern
