import Verif.Spec.FernDataset
import Mathlib.Data.List.Basic

namespace Fern
open Spec Hdf5

variable {f : Hdf5}

theorem wf_prefix (h : WellFormedFile f) (p q : List Str) (hq : f (p ++ q) ≠ none) (hne : q ≠ []) :
    f p = some .group := by
  induction q using List.reverseRecOn with
  | nil => exact absurd rfl hne
  | append_singleton q n ih =>
    have h1 : f (p ++ q) = some .group := h.above (p ++ q) n (by rwa [List.append_assoc])
    cases q with
    | nil => simpa using h1
    | cons a q => exact ih (by rw [h1]; simp) (by simp)

theorem object_root (f : Hdf5) : f.object [] = some (f []) := by
  simp [Hdf5.object, groupsAbove]

theorem groupsAbove_snoc (h : WellFormedFile f) (p : List Str) (n : Str) :
    f.groupsAbove (p ++ [n]) = decide (f p = some .group) := by
  rw [Bool.eq_iff_iff, decide_eq_true_iff, groupsAbove, List.all_eq_true]
  constructor
  · intro h1
    have := h1 p.length (by simp)
    rw [decide_eq_true_iff, List.take_left] at this
    exact this
  · intro h1 i hi
    rw [List.mem_range, List.length_append, List.length_singleton] at hi
    rw [decide_eq_true_iff, List.take_append_of_le_length (by omega)]
    rcases Nat.lt_or_ge i p.length with h2 | h2
    · refine wf_prefix h (p.take i) (p.drop i) (by rw [List.take_append_drop, h1]; simp) ?_
      intro h3
      have := congrArg List.length h3
      rw [List.length_drop, List.length_nil] at this
      omega
    · rw [List.take_of_length_le h2, h1]

theorem object_snoc (h : WellFormedFile f) (p : List Str) (n : Str) :
    f.object (p ++ [n]) = if f p = some .group then some (f (p ++ [n])) else none := by
  rw [Hdf5.object, groupsAbove_snoc h]
  by_cases h1 : f p = some .group <;> simp [h1]

theorem isGroup_snoc (h : WellFormedFile f) (p : List Str) (n : Str) :
    f.isGroup (p ++ [n]) =
      if f p = some .group then some (decide (f (p ++ [n]) = some .group)) else none := by
  rw [isGroup, object_snoc h]
  split <;> rfl

theorem isDataset_snoc (h : WellFormedFile f) (p : List Str) (n : Str) :
    (f.isDataset (p ++ [n]) = some true ↔ f p = some .group ∧ IsAttribute f (p ++ [n])) ∧
    (f.isDataset (p ++ [n]) = some false ↔ f p = some .group ∧ ¬ IsAttribute f (p ++ [n])) ∧
    (f.isDataset (p ++ [n]) = none ↔ f p ≠ some .group) := by
  rw [isDataset, object_snoc h, IsAttribute]
  by_cases h1 : f p = some .group
  · cases h2 : f (p ++ [n]) with
    | none => simp [h1]
    | some o => cases o <;> simp [h1]
  · simp [h1]

theorem containsFeatureLoop_eq (h : WellFormedFile f) (pre : List Str) (hp : f pre = some .group) (r : Bool)
    (ns : List Str) (n : Str) :
    f.containsFeatureLoop pre r (ns ++ [n]) =
      if f (pre ++ ns) = some .group then some (r && decide (f (pre ++ ns ++ [n]) = some .group)) else none := by
  induction ns generalizing pre r with
  | nil =>
    rw [List.nil_append, containsFeatureLoop, isGroup_snoc h, if_pos hp, Option.bind_some, containsFeatureLoop,
      List.append_nil, if_pos hp]
    by_cases h1 : f (pre ++ [n]) = some .group <;> simp [h1]
  | cons a ns ih =>
    rw [List.cons_append, containsFeatureLoop, isGroup_snoc h, if_pos hp, Option.bind_some]
    by_cases h1 : f (pre ++ [a]) = some .group
    · rw [ih _ h1]
      simp [h1]
    · have h2 : ¬ f (pre ++ a :: ns) = some .group := by
        intro h2
        refine h1 ?_
        cases ns with
        | nil => exact h2
        | cons b ns =>
          refine wf_prefix h (pre ++ [a]) (b :: ns) ?_ (by simp)
          rw [List.append_assoc, List.singleton_append, h2]; simp
      rw [if_neg h2]
      obtain ⟨b, bs, hb⟩ : ∃ b bs, ns ++ [n] = b :: bs := by
        cases ns with
        | nil => exact ⟨n, [], rfl⟩
        | cons b bs => exact ⟨b, bs ++ [n], rfl⟩
      rw [hb, containsFeatureLoop, isGroup_snoc h, if_neg h1]
      rfl

theorem containsFeature_root (f : Hdf5) : f.containsFeature [] = some true := rfl

theorem containsFeature_snoc (h : WellFormedFile f) (p : List Str) (n : Str) :
    f.containsFeature (p ++ [n]) =
      if f p = some .group then some (decide (f (p ++ [n]) = some .group)) else none := by
  rw [containsFeature, containsFeatureLoop_eq h [] h.root]
  simp

theorem containsAttribute_root (h : WellFormedFile f) : f.containsAttribute [] = some false := by
  rw [containsAttribute, List.dropLast_nil, containsFeature_root, Option.bind_some, if_pos rfl, isDataset,
    object_root, h.root]
  rfl

theorem containsFeature_true (h : WellFormedFile f) (p : List Str) :
    f.containsFeature p = some true ↔ f p = some .group := by
  rcases List.eq_nil_or_concat p with rfl | ⟨p, n, rfl⟩
  · simp [containsFeature_root, h.root]
  · rw [List.concat_eq_append, containsFeature_snoc h]
    constructor
    · intro h1
      split at h1
      · simpa using h1
      · simp at h1
    · intro h1
      rw [if_pos (h.above p n (by rw [h1]; simp)), h1]; simp

theorem containsAttribute_snoc (f : Hdf5) (p : List Str) (n : Str) :
    f.containsAttribute (p ++ [n]) =
      (f.containsFeature p).bind fun b => if b then f.isDataset (p ++ [n]) else some false := by
  rw [containsAttribute, List.dropLast_concat]

theorem addFeatureLoop_groups (pre ns : List Str) (hg : ∀ i ≤ ns.length, f (pre ++ ns.take i) = some .group)
    (h : WellFormedFile f) (rest : List Str) :
    f.addFeatureLoop pre (ns ++ rest) = f.addFeatureLoop (pre ++ ns) rest := by
  induction ns generalizing pre with
  | nil => simp
  | cons a ns ih =>
    have h0 := hg 0 (by simp)
    have h1 := hg 1 (by simp)
    simp only [List.take_zero, List.append_nil] at h0
    simp only [List.take_succ_cons, List.take_zero] at h1
    rw [List.cons_append, addFeatureLoop]
    rw [isGroup_snoc h, if_pos h0, Option.bind_some, if_pos (by simpa using h1), ih]
    · rw [List.append_assoc]; rfl
    · intro i hi
      have := hg (i + 1) (by simpa using hi)
      rwa [List.take_succ_cons, ← List.singleton_append, ← List.append_assoc] at this

theorem wf_groups (h : WellFormedFile f) (p : List Str) (hp : f p = some .group) (i : Nat) :
    f (p.take i) = some .group := by
  by_cases hi : p.drop i = []
  · rw [← List.take_append_drop i p, hi, List.append_nil] at hp
    exact hp
  · exact wf_prefix h (p.take i) (p.drop i) (by rw [List.take_append_drop, hp]; simp) hi

/-- Adding a feature succeeds exactly if only the last component does not exist. -/
theorem addFeature_snoc (h : WellFormedFile f) (p : List Str) (n : Str) (f' : Hdf5) :
    f.addFeature (p ++ [n]) = some f' ↔
      f p = some .group ∧ f (p ++ [n]) = none ∧ f' = f.put (p ++ [n]) .group := by
  rw [addFeature, containsFeature_snoc h]
  by_cases h1 : f p = some .group
  · rw [if_pos h1, Option.bind_some, containsAttribute_snoc, (containsFeature_true h p).2 h1, Option.bind_some,
      if_pos rfl]
    have h2 := isDataset_snoc h p n
    cases h3 : f (p ++ [n]) with
    | none =>
      have h4 : f.isDataset (p ++ [n]) = some false := h2.2.1.2 ⟨h1, by simp [IsAttribute, h3]⟩
      rw [h4]
      rw [if_neg (by simp), Option.bind_some, if_neg (by simp), if_neg (by simp),
        addFeatureLoop_groups [] p (fun i _ => by simpa using wf_groups h p h1 i) h, List.nil_append,
        addFeatureLoop]
      simp only
      rw [isGroup_snoc h, if_pos h1, Option.bind_some, if_neg (by simp [h3]), if_pos h3, addFeatureLoop]
      simp [h1, eq_comm]
    | some o =>
      by_cases ho : o = .group
      · subst ho
        simp
      · have h4 : f.isDataset (p ++ [n]) = some true := h2.1.2 ⟨h1, o, h3, ho⟩
        simp [h4, ho]
  · simp [h1]

theorem wf_put_scalar (h : WellFormedFile f) (p : List Str) (name : Str) (n : Number) (hp : f p = some .group)
    (hn : f (p ++ [name]) ≠ some .group) : WellFormedFile (f.put (p ++ [name]) (.scalar n)) := by
  constructor
  · rw [put, if_neg (by simp)]; exact h.root
  · intro q m hq
    have h1 : f q = some .group := by
      by_cases he : q ++ [m] = p ++ [name]
      · obtain ⟨rfl, _⟩ := List.append_inj' he rfl
        exact hp
      · rw [put, if_neg he] at hq
        exact h.above q m hq
    rw [put, if_neg]
    · exact h1
    · rintro rfl
      exact hn h1

theorem wf_put_group (h : WellFormedFile f) (p : List Str) (name : Str) (hp : f p = some .group) :
    WellFormedFile (f.put (p ++ [name]) .group) := by
  constructor
  · rw [put, if_neg (by simp)]; exact h.root
  · intro q m hq
    rw [put]
    split
    · rfl
    · by_cases he : q ++ [m] = p ++ [name]
      · obtain ⟨rfl, _⟩ := List.append_inj' he rfl
        exact hp
      · rw [put, if_neg he] at hq
        exact h.above q m hq

theorem typeClass_iff (a b : Number) : typeClass a = typeClass b ↔ SameClass a b := by
  cases a <;> cases b <;> simp [typeClass, SameClass]

/-- Writing into a group that exists. -/
theorem write_into_group (convert : Number → Number → Number) (h : WellFormedFile f) (p : List Str) (name : Str)
    (n : Number) (hp : f p = some .group) (f' : Hdf5) :
    f.writeScalar convert (p ++ [name]) n = some f' ↔
    (f (p ++ [name]) = none ∨ ∃ old, f (p ++ [name]) = some (.scalar old) ∧ SameClass old n) ∧
      f' = f.put (p ++ [name]) (.scalar (stored convert (f (p ++ [name])) n)) := by
  have h2 := isDataset_snoc h p name
  rw [writeScalar]
  cases h3 : f (p ++ [name]) with
  | none =>
    rw [h2.2.1.2 ⟨hp, by simp [IsAttribute, h3]⟩]
    simp [stored]
    exact eq_comm
  | some o =>
    cases o with
    | group =>
      rw [h2.2.1.2 ⟨hp, by simp [IsAttribute, h3]⟩]
      simp
    | other =>
      rw [h2.1.2 ⟨hp, _, h3, by simp⟩]
      simp
    | scalar old =>
      rw [h2.1.2 ⟨hp, _, h3, by simp⟩, Option.bind_some]
      rw [if_pos rfl]
      simp only [stored]
      by_cases hc : SameClass old n
      · rw [if_pos ((typeClass_iff old n).2 hc)]
        simp [hc, eq_comm]
      · rw [if_neg fun h => hc ((typeClass_iff old n).1 h)]
        simp [hc]

theorem wf_child_none (h : WellFormedFile f) (p : List Str) (n : Str) (hp : f p ≠ some .group) :
    f (p ++ [n]) = none := by
  by_contra hn
  exact hp (h.above p n hn)

/-- Writing a number. -/
theorem writeNumber_snoc (convert : Number → Number → Number) (h : WellFormedFile f) (p : List Str)
    (name : Str) (n : Number) (f' : Hdf5) :
    writeNumber convert f (p ++ [name]) n = some f' ↔
      Writable f p name n ∧
        f' = (f.put p .group).put (p ++ [name]) (.scalar (stored convert (f (p ++ [name])) n)) := by
  rw [writeNumber, List.dropLast_concat]
  by_cases h1 : f p = some .group
  · have e : f.put p .group = f := by
      funext q
      rw [put]
      split
      · next hq => rw [hq, h1]
      · rfl
    rw [(containsFeature_true h p).2 h1, Option.bind_some, if_pos rfl, Option.bind_some,
      write_into_group convert h p name n h1, e]
    constructor
    · rintro ⟨h2, h3⟩; exact ⟨⟨.inl h1, h2⟩, h3⟩
    · rintro ⟨h2, h3⟩; exact ⟨h2.here, h3⟩
  · rcases List.eq_nil_or_concat p with rfl | ⟨q, m, rfl⟩
    · exact absurd h.root h1
    · rw [List.concat_eq_append] at h1 ⊢
      rw [containsFeature_snoc h]
      by_cases h2 : f q = some .group
      · rw [if_pos h2, Option.bind_some, if_neg (by simpa using h1)]
        have h4 := wf_child_none h _ name h1
        cases h3 : f.addFeature (q ++ [m]) with
        | none =>
          simp only [Option.bind_none, reduceCtorEq, false_iff, not_and]
          rintro ⟨h5, _⟩ _
          rcases h5 with h5 | ⟨h5, _, _⟩
          · exact h1 h5
          · have := (addFeature_snoc h q m _).2 ⟨h2, h5, rfl⟩
            rw [h3] at this
            cases this
        | some g =>
          obtain ⟨_, h5, rfl⟩ := (addFeature_snoc h q m g).1 h3
          have h6 := wf_put_group h q m h2
          have h7 : f.put (q ++ [m]) .group (q ++ [m] ++ [name]) = f (q ++ [m] ++ [name]) := by
            rw [put, if_neg (by simp)]
          rw [Option.bind_some, write_into_group convert h6 _ name n (by simp [put]), h7]
          constructor
          · rintro ⟨h8, h9⟩
            exact ⟨⟨.inr ⟨h5, by simp, by rw [List.dropLast_concat]; exact h2⟩, h8⟩, h9⟩
          · rintro ⟨h8, h9⟩
            exact ⟨h8.here, h9⟩
      · rw [if_neg h2]
        simp only [Option.bind_none, reduceCtorEq, false_iff, not_and]
        rintro ⟨h5, _⟩ _
        rcases h5 with h5 | ⟨_, _, h5⟩
        · exact h1 h5
        · rw [List.dropLast_concat] at h5
          exact h2 h5

theorem writeNumber_root (convert : Number → Number → Number) (h : WellFormedFile f) (n : Number) :
    writeNumber convert f [] n = none := by
  rw [writeNumber, List.dropLast_nil, containsFeature_root, Option.bind_some, if_pos rfl, Option.bind_some]
  rw [writeScalar, isDataset, object_root, h.root]
  rfl

end Fern
