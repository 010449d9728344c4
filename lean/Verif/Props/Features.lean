import Verif.Lemmas.Features
import Verif.Props.DataName

/-!
# C86: features, their child features and their attributes
-/

namespace Fern.Features

open Fern Fern.Features.Spec

variable {A : Type} {p : Path} {parents : List Str} {name : Str}

theorem splitBy_join_append {ts : List Str} {r : Str} (ht : ∀ t ∈ ts, t ≠ [] ∧ ∀ c ∈ t, isSlash c = false)
    (hr : ∀ c ∈ r, isSlash c = true) : splitBy isSlash (join ts ['/'] ++ r) = ts := by
  have hhead : ∀ c, r.head? = some c → isSlash c = true := fun c hc => hr c (List.mem_of_mem_head? hc)
  have hnil : splitBy isSlash r = [] := by
    have := splitBy_gap (s := []) hr
    rwa [List.append_nil, splitBy_nil] at this
  induction ts with
  | nil => exact hnil
  | cons t ts ih =>
    have htt := ht t (by simp)
    cases ts with
    | nil => rw [join, splitBy_run htt.2 htt.1 hhead, hnil]
    | cons u us =>
      rw [join, List.append_assoc, List.append_assoc, splitBy_run htt.2 htt.1, List.cons_append, List.nil_append,
        splitBy_cons_slash, ih (fun x hx => ht x (by simp [hx]))]
      intro c hc
      cases hc
      rfl

/-- C86: the names of a path are those between the slashes of its text. -/
theorem C86_path_names (s : Str) : split (Path.ofString s).genericString ['/'] = some (Path.ofString s).names ∧
    Spec.Runs (fun c => c = '/') s (Path.ofString s).names := by
  have hn : (Path.ofString s).names = splitBy isSlash s := rfl
  have hr := splitBy_iff.1 hn.symm
  have hr' : Spec.Runs (fun c => c = '/') s (Path.ofString s).names := by
    have : (fun c => isSlash c = true) = fun c => c = '/' := by
      funext c
      simp [isSlash]
    rwa [this] at hr
  refine ⟨?_, hr'⟩
  have ht : ∀ t ∈ (Path.ofString s).names, t ≠ [] ∧ ∀ c ∈ t, isSlash c = false := by
    intro t ht
    have := runs_tokens hr t ht
    exact ⟨this.1, fun c hc => by simpa using this.2 c hc⟩
  rw [split, if_neg (by decide), if_neg (by decide), inSet_slash, Path.genericString]
  congr 1
  have hj : splitBy isSlash (join (Path.ofString s).names ['/'] ++ if (Path.ofString s).trailing then ['/'] else []) =
      (Path.ofString s).names := by
    refine splitBy_join_append ht fun c hc => ?_
    split at hc
    · simp at hc
      subst hc
      rfl
    · cases hc
  rw [List.append_assoc]
  split
  · exact (splitBy_cons_slash _).trans hj
  · exact hj

theorem join_append_getLast {names : List Str} (ht : ∀ t ∈ names, t ≠ [] ∧ ∀ c ∈ t, isSlash c = false) :
    (join names ['/']).getLast? ≠ some '/' ∧ (join names ['/']).head? ≠ some '/' ∧
      (names ≠ [] → join names ['/'] ≠ []) := by
  induction names with
  | nil => exact ⟨by simp [join], by simp [join], fun h => absurd rfl h⟩
  | cons t ts ih =>
    have htt := ht t (by simp)
    have ih := ih fun x hx => ht x (by simp [hx])
    obtain ⟨c, cs, rfl⟩ := List.exists_cons_of_ne_nil htt.1
    have hc : c ≠ '/' := by
      rintro rfl
      exact absurd (htt.2 '/' (by simp)) (by decide)
    cases ts with
    | nil =>
      refine ⟨?_, by simpa [join] using hc, fun _ => by simp [join]⟩
      intro h
      have := htt.2 '/' (List.mem_of_getLast? (by simpa [join] using h))
      exact absurd this (by decide)
    | cons u us =>
      refine ⟨?_, by simpa [join] using hc, fun _ => by simp [join]⟩
      rw [join, List.getLast?_append]
      have hne := ih.2.2 (by simp)
      cases h : (join (u :: us) ['/']).getLast? with
      | none => exact absurd (List.getLast?_eq_none_iff.1 h) hne
      | some x =>
        rw [h] at ih
        rw [List.getLast?_append, h]
        simpa using ih.1

/-- C86: a path is the path of its text. -/
theorem C86_path_text {p : Path} (hn : ∀ t ∈ p.names, t ≠ [] ∧ '/' ∉ t) (ht : p.trailing = true → p.names ≠ []) :
    Path.ofString p.genericString = p := by
  obtain ⟨absolute, names, trailing⟩ := p
  have hn' : ∀ t ∈ names, t ≠ [] ∧ ∀ c ∈ t, isSlash c = false := fun t h =>
    ⟨(hn t h).1, fun c hc => by
      cases hs : isSlash c
      · rfl
      · have : c = '/' := by simpa [isSlash] using hs
        subst this
        exact absurd hc (hn t h).2⟩
  obtain ⟨h1, h2, h3⟩ := join_append_getLast hn'
  have hj : splitBy isSlash (join names ['/'] ++ if trailing then ['/'] else []) = names := by
    refine splitBy_join_append hn' fun c hc => ?_
    split at hc
    · simp at hc
      subst hc
      rfl
    · cases hc
  have hs : splitBy (· == '/') (Path.genericString ⟨absolute, names, trailing⟩) = names := by
    rw [Path.genericString, List.append_assoc]
    dsimp only
    split
    · exact (splitBy_cons_slash _).trans hj
    · exact hj
  unfold Path.ofString
  dsimp only
  rw [hs]
  dsimp only at ht
  congr 1
  · cases absolute <;> cases trailing <;> simp [Path.genericString, h2]
    have := ht rfl
    cases hjn : join names ['/'] with
    | nil => exact absurd hjn (h3 this)
    | cons c cs =>
      rw [hjn] at h2
      simpa using h2
  · cases names with
    | nil =>
      cases trailing
      · rfl
      · exact absurd rfl (ht rfl)
    | cons t ts =>
      cases trailing
      · cases absolute
        · simpa [Path.genericString] using h1
        · simp only [Path.genericString]
          cases hl : (join (t :: ts) ['/']) with
          | nil => exact absurd hl (h3 (by simp))
          | cons c cs =>
            rw [hl] at h1
            simpa using h1
      · simp [Path.genericString]

example : Path.ofString (Path.genericString ⟨true, [], false⟩) = ⟨true, [], false⟩ :=
  C86_path_text (by simp) (by simp)

/-! ### Finding -/

/-- C86: a path leads to the feature reached by following its names; whether it starts or ends with a slash makes no
difference. -/
theorem C86_feature {h : Heap A} (hg : Good h) (this : Nat) (p : Path) (f : Nat) :
    feature h this p = some f ↔ p.names ≠ [] ∧ Leads h this p.names f :=
  featureByNames_iff hg p.names this f

theorem containsFeature_eq (h : Heap A) (this : Nat) (hp : Proper p parents name) :
    containsFeature h this p = (feature h this p).isSome := by
  rw [containsFeature]
  split
  · rename_i ht
    rw [hp.atTop] at ht
    cases parents with
    | cons => simp at ht
    | nil =>
      rw [hp.genericString, feature, hp.names]
      simp only [List.nil_append, featureByNames, List.isEmpty_nil, if_true]
      cases (h this).features.lookup name <;> rfl
  · rfl

/-- C86: a feature contains a feature if following the names leads to one. -/
theorem C86_contains_feature {h : Heap A} (hg : Good h) (this : Nat) (hp : Proper p parents name) :
    containsFeature h this p = true ↔ ∃ f, Leads h this (parents ++ [name]) f := by
  rw [containsFeature_eq h this hp, Option.isSome_iff_exists]
  refine exists_congr fun f => ?_
  rw [C86_feature hg, hp.names]
  simp

/-- C86: an attribute is the one with the last name, of the feature the other names lead to. -/
theorem C86_attribute (asserts : Bool) {h : Heap A} (hg : Good h) (this : Nat) (hp : Proper p parents name) (a : A) :
    attributeAt asserts h this p = .ok a ↔ ∃ i, Leads h this parents i ∧ (name, a) ∈ (h i).attributes := by
  by_cases hl : ∃ i, Leads h this parents i
  · obtain ⟨i, hi⟩ := hl
    rw [attributeAt, (parentFeature_eq asserts hg this hp _).1 i hi, hp.filename]
    constructor
    · intro he
      cases hk : (h i).attributes.lookup name with
      | none => rw [hk] at he; cases he
      | some b =>
        rw [hk] at he
        injection he with he
        subst he
        exact ⟨i, hi, (lookup_iff (hg i).2 _ _).1 hk⟩
    · rintro ⟨j, hj, hm⟩
      have := leads_unique hg hi hj
      subst this
      rw [(lookup_iff (hg i).2 _ _).2 hm]
  · rw [attributeAt, (parentFeature_eq asserts hg this hp _).2 (fun i hi => hl ⟨i, hi⟩)]
    refine iff_of_false ?_ ?_
    · cases asserts <;> simp
    · rintro ⟨i, hi, _⟩
      exact hl ⟨i, hi⟩

/-- C86: asking for an attribute that does not exist throws an exception if the feature it would belong to exists. -/
theorem C86_attribute_missing (asserts : Bool) {h : Heap A} (hg : Good h) (this : Nat) (hp : Proper p parents name)
    (i : Nat) (hi : Leads h this parents i) (hm : ∀ a, (name, a) ∉ (h i).attributes) :
    attributeAt asserts h this p = .outOfRange := by
  rw [attributeAt, (parentFeature_eq asserts hg this hp _).1 i hi, hp.filename, (lookup_none (hg i).2 _).2 hm]

/-- C86: if that feature does not exist either, an assertion fails, or, without assertions, a null pointer is used. -/
theorem C86_attribute_no_feature (asserts : Bool) {h : Heap A} (hg : Good h) (this : Nat)
    (hp : Proper p parents name) (hi : ∀ i, ¬ Leads h this parents i) :
    attributeAt asserts h this p = if asserts then .assertion else .undefined := by
  rw [attributeAt, (parentFeature_eq asserts hg this hp _).2 hi]

/-- C86: for a single name, containing an attribute is answered. -/
theorem C86_contains_attribute (asserts : Bool) {h : Heap A} (hg : Good h) (this : Nat) (hp : Proper p [] name) :
    ∃ b, containsAttribute asserts h this p = .ok b ∧ (b = true ↔ ∃ a, (name, a) ∈ (h this).attributes) := by
  rw [containsAttribute, hp.atTop, hp.genericString]
  exact ⟨_, rfl, lookup_isSome (hg this).2 name⟩

/-- C86: with more names, the answer is never no: if there is no such attribute, an exception is thrown or worse. -/
theorem C86_contains_attribute_nested (asserts : Bool) {h : Heap A} (hg : Good h) (this : Nat)
    (hp : Proper p parents name) (hn : parents ≠ []) :
    ((∃ i a, Leads h this parents i ∧ (name, a) ∈ (h i).attributes) → containsAttribute asserts h this p = .ok true) ∧
    (∀ i, Leads h this parents i → (∀ a, (name, a) ∉ (h i).attributes) →
      containsAttribute asserts h this p = .outOfRange) ∧
    ((∀ i, ¬ Leads h this parents i) →
      containsAttribute asserts h this p = if asserts then .assertion else .undefined) := by
  have hat : p.atTop = false := by
    rw [hp.atTop]
    simpa using hn
  rw [containsAttribute, hat]
  refine ⟨?_, ?_, ?_⟩
  · rintro ⟨i, a, hi, hm⟩
    rw [(C86_attribute asserts hg this hp a).2 ⟨i, hi, hm⟩]
    rfl
  · intro i hi hm
    rw [C86_attribute_missing asserts hg this hp i hi hm]
    rfl
  · intro hi
    rw [C86_attribute_no_feature asserts hg this hp hi]
    cases asserts <;> rfl

/-! ### Adding attributes -/

theorem addAttribute_eq (asserts : Bool) {h : Heap A} (hg : Good h) (this : Nat) (hp : Proper p parents name) (a : A)
    (i : Nat) (hi : Leads h this parents i) :
    addAttribute asserts h this p a =
      if asserts = true ∧ containsFeature h this p = true then .assertion
      else if asserts = true ∧ (insert name a (h i).attributes).2 = false then .assertion
      else .ok (h.set i { h i with attributes := (insert name a (h i).attributes).1 }) := by
  rw [addAttribute]
  cases asserts
  · simp only [check, Bool.false_eq_true, if_false, false_and]
    show ((parentFeature false h this p).bind fun q => (deref q).bind _) = _
    rw [(parentFeature_eq false hg this hp _).1 i hi, hp.filename]
    rfl
  · cases hc : containsFeature h this p
    · simp only [check, if_true, Bool.not_false, Res.bind]
      show ((parentFeature true h this p).bind fun q => (deref q).bind _) = _
      rw [(parentFeature_eq true hg this hp _).1 i hi, hp.filename]
      cases (insert name a (h i).attributes).2 <;> rfl
    · simp [check, Res.bind]

theorem set_good {h : Heap A} (hg : Good h) (i : Nat) {n : Node A} (hn : Sorted n.features ∧ Sorted n.attributes) :
    Good (h.set i n) := by
  intro j
  rw [Heap.set]
  split
  · exact hn
  · exact hg j

/-- C86: adding an attribute adds it to the feature its parent path leads to, if there is no feature and no attribute
with its path; nothing else changes. -/
theorem C86_add_attribute (asserts : Bool) {h : Heap A} (hg : Good h) (this : Nat) (hp : Proper p parents name) (a : A)
    (i : Nat) (hi : Leads h this parents i) (hf : ∀ f, ¬ Leads h this (parents ++ [name]) f)
    (hm : ∀ a, (name, a) ∉ (h i).attributes) :
    ∃ h', addAttribute asserts h this p a = .ok h' ∧ Good h' ∧ AddedAttribute h h' i name a := by
  have hc : containsFeature h this p = false := by
    rw [← Bool.not_eq_true, C86_contains_feature hg this hp]
    rintro ⟨f, hf'⟩
    exact hf f hf'
  have hk := not_mem_keys.2 hm
  have hins := (insert_snd (a := a) (hg i).2).2 hk
  refine ⟨h.set i { h i with attributes := (insert name a (h i).attributes).1 }, ?_, ?_, ?_⟩
  · rw [addAttribute_eq asserts hg this hp a i hi, if_neg (by simp [hc]), if_neg (by simp [hins])]
  · exact set_good hg i ⟨(hg i).1, insert_sorted (hg i).2⟩
  · refine ⟨fun j hj => by simp [Heap.set, hj], by simp [Heap.set], fun e => ?_⟩
    simp only [Heap.set, if_true, mem_insert (hg i).2]
    exact or_congr Iff.rfl ⟨fun h => h.1, fun h => ⟨h, hk⟩⟩

theorem Spec.AddedAttribute.leads {h h' : Heap A} {i : Nat} {n : Str} {a : A} (ha : AddedAttribute h h' i n a)
    {x y : Nat} {ns : List Str} : Leads h' x ns y ↔ Leads h x ns y := by
  have hf : ∀ j, (h' j).features = (h j).features := by
    intro j
    by_cases hj : j = i
    · subst hj
      exact ha.features
    · rw [ha.others j hj]
  constructor
  · intro hl
    induction hl with
    | here => exact .here _
    | step hm _ ih => exact .step (by rwa [hf] at hm) ih
  · intro hl
    induction hl with
    | here => exact .here _
    | step hm _ ih => exact .step (by rwa [hf]) ih

/-- C86: afterwards it is found, and all other attributes and features are as before. -/
theorem C86_added_attribute (asserts : Bool) {h h' : Heap A} (hg' : Good h') (this : Nat) (hp : Proper p parents name)
    (a : A) (i : Nat) (hi : Leads h this parents i) (ha : AddedAttribute h h' i name a) :
    attributeAt asserts h' this p = .ok a ∧
    (∀ x ns y, Leads h' x ns y ↔ Leads h x ns y) ∧
    (∀ j n b, (n, b) ∈ (h' j).attributes ↔ (n, b) ∈ (h j).attributes ∨ (j = i ∧ n = name ∧ b = a)) := by
  refine ⟨?_, fun x ns y => ha.leads, fun j n b => ?_⟩
  · rw [C86_attribute asserts hg' this hp]
    exact ⟨i, ha.leads.2 hi, (ha.attributes _).2 (Or.inr rfl)⟩
  · by_cases hj : j = i
    · subst hj
      rw [ha.attributes]
      simp
    · rw [ha.others j hj]
      simp [hj]

/-- C86: if there is an attribute with the name already, it is kept. With assertions, an assertion fails. -/
theorem C86_add_attribute_again (asserts : Bool) {h : Heap A} (hg : Good h) (this : Nat) (hp : Proper p parents name)
    (a b : A) (i : Nat) (hi : Leads h this parents i) (hm : (name, b) ∈ (h i).attributes) :
    (asserts = true → addAttribute asserts h this p a = .assertion) ∧
    (asserts = false → ∃ h', addAttribute asserts h this p a = .ok h' ∧ h' = h) := by
  have hins := insert_present (a := a) (hg i).2 (List.mem_map.2 ⟨_, hm, rfl⟩ : name ∈ (h i).attributes.map (·.1))
  rw [addAttribute_eq asserts hg this hp a i hi, hins]
  constructor
  · rintro rfl
    simp
  · rintro rfl
    refine ⟨_, by simp; rfl, ?_⟩
    funext j
    by_cases hj : j = i
    · subst hj
      simp [Heap.set]
    · simp [Heap.set, hj]

/-! ### Adding features -/

/-- C86: with assertions, adding a feature with a path of more than one name never succeeds: the assertion asks whether
there is an attribute with the path, which throws an exception if there is none. -/
theorem C86_add_feature_nested {h : Heap A} (hg : Good h) (this : Nat) (hp : Proper p parents name) (hn : parents ≠ [])
    (f : Nat) : ∀ h', addFeature true h this p f ≠ .ok h' := by
  intro h' he
  obtain ⟨h1, h2, h3⟩ := C86_contains_attribute_nested true hg this hp hn
  rw [addFeature] at he
  by_cases hl : ∃ i, Leads h this parents i
  · obtain ⟨i, hi⟩ := hl
    by_cases ha : ∃ a, (name, a) ∈ (h i).attributes
    · obtain ⟨a, ha⟩ := ha
      rw [h1 ⟨i, a, hi, ha⟩] at he
      cases he
    · rw [h2 i hi (fun a h => ha ⟨a, h⟩)] at he
      cases he
  · rw [h3 (fun i hi => hl ⟨i, hi⟩)] at he
    cases he

/-- C86: the exception is thrown exactly in the case that is meant to succeed. -/
theorem C86_add_feature_nested_throws {h : Heap A} (hg : Good h) (this : Nat) (hp : Proper p parents name)
    (hn : parents ≠ []) (f : Nat) (i : Nat) (hi : Leads h this parents i) (hm : ∀ a, (name, a) ∉ (h i).attributes) :
    addFeature true h this p f = .outOfRange := by
  rw [addFeature, (C86_contains_attribute_nested true hg this hp hn).2.1 i hi hm]
  rfl

theorem addFeature_eq (asserts : Bool) {h : Heap A} (hg : Good h) (this : Nat) (hp : Proper p parents name) (f : Nat)
    (ha : asserts = true → parents = []) (i : Nat) (hi : Leads h this parents i)
    (hm : asserts = true → ∀ a, (name, a) ∉ (h i).attributes) :
    addFeature asserts h this p f =
      if asserts = true ∧ (insert name f (h i).features).2 = false then .assertion
      else .ok (h.set i { h i with features := (insert name f (h i).features).1 }) := by
  rw [addFeature]
  cases asserts
  · simp only [check, Bool.false_eq_true, if_false, false_and]
    show ((parentFeature false h this p).bind fun q => (deref q).bind _) = _
    rw [(parentFeature_eq false hg this hp _).1 i hi, hp.filename]
    rfl
  · have hpar := ha rfl
    subst hpar
    have hi' := hi
    cases hi'
    obtain ⟨b, hb, hb2⟩ := C86_contains_attribute true hg this hp
    have hb3 : b = false := by
      rw [← Bool.not_eq_true, hb2]
      rintro ⟨a, h'⟩
      exact hm rfl a h'
    subst hb3
    rw [hb]
    simp only [check, if_true, Bool.not_false, Res.bind]
    show ((parentFeature true h this p).bind fun q => (deref q).bind _) = _
    rw [(parentFeature_eq true hg this hp _).1 this hi, hp.filename]
    cases (insert name f (h this).features).2 <;> rfl

/-- C86: otherwise, adding a feature adds it to the feature its parent path leads to. -/
theorem C86_add_feature (asserts : Bool) {h : Heap A} (hg : Good h) (this : Nat) (hp : Proper p parents name) (f : Nat)
    (ha : asserts = true → parents = []) (i : Nat) (hi : Leads h this parents i)
    (hm : ∀ a, (name, a) ∉ (h i).attributes) (hf : ∀ g, (name, g) ∉ (h i).features) :
    ∃ h', addFeature asserts h this p f = .ok h' ∧ Good h' ∧ AddedFeature h h' i name f := by
  have hk := not_mem_keys.2 hf
  have hins := (insert_snd (a := f) (hg i).1).2 hk
  refine ⟨h.set i { h i with features := (insert name f (h i).features).1 }, ?_, ?_, ?_⟩
  · rw [addFeature_eq asserts hg this hp f ha i hi (fun _ => hm), if_neg (by simp [hins])]
  · exact set_good hg i ⟨insert_sorted (hg i).1, (hg i).2⟩
  · refine ⟨fun j hj => by simp [Heap.set, hj], by simp [Heap.set], fun e => ?_⟩
    simp only [Heap.set, if_true, mem_insert (hg i).1]
    exact or_congr Iff.rfl ⟨fun h => h.1, fun h => ⟨h, hk⟩⟩

theorem Spec.AddedFeature.mono {h h' : Heap A} {i : Nat} {n : Str} {f : Nat} (ha : AddedFeature h h' i n f)
    {x y : Nat} {ns : List Str} (hl : Leads h x ns y) : Leads h' x ns y := by
  induction hl with
  | here => exact .here _
  | @step a b c n ns hm _ ih =>
    refine .step ?_ ih
    by_cases hj : a = i
    · subst hj
      exact (ha.features _).2 (Or.inl hm)
    · rw [ha.others a hj]
      exact hm

/-- C86: afterwards it is found. Everything found before is still found. What is found in addition is found by way of
the feature added. -/
theorem C86_added_feature {h h' : Heap A} (hg' : Good h') (this : Nat) (hp : Proper p parents name)
    (f : Nat) (i : Nat) (hi : Leads h this parents i) (ha : AddedFeature h h' i name f) :
    feature h' this p = some f ∧
    (∀ x ns y, Leads h x ns y → Leads h' x ns y) ∧
    (∀ x ns y, Leads h' x ns y → Leads h x ns y ∨
      ∃ before after, ns = before ++ name :: after ∧ Leads h x before i ∧ Leads h' f after y) ∧
    (∀ j, (h' j).attributes = (h j).attributes) := by
  refine ⟨?_, fun x ns y => ha.mono, fun x ns y hl => ?_, fun j => ?_⟩
  · rw [C86_feature hg', hp.names, leads_append]
    exact ⟨by simp, i, ha.mono hi, leads_one.2 ((ha.features _).2 (Or.inr rfl))⟩
  · induction hl with
    | here => exact Or.inl (.here _)
    | @step a b c n ns hm hl ih =>
      by_cases hj : a = i
      · subst hj
        rcases (ha.features _).1 hm with hm | hm
        · rcases ih with ih | ⟨before, after, h1, h2, h3⟩
          · exact Or.inl (.step hm ih)
          · exact Or.inr ⟨n :: before, after, by rw [h1]; rfl, .step hm h2, h3⟩
        · injection hm with h1 h2
          subst h1 h2
          exact Or.inr ⟨[], ns, rfl, .here _, hl⟩
      · rw [ha.others a hj] at hm
        rcases ih with ih | ⟨before, after, h1, h2, h3⟩
        · exact Or.inl (.step hm ih)
        · exact Or.inr ⟨n :: before, after, by rw [h1]; rfl, .step hm h2, h3⟩
  · by_cases hj : j = i
    · subst hj
      exact ha.attributes
    · rw [ha.others j hj]

/-! ### Counting -/

/-- C86: the number of features below a path. -/
theorem C86_nr_features (asserts : Bool) {h : Heap A} (hg : Good h) (this : Nat) (hp : Proper p parents name) (f : Nat)
    (hf : Leads h this (parents ++ [name]) f) : nrFeaturesAt asserts h this p = .ok (h f).features.length := by
  have h1 : feature h this p = some f := (C86_feature hg this p f).2 ⟨by simp [hp.names], by rw [hp.names]; exact hf⟩
  have h2 : containsFeature h this p = true := (C86_contains_feature hg this hp).2 ⟨f, hf⟩
  rw [nrFeaturesAt, h1, h2]
  cases asserts <;> rfl

/-- C86: the number of attributes of a path is the number of attributes of the feature above it: the last name plays no
role. -/
theorem C86_nr_attributes (asserts : Bool) {h : Heap A} (hg : Good h) (this : Nat) (hp : Proper p parents name)
    (i : Nat) (hi : Leads h this parents i) : nrAttributesAt asserts h this p = .ok (h i).attributes.length := by
  rw [nrAttributesAt, (parentFeature_eq asserts hg this hp _).1 i hi]
  rfl

/-- C86: names are given in order, each once. -/
theorem C86_names {h : Heap A} (hg : Good h) (this : Nat) :
    (featureNames h this).Pairwise (fun a b => strLt a b = true) ∧
    (attributeNames h this).Pairwise (fun a b => strLt a b = true) ∧
    (∀ n, n ∈ featureNames h this ↔ ∃ f, (n, f) ∈ (h this).features) ∧
    (∀ n, n ∈ attributeNames h this ↔ ∃ a, (n, a) ∈ (h this).attributes) ∧
    (featureNames h this).length = nrFeatures h this ∧ (attributeNames h this).length = nrAttributes h this := by
  refine ⟨?_, ?_, ?_, ?_, ?_, ?_⟩
  · exact List.pairwise_map.2 (hg this).1
  · exact List.pairwise_map.2 (hg this).2
  · intro n
    simp [featureNames]
  · intro n
    simp [attributeNames]
  · simp [featureNames, nrFeatures]
  · simp [attributeNames, nrAttributes]

/-! ### Slashes at the begin and at the end -/

/-- C86: with a path that consists of a slash and a name, attributes can't be found or added, and features can't be
added; features can be found. -/
theorem C86_absolute {h : Heap A} (hg : Good h) (this : Nat) (n : Str) (a : A) (f : Nat) :
    attributeAt true h this ⟨true, [n], false⟩ = .assertion ∧
    attributeAt false h this ⟨true, [n], false⟩ = .undefined ∧
    containsAttribute true h this ⟨true, [n], false⟩ = .assertion ∧
    addAttribute true h this ⟨true, [n], false⟩ a = .assertion ∧
    addAttribute false h this ⟨true, [n], false⟩ a = .undefined ∧
    addFeature true h this ⟨true, [n], false⟩ f = .assertion ∧
    addFeature false h this ⟨true, [n], false⟩ f = .undefined ∧
    (∀ g, feature h this ⟨true, [n], false⟩ = some g ↔ (n, g) ∈ (h this).features) := by
  have h1 : Path.atTop ⟨true, [n], false⟩ = false := by
    simp [Path.atTop, Path.parentPath, Path.genericString]
  have h2 : Path.parentPath ⟨true, [n], false⟩ = ⟨true, [], false⟩ := by simp [Path.parentPath]
  have h3 : Path.atTop ⟨true, [], false⟩ = false := by
    simp [Path.atTop, Path.parentPath, Path.genericString]
  have h4 : containsFeature h this ⟨true, [], false⟩ = false := by
    rw [containsFeature, h3]
    rfl
  have h5 : parentFeature true h this ⟨true, [n], false⟩ = .assertion := by
    rw [parentFeature, h1, h2, h4]
    rfl
  have h6 : parentFeature false h this ⟨true, [n], false⟩ = .ok none := by
    rw [parentFeature, h1, h2]
    rfl
  have h7 : attributeAt true h this ⟨true, [n], false⟩ = .assertion := by rw [attributeAt, h5]; rfl
  have h8 : containsAttribute true h this ⟨true, [n], false⟩ = .assertion := by
    rw [containsAttribute, h1, h7]
    rfl
  refine ⟨h7, by rw [attributeAt, h6]; rfl, h8, ?_, ?_, ?_, ?_, fun g => ?_⟩
  · rw [addAttribute]
    cases containsFeature h this ⟨true, [n], false⟩
    · simp [check, Res.bind, h5]
    · simp [check, Res.bind]
  · rw [addAttribute]
    simp [check, Res.bind, h6, deref]
  · rw [addFeature, h8]
    rfl
  · rw [addFeature]
    simp [check, Res.bind, h6, deref]
  · rw [C86_feature hg]
    simp [leads_one]

/-- C86: that is what a data name has as path to its data if the data is at the top. -/
theorem C86_data_name_path (n : Str) (hn : n ≠ []) (hs : '/' ∉ n) :
    Path.ofString ('/' :: n) = ⟨true, [n], false⟩ := by
  have h1 : splitBy (· == '/') ('/' :: n) = [n] := by
    show splitBy isSlash _ = _
    rw [splitBy_cons_slash]
    have := splitBy_run (sep := isSlash) (t := n) (rest := []) (fun x hx => by
      rw [isSlash, beq_eq_false_iff_ne]
      rintro rfl
      exact hs hx) hn (by simp)
    rwa [List.append_nil, splitBy_nil] at this
  rw [Path.ofString, h1]
  congr 1
  cases n with
  | nil => exact absurd rfl hn
  | cons c cs =>
    rw [List.getLast?_cons_cons]
    simp only [List.isEmpty_cons, Bool.not_false, Bool.true_and, beq_eq_false_iff_ne]
    intro h
    exact hs (List.mem_of_mem_getLast? h)

/-- C86: a feature added with a path that ends with a slash gets no name; the path still leads to the feature it was
added to. -/
theorem C86_trailing {h : Heap A} (hg : Good h) (this : Nat) (ns : List Str) (i f : Nat) (hns : ns ≠ [])
    (hne : ∀ n ∈ ns, n ≠ []) (hi : Leads h this ns i) (hm : ∀ g, ([], g) ∉ (h i).features) (b : Bool) :
    ∃ h', addFeature false h this ⟨b, ns, true⟩ f = .ok h' ∧ ([], f) ∈ (h' i).features ∧
      feature h' this ⟨b, ns, true⟩ = some i := by
  have hj := join_isEmpty hne
  have h1 : Path.parentPath ⟨b, ns, true⟩ = ⟨b, ns, false⟩ := by
    cases ns with
    | nil => exact absurd rfl hns
    | cons => simp [Path.parentPath]
  have h2 : Path.atTop ⟨b, ns, true⟩ = false := by
    cases ns with
    | nil => exact absurd rfl hns
    | cons n ns =>
      rw [List.isEmpty_cons, List.isEmpty_eq_false_iff] at hj
      rw [Path.atTop, h1, Path.genericString, List.isEmpty_eq_false_iff]
      simp [hj]
  have h3 : feature h this ⟨b, ns, false⟩ = some i := (C86_feature hg this _ i).2 ⟨hns, hi⟩
  have h4 : parentFeature false h this ⟨b, ns, true⟩ = .ok (some i) := by
    rw [parentFeature, h2, h1, h3]
    rfl
  have hk := not_mem_keys.2 hm
  refine ⟨h.set i { h i with features := (insert [] f (h i).features).1 }, ?_, ?_, ?_⟩
  · rw [addFeature]
    simp [check, Res.bind, h4, deref, Path.filename]
  · simp only [Heap.set, if_true, mem_insert (hg i).1]
    exact Or.inr ⟨trivial, hk⟩
  · have hg' : Good (h.set i { h i with features := (insert [] f (h i).features).1 }) :=
      set_good hg i ⟨insert_sorted (hg i).1, (hg i).2⟩
    refine (C86_feature hg' this _ i).2 ⟨hns, ?_⟩
    have ha : AddedFeature h (h.set i { h i with features := (insert [] f (h i).features).1 }) i [] f := by
      refine ⟨fun j hj => by simp [Heap.set, hj], by simp [Heap.set], fun e => ?_⟩
      simp only [Heap.set, if_true, mem_insert (hg i).1]
      exact or_congr Iff.rfl ⟨fun h => h.1, fun h => ⟨h, hk⟩⟩
    exact ha.mono hi

/-! ### An example -/

/-- The earth, with two attributes and the continents, which have one attribute and two child features. -/
def earth : Heap Nat := fun i =>
  if i = 0 then ⟨[("continents".toList, 1)], [("acceleration".toList, 10), ("mass".toList, 6)]⟩
  else if i = 1 then ⟨[("africa".toList, 2), ("asia".toList, 2)], [("is_land".toList, 1)]⟩
  else ⟨[], []⟩

theorem earth_good : Good earth := by
  intro i
  unfold earth
  split
  · constructor <;> unfold Sorted <;> decide +kernel
  · split
    · constructor <;> unfold Sorted <;> decide +kernel
    · exact ⟨List.Pairwise.nil, List.Pairwise.nil⟩

/-- The path `continents/is_land`. -/
def isLand : Path := Path.ofString "continents/is_land".toList

theorem isLand_proper : Proper isLand ["continents".toList] "is_land".toList :=
  ⟨by decide +kernel, by decide +kernel, by decide +kernel, by simp⟩

theorem continents_lead : Leads earth 0 ["continents".toList] 1 :=
  leads_one.2 (by decide +kernel)

example : attributeAt true earth 0 isLand = .ok 1 :=
  (C86_attribute true earth_good 0 isLand_proper 1).2 ⟨1, continents_lead, by decide +kernel⟩

/-- The continents have one attribute; the number given is that of the earth. -/
theorem C86_nr_attributes_witness :
    (earth 1).attributes.length = 1 ∧
      nrAttributesAt true earth 0 (Path.ofString "continents".toList) = .ok 2 :=
  ⟨rfl, C86_nr_attributes true earth_good 0
    (⟨by decide +kernel, by decide +kernel, by decide +kernel, fun _ => by decide +kernel⟩ :
      Proper (Path.ofString "continents".toList) [] "continents".toList) 0 (.here 0)⟩

/-- Adding a new continent throws an exception. -/
example : addFeature true earth 0 (Path.ofString "continents/europe".toList) 3 = .outOfRange :=
  C86_add_feature_nested_throws earth_good 0
    (⟨by decide +kernel, by decide +kernel, by decide +kernel, by simp⟩ :
      Proper (Path.ofString "continents/europe".toList) ["continents".toList] "europe".toList)
    (by simp) 3 1 continents_lead (by
      intro a h
      have : (earth 1).attributes = [("is_land".toList, 1)] := rfl
      rw [this, List.mem_singleton, Prod.mk.injEq] at h
      exact absurd h.1 (by decide +kernel))

end Fern.Features
