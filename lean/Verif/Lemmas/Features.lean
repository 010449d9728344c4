import Verif.Spec.Features
import Verif.Lemmas.Strings

/-!
# Maps, paths and features: lemmas
-/

namespace Fern.Features

open Fern Fern.Features.Spec

variable {A : Type}

/-! ### The order of strings -/

theorem strLt_irrefl (s : Str) : strLt s s = false := by
  induction s with
  | nil => rfl
  | cons c cs ih => simp [strLt, ih]

theorem char_cases (x y : Char) : x < y ∨ x = y ∨ y < x := by
  rcases Char.le_total x y with h | h
  · by_cases he : y ≤ x
    · exact Or.inr (Or.inl (Char.le_antisymm h he))
    · exact Or.inl (Char.not_le.1 he)
  · by_cases he : x ≤ y
    · exact Or.inr (Or.inl (Char.le_antisymm he h))
    · exact Or.inr (Or.inr (Char.not_le.1 he))

theorem strLt_trans {a b c : Str} : strLt a b = true → strLt b c = true → strLt a c = true := by
  induction a generalizing b c with
  | nil =>
    cases b with
    | nil => simp [strLt]
    | cons b bs => cases c <;> simp [strLt]
  | cons x xs ih =>
    cases b with
    | nil => simp [strLt]
    | cons y ys =>
      cases c with
      | nil => simp [strLt]
      | cons z zs =>
        simp only [strLt]
        rcases char_cases x y with h1 | h1 | h1
        · rcases char_cases y z with h2 | h2 | h2
          · have := Char.lt_trans h1 h2
            simp [this]
          · subst h2
            simp [h1]
          · have h3 : ¬ y < z := Char.lt_asymm h2
            simp [h2, h3]
        · subst h1
          have h0 : ¬ x < x := Char.lt_irrefl x
          rcases char_cases x z with h2 | h2 | h2
          · simp [h2]
          · subst h2
            simp only [if_neg h0]
            exact ih
          · have h3 : ¬ x < z := Char.lt_asymm h2
            simp [h2, h3]
        · have h3 : ¬ x < y := Char.lt_asymm h1
          simp [h1, h3]

theorem strLt_total {a b : Str} (h1 : strLt a b = false) (h2 : strLt b a = false) : a = b := by
  induction a generalizing b with
  | nil => cases b <;> simp [strLt] at h1 ⊢
  | cons x xs ih =>
    cases b with
    | nil => simp [strLt] at h2
    | cons y ys =>
      simp only [strLt] at h1 h2
      rcases char_cases x y with h | h | h
      · simp [h] at h1
      · subst h
        have h0 : ¬ x < x := Char.lt_irrefl x
        simp only [if_neg h0] at h1 h2
        rw [ih h1 h2]
      · simp [h] at h2

theorem strLt_ne {a b : Str} (h : strLt a b = true) : a ≠ b := by
  rintro rfl
  rw [strLt_irrefl] at h
  cases h

/-! ### Maps -/

theorem mem_insert {α : Type} {k : Str} {a : α} {l : List (Str × α)} (hs : Sorted l) (e : Str × α) :
    e ∈ (insert k a l).1 ↔ e ∈ l ∨ (e = (k, a) ∧ k ∉ l.map (·.1)) := by
  induction l with
  | nil => simp [insert]
  | cons p rest ih =>
    obtain ⟨k', a'⟩ := p
    have hr := List.pairwise_cons.1 hs
    rw [insert]
    split
    · rename_i hlt
      have hk : k ∉ ((k', a') :: rest).map (·.1) := by
        intro hm
        rw [List.map_cons, List.mem_cons] at hm
        rcases hm with hm | hm
        · exact strLt_ne hlt hm
        · obtain ⟨q, hq, hqk⟩ := List.mem_map.1 hm
          exact strLt_ne (strLt_trans hlt (hr.1 q hq)) hqk.symm
      simp only [List.mem_cons]
      tauto
    · split
      · rename_i hlt
        have := ih hr.2
        have hne := strLt_ne hlt
        simp only [List.mem_cons, List.map_cons, this]
        constructor
        · rintro (h | h | ⟨h, hn⟩)
          · exact Or.inl (Or.inl h)
          · exact Or.inl (Or.inr h)
          · exact Or.inr ⟨h, by rintro (h' | h'); exact hne h'.symm; exact hn h'⟩
        · rintro ((h | h) | ⟨h, hn⟩)
          · exact Or.inl h
          · exact Or.inr (Or.inl h)
          · exact Or.inr (Or.inr ⟨h, fun h' => hn (Or.inr h')⟩)
      · rename_i h1 h2
        rw [Bool.not_eq_true] at h1 h2
        have := strLt_total h1 h2
        subst this
        simp

theorem insert_fst_keys {α : Type} {k : Str} {a : α} {l : List (Str × α)} (q : Str × α)
    (h : q ∈ (insert k a l).1) : q ∈ l ∨ q = (k, a) := by
  induction l with
  | nil => simpa [insert] using h
  | cons p rest ih =>
    obtain ⟨k', a'⟩ := p
    rw [insert] at h
    split at h
    · simp only [List.mem_cons] at h ⊢
      tauto
    · split at h
      · simp only [List.mem_cons] at h ⊢
        rcases h with h | h
        · tauto
        · rcases ih h with h | h <;> tauto
      · exact Or.inl h

theorem insert_sorted {α : Type} {k : Str} {a : α} {l : List (Str × α)} (hs : Sorted l) :
    Sorted (insert k a l).1 := by
  induction l with
  | nil => simp [insert, Sorted]
  | cons p rest ih =>
    obtain ⟨k', a'⟩ := p
    have hr := List.pairwise_cons.1 hs
    rw [insert]
    split
    · rename_i hlt
      refine List.pairwise_cons.2 ⟨fun q hq => ?_, hs⟩
      rcases List.mem_cons.1 hq with rfl | hq
      · exact hlt
      · exact strLt_trans hlt (hr.1 q hq)
    · split
      · rename_i hlt
        refine List.pairwise_cons.2 ⟨fun q hq => ?_, ih hr.2⟩
        rcases insert_fst_keys q hq with hq | rfl
        · exact hr.1 q hq
        · exact hlt
      · exact hs

theorem insert_snd {α : Type} {k : Str} {a : α} {l : List (Str × α)} (hs : Sorted l) :
    (insert k a l).2 = true ↔ k ∉ l.map (·.1) := by
  induction l with
  | nil => simp [insert]
  | cons p rest ih =>
    obtain ⟨k', a'⟩ := p
    have hr := List.pairwise_cons.1 hs
    rw [insert]
    split
    · rename_i hlt
      refine iff_of_true rfl fun hm => ?_
      rw [List.map_cons, List.mem_cons] at hm
      rcases hm with hm | hm
      · exact strLt_ne hlt hm
      · obtain ⟨q, hq, hqk⟩ := List.mem_map.1 hm
        exact strLt_ne (strLt_trans hlt (hr.1 q hq)) hqk.symm
    · split
      · rename_i hlt
        rw [ih hr.2, List.map_cons, List.mem_cons, not_or]
        exact ⟨fun h => ⟨(strLt_ne hlt).symm, h⟩, fun h => h.2⟩
      · rename_i h1 h2
        rw [Bool.not_eq_true] at h1 h2
        have := strLt_total h1 h2
        subst this
        simp

theorem insert_present {α : Type} {k : Str} {a : α} {l : List (Str × α)} (hs : Sorted l)
    (h : k ∈ l.map (·.1)) : insert k a l = (l, false) := by
  induction l with
  | nil => simp at h
  | cons p rest ih =>
    obtain ⟨k', a'⟩ := p
    have hr := List.pairwise_cons.1 hs
    rw [insert]
    split
    · rename_i hlt
      rw [List.map_cons, List.mem_cons] at h
      rcases h with h | h
      · exact absurd h (strLt_ne hlt)
      · obtain ⟨q, hq, hqk⟩ := List.mem_map.1 h
        exact absurd hqk.symm (strLt_ne (strLt_trans hlt (hr.1 q hq)))
    · split
      · rename_i hlt
        rw [List.map_cons, List.mem_cons] at h
        rcases h with h | h
        · exact absurd h.symm (strLt_ne hlt)
        · rw [ih hr.2 h]
      · rfl

theorem lookup_iff {α : Type} {l : List (Str × α)} (hs : Sorted l) (k : Str) (a : α) :
    l.lookup k = some a ↔ (k, a) ∈ l := by
  induction l with
  | nil => simp
  | cons p rest ih =>
    obtain ⟨k', a'⟩ := p
    have hr := List.pairwise_cons.1 hs
    by_cases hk : k = k'
    · subst hk
      rw [List.lookup_cons_self, List.mem_cons]
      constructor
      · rintro h
        injection h with h
        exact Or.inl (by rw [h])
      · rintro (h | h)
        · injection h with _ h
          rw [h]
        · exact absurd rfl (strLt_ne (hr.1 (k, a) h))
    · have : (k == k') = false := by simpa using hk
      rw [List.lookup_cons, this, ih hr.2, List.mem_cons]
      simp [hk]

theorem lookup_isSome {α : Type} {l : List (Str × α)} (hs : Sorted l) (k : Str) :
    (l.lookup k).isSome = true ↔ ∃ a, (k, a) ∈ l := by
  rw [Option.isSome_iff_exists]
  exact exists_congr fun a => lookup_iff hs k a

theorem lookup_none {α : Type} {l : List (Str × α)} (hs : Sorted l) (k : Str) :
    l.lookup k = none ↔ ∀ a, (k, a) ∉ l := by
  rw [← not_iff_not, ← ne_eq, ← Option.isSome_iff_ne_none, lookup_isSome hs]
  simp

theorem unique {α : Type} {l : List (Str × α)} (hs : Sorted l) {k : Str} {a b : α} (ha : (k, a) ∈ l)
    (hb : (k, b) ∈ l) : a = b := by
  have h1 := (lookup_iff hs k a).2 ha
  rw [(lookup_iff hs k b).2 hb] at h1
  exact (Option.some.inj h1).symm

theorem not_mem_keys {α : Type} {l : List (Str × α)} {k : Str} : k ∉ l.map (·.1) ↔ ∀ a, (k, a) ∉ l := by
  simp [List.mem_map]

/-! ### Paths -/

variable {p : Path} {parents : List Str} {name : Str}

theorem Spec.Proper.parentPath (h : Proper p parents name) : p.parentPath = ⟨p.absolute, parents, false⟩ := by
  obtain ⟨ab, ns, tr⟩ := p
  have h1 : ns = parents ++ [name] := h.names
  have h2 : tr = false := h.noTrailing
  subst h1 h2
  simp [Path.parentPath]

theorem Spec.Proper.filename (h : Proper p parents name) : p.filename = name := by
  simp [Path.filename, h.noTrailing, h.names]

theorem join_isEmpty {ns : List Str} (h : ∀ n ∈ ns, n ≠ []) : (join ns ['/']).isEmpty = ns.isEmpty := by
  cases ns with
  | nil => rfl
  | cons n ns =>
    have := h n (by simp)
    cases ns with
    | nil => cases n <;> simp_all [join]
    | cons m ms => cases n <;> simp_all [join]

theorem Spec.Proper.atTop (h : Proper p parents name) : p.atTop = parents.isEmpty := by
  have hj := join_isEmpty (ns := parents) fun n hn => h.nonempty n (by rw [h.names]; simp [hn])
  rw [Path.atTop, h.parentPath, Path.genericString]
  cases parents with
  | nil => simp [h.relative rfl, join]
  | cons n ns =>
    rw [List.isEmpty_cons, List.isEmpty_eq_false_iff] at hj ⊢
    simp [hj]

theorem Spec.Proper.genericString (h : Proper p [] name) : p.genericString = name := by
  simp [Path.genericString, h.relative rfl, h.names, h.noTrailing, join]

/-! ### Following names -/

theorem featureByNames_iff {h : Heap A} (hg : Good h) (names : List Str) (a b : Nat) :
    featureByNames h a names = some b ↔ names ≠ [] ∧ Leads h a names b := by
  induction names generalizing a with
  | nil => simp [featureByNames]
  | cons n rest ih =>
    rw [featureByNames]
    constructor
    · intro hf
      cases hl : (h a).features.lookup n with
      | none => rw [hl] at hf; cases hf
      | some c =>
        rw [hl] at hf
        have hm := (lookup_iff (hg a).1 n c).1 hl
        refine ⟨by simp, ?_⟩
        cases rest with
        | nil =>
          simp only [List.isEmpty_nil, if_true, Option.some.injEq] at hf
          subst hf
          exact .step hm (.here _)
        | cons m ms =>
          simp only [List.isEmpty_cons, Bool.false_eq_true, if_false] at hf
          exact .step hm ((ih c).1 hf).2
    · rintro ⟨_, hl⟩
      cases hl with
      | step hm hl =>
        rw [(lookup_iff (hg a).1 n _).2 hm]
        cases rest with
        | nil =>
          cases hl
          rfl
        | cons m ms =>
          simp only [List.isEmpty_cons, Bool.false_eq_true, if_false]
          exact (ih _).2 ⟨by simp, hl⟩

theorem leads_unique {h : Heap A} (hg : Good h) {names : List Str} {a b c : Nat} (h1 : Leads h a names b)
    (h2 : Leads h a names c) : b = c := by
  induction h1 with
  | here => cases h2; rfl
  | step hm _ ih =>
    cases h2 with
    | step hm' hl' =>
      have := unique (hg _).1 hm hm'
      subst this
      exact ih hl'

theorem leads_append {h : Heap A} {ns ms : List Str} {a c : Nat} :
    Leads h a (ns ++ ms) c ↔ ∃ b, Leads h a ns b ∧ Leads h b ms c := by
  induction ns generalizing a with
  | nil =>
    constructor
    · intro hl
      exact ⟨a, .here a, hl⟩
    · rintro ⟨b, h1, h2⟩
      cases h1
      exact h2
  | cons n ns ih =>
    constructor
    · intro hl
      cases hl with
      | step hm hl =>
        obtain ⟨b, h1, h2⟩ := ih.1 hl
        exact ⟨b, .step hm h1, h2⟩
    · rintro ⟨b, h1, h2⟩
      cases h1 with
      | step hm h1 => exact .step hm (ih.2 ⟨b, h1, h2⟩)

theorem leads_one {h : Heap A} {n : Str} {a b : Nat} : Leads h a [n] b ↔ (n, b) ∈ (h a).features := by
  constructor
  · intro hl
    cases hl with
    | step hm hl => cases hl; exact hm
  · intro hm
    exact .step hm (.here _)

/-! ### Parents -/

/-- What a function does before it comes to the parent feature, and then. -/
theorem parentFeature_eq (asserts : Bool) {h : Heap A} (hg : Good h) (this : Nat) (hp : Proper p parents name)
    {β : Type} (k : Nat → Res β) :
    (∀ i, Leads h this parents i →
      ((parentFeature asserts h this p).bind fun q => (deref q).bind k) = k i) ∧
    ((∀ i, ¬ Leads h this parents i) →
      ((parentFeature asserts h this p).bind fun q => (deref q).bind k) =
        if asserts then .assertion else .undefined) := by
  have hpp : p.parentPath = ⟨p.absolute, parents, false⟩ := hp.parentPath
  have hat := hp.atTop
  cases parents with
  | nil =>
    constructor
    · intro i hi
      cases hi
      simp [parentFeature, check, hat, Res.bind, deref]
    · intro hn
      exact absurd (Leads.here this) (hn this)
  | cons m ms =>
    have hc : containsFeature h this p.parentPath = (featureByNames h this (m :: ms)).isSome := by
      rw [hpp, containsFeature]
      split
      · rename_i ht
        have hne : ∀ n ∈ m :: ms, n ≠ [] := fun n hn => hp.nonempty n (by rw [hp.names]; rw [List.mem_append]; exact Or.inl hn)
        cases ms with
        | nil =>
          have ha : p.absolute = false := by
            cases hab : p.absolute with
            | false => rfl
            | true => simp [Path.atTop, Path.parentPath, Path.genericString, hab] at ht
          rw [ha]
          simp [Path.genericString, join, featureByNames]
          cases (h this).features.lookup m <;> rfl
        | cons m2 ms =>
          exfalso
          have hd : (m :: m2 :: ms).dropLast ≠ [] := by simp
          have hj := join_isEmpty (ns := (m :: m2 :: ms).dropLast)
            fun n hn => hne n (List.dropLast_subset _ hn)
          rw [Path.atTop, Path.parentPath] at ht
          simp only [List.isEmpty_cons, Bool.false_eq_true, if_false, Path.genericString] at ht
          rw [List.isEmpty_iff, List.append_eq_nil_iff, List.append_eq_nil_iff] at ht
          rw [ht.1.2] at hj
          simp at hj
      · rfl
    rw [parentFeature, hat, hc]
    constructor
    · intro i hi
      have hb := (featureByNames_iff hg (m :: ms) this i).2 ⟨by simp, hi⟩
      rw [hb]
      have hf : feature h this p.parentPath = some i := by rw [hpp, feature]; exact hb
      cases asserts <;> simp [check, Res.bind, hf, deref]
    · intro hn
      have hb : featureByNames h this (m :: ms) = none := by
        rw [Option.eq_none_iff_forall_ne_some]
        intro i hi
        exact hn i ((featureByNames_iff hg (m :: ms) this i).1 hi).2
      have hf : feature h this p.parentPath = none := by rw [hpp, feature]; exact hb
      rw [hb]
      cases asserts <;> simp [check, Res.bind, hf, deref]

end Fern.Features
