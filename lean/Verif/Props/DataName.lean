import Verif.Lemmas.DataName
import Verif.Props.Strings

/-!
# Canonical data names (C46)
-/

namespace Fern

theorem slash_pred : (fun c => isSlash c = true) = (· = '/') := by
  funext c; rw [eq_iff_iff, isSlash, beq_iff_eq]

/-- A data name is accepted exactly if it has the form `database` or `database:rest`; the data
path is the absolute path made of the components of `rest`. -/
theorem C46_data_name (s db path : Str) :
    dataName s = some (db, path) ↔
      ∃ rest names, Spec.NameParts s db rest ∧ Spec.Runs (· = '/') rest names ∧
        path = Spec.absolutePath names := by
  rw [dataName_eq]
  constructor
  · rintro ⟨rest, hp, h⟩
    refine ⟨rest, splitBy isSlash rest, hp, ?_, h⟩
    rw [← slash_pred]
    exact splitBy_iff.1 rfl
  · rintro ⟨rest, names, hp, hr, h⟩
    refine ⟨rest, hp, ?_⟩
    rw [← slash_pred, ← splitBy_iff] at hr
    rw [hr, h]

example : dataName "d:b//c/".toList = some ("d".toList, "/b/c".toList) ∧
    dataName "d.nc".toList = some ("d.nc".toList, "/".toList) ∧
    dataName ":a".toList = none := by decide +kernel

/-- What was accepted, again: the parts. -/
theorem dataName_names {s db path : Str} (h : dataName s = some (db, path)) :
    ∃ names, path = Spec.absolutePath names ∧ ∀ t ∈ names, t ≠ [] ∧ ∀ c ∈ t, ¬ c = '/' := by
  obtain ⟨rest, names, _, hr, hp⟩ := (C46_data_name s db path).1 h
  exact ⟨names, hp, runs_tokens hr⟩

theorem splitBy_absolute (names : List Str) (h : ∀ t ∈ names, t ≠ [] ∧ ∀ c ∈ t, ¬ c = '/') :
    splitBy isSlash (Spec.absolutePath names) = names := by
  have key : ∀ names : List Str, (∀ t ∈ names, t ≠ [] ∧ ∀ c ∈ t, ¬ c = '/') →
      splitBy isSlash ((names.map fun n => '/' :: n).flatten) = names := by
    intro names
    induction names with
    | nil => intro _; exact splitBy_nil
    | cons t ts ih =>
      intro h
      have ht := h t (by simp)
      rw [List.map_cons, List.flatten_cons, List.cons_append, splitBy_cons_slash,
        splitBy_run (fun x hx => by rw [isSlash, beq_eq_false_iff_ne]; exact ht.2 x hx) ht.1,
        ih (fun x hx => h x (by simp [hx]))]
      intro c hc
      cases ts with
      | nil => simp at hc
      | cons u us => cases hc; rfl
  rw [Spec.absolutePath]
  split
  · rename_i h0
    subst h0
    rw [splitBy_cons_slash, splitBy_nil]
  · exact key names h

/-- The data path starts with a slash, holds no double slash, and ends in a slash only if it is
the root. -/
theorem C46_canonical (s db path : Str) (h : dataName s = some (db, path)) :
    path.head? = some '/' ∧ (∀ a b, path ≠ a ++ ['/', '/'] ++ b) ∧
      (path.getLast? = some '/' → path = ['/']) := by
  have key : ∀ names : List Str, (∀ t ∈ names, t ≠ [] ∧ ∀ c ∈ t, ¬ c = '/') →
      (∀ a b, (names.map fun n => '/' :: n).flatten ≠ a ++ ['/', '/'] ++ b) ∧
      ((names.map fun n => '/' :: n).flatten.getLast? ≠ some '/') := by
    intro names
    induction names with
    | nil =>
      intro _
      constructor
      · intro a b e
        have := congrArg List.length e
        simp at this
      · simp
    | cons t ts ih =>
      intro h
      have ht := h t (by simp)
      obtain ⟨i1, i2⟩ := ih (fun x hx => h x (by simp [hx]))
      rw [List.map_cons, List.flatten_cons]
      generalize hr : (ts.map fun n => '/' :: n).flatten = r at *
      constructor
      · have free : ∀ (t r : Str), (∀ c ∈ t, ¬ c = '/') → (∀ a b, r ≠ a ++ ['/', '/'] ++ b) →
            ∀ a b, t ++ r ≠ a ++ ['/', '/'] ++ b := by
          intro t r ht hr
          induction t with
          | nil => exact hr
          | cons x t ih =>
            intro a b e
            cases a with
            | nil =>
              simp only [List.cons_append, List.nil_append, List.cons.injEq] at e
              exact ht x (by simp) e.1
            | cons y a =>
              simp only [List.cons_append, List.cons.injEq] at e
              exact ih (fun c hc => ht c (by simp [hc])) a b e.2
        intro a b e
        cases a with
        | nil =>
          simp only [List.cons_append, List.nil_append, List.cons.injEq, true_and] at e
          cases t with
          | nil => exact ht.1 rfl
          | cons x t =>
            simp only [List.cons_append, List.cons.injEq] at e
            exact ht.2 x (by simp) e.1
        | cons y a =>
          simp only [List.cons_append, List.cons.injEq] at e
          exact free t r ht.2 i1 a b e.2
      · rw [List.getLast?_append]
        cases hl : r.getLast? with
        | some c =>
          rw [hl] at i2
          exact i2
        | none =>
          rw [Option.none_or, List.getLast?_cons, List.getLast?_eq_some_getLast ht.1]
          intro e
          simp only [Option.getD_some, Option.some.injEq] at e
          exact ht.2 _ (List.getLast_mem ht.1) e
  obtain ⟨names, rfl, hn⟩ := dataName_names h
  cases names with
  | nil =>
    refine ⟨rfl, ?_, fun _ => rfl⟩
    intro a b e
    have := congrArg List.length e
    simp [Spec.absolutePath] at this
    omega
  | cons t ts =>
    have := key (t :: ts) hn
    rw [Spec.absolutePath, if_neg (by simp)]
    exact ⟨rfl, this.1, fun hl => absurd hl this.2⟩

/-- Canonicalisation is idempotent: naming the canonical path gives the same data name. -/
theorem C46_idempotent (s db path : Str) (h : dataName s = some (db, path)) :
    dataName (db ++ ':' :: path) = some (db, path) := by
  obtain ⟨rest, names, hp, hr, rfl⟩ := (C46_data_name s db path).1 h
  have hn := runs_tokens hr
  rw [dataName_eq]
  refine ⟨Spec.absolutePath names, ⟨hp.1, hp.2.1, .inr rfl, ?_, ?_⟩, ?_⟩
  · exact fun hm => hp.2.2.2.1 (mem_of_mem_absolute hr '\n' (by decide) hm)
  · exact fun hm => hp.2.2.2.2 (mem_of_mem_absolute hr '\r' (by decide) hm)
  · rw [splitBy_absolute names hn]
where
  mem_of_mem_absolute {rest : Str} {names : List Str} (hr : Spec.Runs (· = '/') rest names)
      (c : Char) (hc : c ≠ '/') (hm : c ∈ Spec.absolutePath names) : c ∈ rest := by
    have hr' := hr
    rw [← slash_pred] at hr'
    have hf := runs_flatten hr'
    rw [Spec.absolutePath] at hm
    split at hm
    · rw [List.mem_singleton] at hm
      exact absurd hm hc
    · rw [List.mem_flatten] at hm
      obtain ⟨l, hl, hcl⟩ := hm
      obtain ⟨t, ht, rfl⟩ := List.mem_map.1 hl
      rcases List.mem_cons.1 hcl with h | h
      · exact absurd h hc
      · have : c ∈ names.flatten := List.mem_flatten.2 ⟨t, ht, h⟩
        rw [hf] at this
        exact (List.mem_filter.1 this).1

example : dataName ("d".toList ++ ':' :: "/b/c".toList) = some ("d".toList, "/b/c".toList) := by
  decide +kernel

/-- The components of the data path are those of what was given. -/
theorem C46_names (s db rest path : Str) (hp : Spec.NameParts s db rest)
    (h : dataName s = some (db, path)) : pathNames path = pathNames rest := by
  obtain ⟨rest', hp', rfl⟩ := (dataName_eq s db path).1 h
  rw [← matchDataName_iff] at hp hp'
  rw [hp] at hp'
  cases hp'
  have e : ∀ r : Str, pathNames r = some (splitBy isSlash r) := by
    intro r
    rw [pathNames, split, if_neg (by simp), if_neg (by decide), inSet_slash]
  rw [e, e, splitBy_absolute]
  have := runs_tokens (splitBy_iff.1 (rfl : splitBy isSlash rest = _))
  simpa only [isSlash, beq_iff_eq] using this

example : Spec.NameParts "d:b//c/".toList "d".toList "b//c/".toList := by
  refine ⟨by decide, by decide, .inr rfl, by decide, by decide⟩

/-- Without a colon, or with nothing (or only slashes) behind it, the data path is the root. -/
theorem C46_root (db slashes : Str) (h1 : db ≠ []) (h2 : ':' ∉ db) (h3 : ∀ c ∈ slashes, c = '/') :
    dataName db = some (db, ['/']) ∧ dataName (db ++ ':' :: slashes) = some (db, ['/']) := by
  constructor
  · rw [C46_data_name]
    exact ⟨[], [], ⟨h1, h2, .inl ⟨rfl, rfl⟩, by simp, by simp⟩, .done [] (by simp), rfl⟩
  · rw [C46_data_name]
    refine ⟨slashes, [], ⟨h1, h2, .inr rfl, ?_, ?_⟩, .done slashes h3, rfl⟩
    · intro h; exact absurd (h3 _ h) (by decide)
    · intro h; exact absurd (h3 _ h) (by decide)

/-- Only the first colon separates: the path may contain colons. -/
theorem C46_colon_in_path :
    dataName "a:b:c".toList = some ("a".toList, "/b:c".toList) := by decide +kernel

/-- A name which is empty or starts with a colon is not accepted: the assertion fails. -/
theorem C46_rejected (s : Str) (h : s = [] ∨ s.head? = some ':') : dataName s = none := by
  cases hd : dataName s with
  | none => rfl
  | some x =>
    obtain ⟨db, path⟩ := x
    obtain ⟨rest, names, hp, -, -⟩ := (C46_data_name s db path).1 hd
    exfalso
    obtain ⟨h1, h2, h3, -⟩ := hp
    cases db with
    | nil => exact h1 rfl
    | cons x db =>
      rcases h with rfl | h
      · rcases h3 with ⟨h3, -⟩ | h3 <;> simp at h3
      · have hx : x = ':' := by
          rcases h3 with ⟨rfl, -⟩ | rfl
          · simpa using h
          · simpa using h
        exact h2 (by simp [hx])

end Fern
