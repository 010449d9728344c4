import Verif.Spec.Netcdf
import Verif.Lemmas.Strings
import Verif.Props.Strings
import Verif.Props.DataName

/-!
# Parts of a text
-/

namespace Fern.Netcdf

open Fern.Spec Fern.Netcdf.Spec

theorem runs_gap {p : Char → Prop} {s g : Str} {ts : List Str} (h : Runs p s ts)
    (hg : ∀ c ∈ g, p c) : Runs p (g ++ s) ts := by
  cases h with
  | done k hk =>
    exact .done _ fun c hc => (List.mem_append.1 hc).elim (hg c) (hk c)
  | run k t rest ts hk ht hf hr h =>
    have := Runs.run (g ++ k) t rest ts (fun c hc => (List.mem_append.1 hc).elim (hg c) (hk c)) ht hf hr h
    simpa using this

theorem runs_append {p : Char → Prop} {a x : Str} {ts us : List Str} (h : Runs p a ts)
    (hx : Runs p x us) (ha : a = [] ∨ ∃ c, a.getLast? = some c ∧ p c) :
    Runs p (a ++ x) (ts ++ us) := by
  induction h with
  | done g hg => exact runs_gap hx hg
  | run g t rest ts hg ht hf hr _ ih =>
    have hne : rest ≠ [] := by
      rintro rfl
      rcases ha with ha | ⟨c, hc, hp⟩
      · simp [ht] at ha
      · rw [List.append_nil, List.getLast?_append_of_ne_nil _ ht] at hc
        exact hf c (List.mem_of_getLast? hc) hp
    have hl : ∃ c, rest.getLast? = some c ∧ p c := by
      rcases ha with ha | ⟨c, hc, hp⟩
      · simp [ht] at ha
      · rw [List.getLast?_append_of_ne_nil _ hne] at hc
        exact ⟨c, hc, hp⟩
    have := Runs.run g t (rest ++ x) (ts ++ us) hg ht hf
      (fun c hc => hr c (by
        cases rest with
        | nil => exact absurd rfl hne
        | cons d rest => exact hc))
      (ih (.inr hl))
    simpa using this

theorem part_of_runs {p : Char → Prop} {s : Str} {ts : List Str} (h : Runs p s ts) (t : Str)
    (ht : t ∈ ts) : Part p s t := by
  refine ⟨(runs_tokens h t ht).1, (runs_tokens h t ht).2, ?_⟩
  induction h with
  | done => simp at ht
  | run g u rest ts hg hu hf hr h ih =>
    rcases List.mem_cons.1 ht with rfl | hm
    · refine ⟨g, rest, rfl, ?_, ?_⟩
      · rcases g.eq_nil_or_concat with rfl | ⟨g', c, rfl⟩
        · exact .inl rfl
        · exact .inr ⟨c, by simp, hg c (by simp)⟩
      · cases rest with
        | nil => exact .inl rfl
        | cons c rest => exact .inr ⟨c, rfl, hr c rfl⟩
    · obtain ⟨a, b, e, ha, hb⟩ := ih hm
      have hk := runs_tokens h t hm
      refine ⟨g ++ u ++ a, b, by rw [e]; simp, .inr ?_, hb⟩
      have hne : a ≠ [] := by
        rintro rfl
        cases t with
        | nil => exact hk.1 rfl
        | cons c t =>
          subst e
          exact hk.2 c (by simp) (hr c (by simp))
      rcases ha with ha | ⟨c, hc, hp⟩
      · exact absurd ha hne
      · exact ⟨c, by rw [List.getLast?_append_of_ne_nil _ hne]; exact hc, hp⟩

theorem mem_splitBy {sep : Char → Bool} {s t : Str} :
    t ∈ splitBy sep s ↔ Part (fun c => sep c = true) s t := by
  constructor
  · exact part_of_runs (splitBy_iff.1 rfl) t
  · rintro ⟨hne, hf, a, b, rfl, ha, hb⟩
    have h1 := splitBy_iff.1 (rfl : splitBy sep a = _)
    have h2 := splitBy_iff.1 (rfl : splitBy sep b = _)
    have h3 : Runs (fun c => sep c = true) (t ++ b) (t :: splitBy sep b) := by
      have := Runs.run (sep := fun c => sep c = true) [] t b (splitBy sep b) (by simp) hne hf
        (fun c hc => by
          rcases hb with rfl | ⟨d, hd, hp⟩
          · simp at hc
          · rw [hc] at hd; cases hd; exact hp) h2
      simpa using this
    have := splitBy_of_runs (runs_append h1 h3 ha)
    rw [List.append_assoc, this]
    simp

theorem split_comma (s : Str) : split s [','] = some (splitBy (inSet [',']) s) := by
  rw [split, if_neg (by simp), if_neg (by decide)]

theorem split_space (s : Str) : split s [] = some (splitBy isSpace s) := by
  rw [split, if_pos (by rfl)]

theorem space_pred : (fun c => isSpace c = true) = Space := by
  funext c; rw [eq_iff_iff, isSpace_iff]; rfl

theorem comma_pred : (fun c => inSet [','] c = true) = (· = ',') := by
  funext c; rw [eq_iff_iff, inSet_iff, List.mem_singleton]

theorem splitsAt_nil : SplitsAt [] = Space := by
  funext c; rw [eq_iff_iff, SplitsAt]; simp [Space]

theorem strip_iff (s r : Str) : strip s [] = r ↔ Stripped Space s r := by
  rw [C48_strip, splitsAt_nil]

/-- The names that are listed. -/
def listed (value : Str) : List Str :=
  if ',' ∈ value then (splitBy (inSet [',']) value).map fun v => strip v []
  else splitBy isSpace value

theorem mem_listed (value name : Str) : name ∈ listed value ↔ Names value name := by
  unfold listed Names
  split
  · rename_i h
    simp only [h, true_and, not_true_eq_false, false_and, or_false, List.mem_map, mem_splitBy, comma_pred,
      strip_iff]
  · rename_i h
    simp only [h, false_and, not_false_eq_true, true_and, false_or, mem_splitBy, space_pred]

theorem conventions_text {α : Type} (d : Dataset α) (value : Str) (h : Conventions d value) :
    conventions d = some (listed value) := by
  obtain ⟨h1, h2⟩ := h
  simp only [conventions, hasAttribute, attributeText, h1, Option.isSome_some, if_true, if_neg h2,
    Option.bind_some, listed, split_comma, split_space, Option.map_some]
  split <;> rfl

theorem conventions_unusable {α : Type} (d : Dataset α) (h : Unusable d) : conventions d = none := by
  obtain ⟨a, h1, h2⟩ := h
  cases a with
  | text value =>
    simp only [conventions, hasAttribute, attributeText, h1, h2 value rfl, Option.isSome_some, if_true,
      Option.bind_none]
  | other =>
    simp only [conventions, hasAttribute, attributeText, h1, Option.isSome_some, if_true, Option.bind_none]

theorem conventions_absent {α : Type} (d : Dataset α) (h : d.attr "Conventions".toList = none) :
    conventions d = some [] := by
  unfold conventions hasAttribute
  rw [h]
  rfl

theorem cases_conventions {α : Type} (d : Dataset α) :
    d.attr "Conventions".toList = none ∨ Unusable d ∨ ∃ value, Conventions d value := by
  cases h : d.attr "Conventions".toList with
  | none => exact .inl rfl
  | some a =>
    refine .inr ?_
    cases a with
    | text value =>
      by_cases hl : value.getLast? = some '\x00'
      · exact .inl ⟨_, h, by intro v hv; cases hv; exact hl⟩
      · exact .inr ⟨value, h, hl⟩
    | other => exact .inl ⟨_, h, by intro v hv; cases hv⟩

theorem conforms_true {α : Type} (d : Dataset α) : conformsToCoards d = some true ↔ Coards d := by
  unfold conformsToCoards
  rcases cases_conventions d with h | h | ⟨value, h⟩
  · rw [conventions_absent d h]
    refine ⟨fun c => by simp at c, ?_⟩
    rintro ⟨v, ⟨h1, -⟩, -⟩
    rw [h] at h1; cases h1
  · rw [conventions_unusable d h]
    refine ⟨fun c => by simp at c, ?_⟩
    rintro ⟨v, ⟨h1, h2⟩, -⟩
    obtain ⟨a, h3, h4⟩ := h
    rw [h1] at h3
    exact absurd (h4 v (Option.some.inj h3).symm) h2
  · rw [conventions_text d value h, Option.map_some, Option.some.injEq, List.contains_iff_mem, mem_listed]
    refine ⟨fun c => ⟨value, h, c⟩, ?_⟩
    rintro ⟨v, ⟨h1, -⟩, h3⟩
    rw [h.1] at h1
    cases h1; exact h3

theorem conforms_none {α : Type} (d : Dataset α) : conformsToCoards d = none ↔ Unusable d := by
  unfold conformsToCoards
  rw [Option.map_eq_none_iff]
  refine ⟨fun c => ?_, conventions_unusable d⟩
  rcases cases_conventions d with h | h | ⟨value, h⟩
  · rw [conventions_absent d h] at c; cases c
  · exact h
  · rw [conventions_text d value h] at c; cases c

end Fern.Netcdf
