import Verif.Spec.Drivers
import Verif.Props.FernDataset
import Verif.Props.DataName
import Mathlib.Data.List.Basic

namespace Fern
open Spec

variable {W : Type}

theorem driver_lookup_of_mem {drivers : List (Str × Driver W)} (h : (drivers.map Prod.fst).Nodup) {k : Str}
    {d : Driver W} (hm : (k, d) ∈ drivers) : drivers.lookup k = some d := by
  induction drivers with
  | nil => simp at hm
  | cons x xs ih =>
    rw [List.map_cons, List.nodup_cons] at h
    rcases List.mem_cons.1 hm with rfl | hm
    · simp [List.lookup]
    · have : k ≠ x.1 := by
        rintro rfl
        exact h.1 (List.mem_map.2 ⟨_, hm, rfl⟩)
      rw [show x = (x.1, x.2) from rfl, List.lookup_cons, beq_false_of_ne this]
      exact ih h.2 ‹_›

theorem driver_lookup_none {drivers : List (Str × Driver W)} {k : Str} (h : k ∉ drivers.map Prod.fst) :
    drivers.lookup k = none := by
  induction drivers with
  | nil => rfl
  | cons x xs ih =>
    obtain ⟨a, b⟩ := x
    rw [List.map_cons, List.mem_cons, not_or] at h
    rw [List.lookup_cons, beq_false_of_ne h.1]
    exact ih h.2

theorem driver_mem_of_lookup {drivers : List (Str × Driver W)} {k : Str} {d : Driver W}
    (h : drivers.lookup k = some d) : (k, d) ∈ drivers := by
  induction drivers with
  | nil => simp at h
  | cons x xs ih =>
    obtain ⟨a, b⟩ := x
    rw [List.lookup_cons] at h
    by_cases e : k = a
    · subst e
      simp at h
      simp [h]
    · rw [beq_false_of_ne e] at h
      exact List.mem_cons_of_mem _ (ih h)

theorem attempts_perm {drivers : List (Str × Driver W)} (h : Registered drivers) :
    ((drivers.lookup fernName).toList ++
      (drivers.map Prod.snd).filter fun d => decide (d.name ≠ fernName)).Perm (drivers.map Prod.snd) := by
  induction drivers with
  | nil => simp
  | cons x xs ih =>
    obtain ⟨k, d⟩ := x
    have h' : Registered xs := ⟨by have := h.once; rw [List.map_cons, List.nodup_cons] at this; exact this.2,
      fun k d hm => h.byName k d (List.mem_cons_of_mem _ hm)⟩
    have hk := h.byName k d (by simp)
    by_cases e : k = fernName
    · subst e
      have h1 : ∀ y ∈ xs.map Prod.snd, decide (y.name ≠ fernName) = true := by
        intro y hy
        obtain ⟨⟨k', d'⟩, hm, rfl⟩ := List.mem_map.1 hy
        rw [decide_eq_true_iff]
        intro hn
        have h2 := h'.byName k' d' hm
        have h3 := h.once
        rw [List.map_cons, List.nodup_cons] at h3
        refine h3.1 ?_
        rw [show fernName = k' by rw [← h2, ← hn]]
        exact List.mem_map.2 ⟨_, hm, rfl⟩
      rw [List.map_cons, List.filter_cons_of_neg (by simp [hk]), List.filter_eq_self.2 h1]
      simp [List.lookup]
    · rw [List.map_cons, List.filter_cons_of_pos (by simp [hk, e]), List.lookup_cons,
        beq_false_of_ne (Ne.symm e)]
      exact List.perm_middle.trans ((ih h').cons d)

theorem openLoop_first {ds : List (Driver W)} {name : Str} {mode : OpenMode} {w : W}
    (hh : ∀ d ∈ ds, Harmless mode d) {d : Driver W} (hf : FirstToOpen ds name mode w d) :
    openLoop name mode ds w = d.openIt name mode w := by
  obtain ⟨before, after, rfl, h1, h2⟩ := hf
  induction before with
  | nil =>
    rw [List.nil_append, openLoop, if_pos (show _ = true from h2), hh d (by simp)]
  | cons e before ih =>
    rw [List.cons_append, openLoop, if_neg (show ¬ _ = true from h1 e (by simp)), hh e (by simp)]
    exact ih (fun d hd => hh d (by simp at hd ⊢; tauto)) (fun e he => h1 e (by simp [he]))

theorem openLoop_none {ds : List (Driver W)} {name : Str} {mode : OpenMode} {w : W}
    (hh : ∀ d ∈ ds, Harmless mode d) (hn : ∀ d ∈ ds, ¬ CanOpen d name mode w) :
    openLoop name mode ds w = (.error ⟨name, refusal mode⟩, w) := by
  induction ds with
  | nil => cases mode <;> rfl
  | cons e ds ih =>
    rw [openLoop, if_neg (show ¬ _ = true from hn e (by simp)), hh e (by simp)]
    exact ih (fun d hd => hh d (by simp [hd])) (fun e he => hn e (by simp [he]))

theorem existsLoop_eq {ds : List (Driver W)} {name : Str} {mode : OpenMode} {w : W}
    (hh : ∀ d ∈ ds, Harmless mode d) :
    (existsLoop name mode ds w).2 = w ∧
      ((existsLoop name mode ds w).1 = true ↔ ∃ d ∈ ds, CanOpen d name mode w) := by
  induction ds with
  | nil => simp [existsLoop]
  | cons e ds ih =>
    rw [existsLoop, hh e (by simp)]
    have ih := ih (fun d hd => hh d (by simp [hd]))
    by_cases h1 : CanOpen e name mode w
    · rw [if_pos (show _ = true from h1)]
      simp [h1]
    · rw [if_neg (show ¬ _ = true from h1)]
      simp only [List.mem_cons, exists_eq_or_imp, h1, false_or]
      exact ih

theorem exists_first {ds : List (Driver W)} {name : Str} {mode : OpenMode} {w : W}
    (h : ∃ d ∈ ds, CanOpen d name mode w) : ∃ d, FirstToOpen ds name mode w d := by
  induction ds with
  | nil => simp at h
  | cons e ds ih =>
    by_cases h1 : CanOpen e name mode w
    · exact ⟨e, [], ds, rfl, by simp, h1⟩
    · obtain ⟨d, hd, h2⟩ := h
      rcases List.mem_cons.1 hd with rfl | hd
      · exact absurd h2 h1
      · obtain ⟨d, b, a, rfl, h3, h4⟩ := ih ⟨d, hd, h2⟩
        refine ⟨d, e :: b, a, rfl, ?_, h4⟩
        intro x hx
        rcases List.mem_cons.1 hx with rfl | hx
        · exact h1
        · exact h3 x hx

end Fern
