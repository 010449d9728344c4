import Verif.Spec.Handles

/-!
# The invariant of handles
-/

namespace Fern.Handles

/-- What holds between the operations of a program without defaulted moves. -/
structure Inv (w : World) : Prop where
  bad : w.bad = 0
  valid : ∀ x id, w.object x = some id → id ≠ 0 → w.lib id ≠ none
  inj : ∀ x y id, w.object x = some id → w.object y = some id → id ≠ 0 → x = y
  pos : ∀ id r, w.lib id = some r → id ≠ 0
  owned : ∀ id r, w.lib id = some r → ∃ x, w.object x = some id
  libInj : ∀ id id' r, w.lib id = some r → w.lib id' = some r → id = id'
  bound : ∀ id r, w.lib id = some r → r < w.opened
  closedBound : ∀ r, r ∈ w.closed → r < w.opened
  nodup : w.closed.Nodup
  apart : ∀ id r, w.lib id = some r → r ∉ w.closed
  known : ∀ r, r < w.opened → r ∈ w.closed ∨ ∃ id, w.lib id = some r

theorem Inv.initial : Inv World.initial := by
  constructor <;> simp [World.initial]

theorem close_object (w : World) (i : Nat) : (w.close i).object = w.object := by
  unfold World.close; split <;> rfl

theorem release_object (style : Style) (w : World) (i : Nat) :
    (w.release style i).object = w.object := by
  unfold World.release
  split
  · split
    · exact close_object w i
    · rfl
  · exact close_object w i

theorem close_open (w : World) (i r : Nat) (h : w.lib i = some r) :
    w.close i = { w with lib := Function.update w.lib i none, closed := r :: w.closed } := by
  unfold World.close; rw [h]

/-- An object with something goes, and what it had is closed. -/
theorem Inv.closing {w : World} (hw : Inv w) (x i : Nat) (hx : w.object x = some i) (hi : i ≠ 0) :
    Inv { w.close i with object := Function.update w.object x none } := by
  obtain ⟨r, hr⟩ := Option.ne_none_iff_exists'.1 (hw.valid x i hx hi)
  rw [close_open w i r hr]
  obtain ⟨h1, h2, h3, h4, h5, h6, h7, h8, h9, h10, h11⟩ := hw
  constructor
  · exact h1
  · intro y id; simp only [Function.update_apply]; grind
  · intro y z id; simp only [Function.update_apply]; grind
  · intro id s; simp only [Function.update_apply]; grind
  · intro id s; simp only [Function.update_apply]; grind
  · intro id id' s; simp only [Function.update_apply]; grind
  · intro id s; simp only [Function.update_apply]; grind
  · intro s; grind
  · grind
  · intro id s; simp only [Function.update_apply]; grind
  · intro s hs
    simp only [Function.update_apply]
    rcases h11 s hs with h | ⟨id, h⟩
    · exact .inl (List.mem_cons_of_mem _ h)
    · by_cases e : id = i
      · subst e; rw [hr] at h; exact .inl (by simp [Option.some.inj h])
      · exact .inr ⟨id, by rw [if_neg e]; exact h⟩

/-- An object without anything goes. -/
theorem Inv.emptyGoes {w : World} (hw : Inv w) (x : Nat) (hx : w.object x = some 0) :
    Inv { w with object := Function.update w.object x none } := by
  obtain ⟨h1, h2, h3, h4, h5, h6, h7, h8, h9, h10, h11⟩ := hw
  refine ⟨h1, ?_, ?_, h4, ?_, h6, h7, h8, h9, h10, h11⟩
  · intro y id; simp only [Function.update_apply]; grind
  · intro y z id; simp only [Function.update_apply]; grind
  · intro id s; simp only [Function.update_apply]; grind

/-- An empty object comes. -/
theorem Inv.emptyComes {w : World} (hw : Inv w) (x : Nat) (hx : w.object x = none) :
    Inv { w with object := Function.update w.object x (some 0) } := by
  obtain ⟨h1, h2, h3, h4, h5, h6, h7, h8, h9, h10, h11⟩ := hw
  refine ⟨h1, ?_, ?_, h4, ?_, h6, h7, h8, h9, h10, h11⟩
  · intro y id; simp only [Function.update_apply]; grind
  · intro y z id; simp only [Function.update_apply]; grind
  · intro id s; simp only [Function.update_apply]; grind

/-- An object that does not exist takes over from one that does. -/
theorem Inv.takes {w : World} (hw : Inv w) (x y j : Nat) (hx : w.object x = none)
    (hy : w.object y = some j) :
    Inv { w with object := Function.update (Function.update w.object x (some j)) y (some 0) } := by
  have hxy : x ≠ y := by rintro rfl; rw [hx] at hy; cases hy
  obtain ⟨h1, h2, h3, h4, h5, h6, h7, h8, h9, h10, h11⟩ := hw
  refine ⟨h1, ?_, ?_, h4, ?_, h6, h7, h8, h9, h10, h11⟩
  · intro z id; simp only [Function.update_apply]; grind
  · intro z z' id; simp only [Function.update_apply]; grind
  · intro id s hs
    obtain ⟨z, hz⟩ := h5 id s hs
    have := h4 id s hs
    by_cases e : z = y
    · refine ⟨x, ?_⟩; simp only [Function.update_apply]; grind
    · refine ⟨z, ?_⟩; simp only [Function.update_apply]; grind

/-- Something is opened. -/
theorem Inv.creates {w : World} (hw : Inv w) (x id : Nat) (hx : w.object x = none) (hi : 0 < id)
    (hl : w.lib id = none) :
    Inv { w with
      lib := Function.update w.lib id (some w.opened), opened := w.opened + 1,
      object := Function.update w.object x (some id) } := by
  obtain ⟨h1, h2, h3, h4, h5, h6, h7, h8, h9, h10, h11⟩ := hw
  constructor
  · exact h1
  · intro y i; simp only [Function.update_apply]; grind
  · intro y z i; simp only [Function.update_apply]; grind
  · intro i s; simp only [Function.update_apply]; grind
  · intro i s hs
    simp only [Function.update_apply] at hs ⊢
    by_cases e : i = id
    · exact ⟨x, by simp [e]⟩
    · rw [if_neg e] at hs
      obtain ⟨z, hz⟩ := h5 i s hs
      exact ⟨z, by grind⟩
  · intro i i' s; simp only [Function.update_apply]; grind
  · intro i s; simp only [Function.update_apply]; grind
  · intro s hs; have := h8 s hs; simp; omega
  · exact h9
  · intro i s; simp only [Function.update_apply]; grind
  · intro s hs
    simp only [Function.update_apply] at hs ⊢
    by_cases e : s = w.opened
    · exact .inr ⟨id, by simp [e]⟩
    · rcases h11 s (by omega) with h | ⟨i, h⟩
      · exact .inl h
      · exact .inr ⟨i, by grind⟩

theorem Inv.destroys {w : World} (hw : Inv w) (style : Style) (x i : Nat) (hx : w.object x = some i)
    (hi : style = .emptied ∨ i ≠ 0) :
    Inv { w.release style i with object := Function.update w.object x none } := by
  by_cases e : i = 0
  · subst e
    rcases hi with rfl | h
    · simp only [World.release, Nat.lt_irrefl, if_false]; exact hw.emptyGoes x hx
    · exact absurd rfl h
  · have : w.release style i = w.close i := by
      cases style
      · simp [World.release, Nat.pos_of_ne_zero e]
      · rfl
    rw [this]; exact hw.closing x i hx e

theorem Inv.step {w v : World} (hw : Inv w) (o : Op) (h : step .emptied w o = some v) : Inv v := by
  cases o with
  | create x id =>
    simp only [Handles.step] at h
    split at h
    · rename_i c; cases h; exact hw.creates x id c.1 c.2.1 c.2.2
    · cases h
  | empty x =>
    simp only [Handles.step] at h
    split at h
    · rename_i c; cases h; exact hw.emptyComes x c.1
    · cases h
  | moveNew x y =>
    simp only [Handles.step] at h
    split at h
    · rename_i j hx hy; cases h; exact hw.takes x y j hx hy
    · cases h
  | moveTo x y =>
    simp only [Handles.step] at h
    split at h
    · rename_i i j hx hy
      cases h
      have hd := hw.destroys .emptied x i hx (.inl rfl)
      by_cases e : x = y
      · subst e
        have := hd.emptyComes x (by simp)
        simpa [release_object] using this
      · have := hd.takes x y j (by simp) (by simp [Function.update_apply, Ne.symm e, hy])
        simpa [release_object] using this
    · cases h
  | destroy x =>
    simp only [Handles.step] at h
    split at h
    · rename_i i hx
      cases h
      have := hw.destroys .emptied x i hx (.inl rfl)
      rwa [release_object]
    · cases h

theorem Inv.run {w v : World} (hw : Inv w) (ops : List Op) (h : run .emptied w ops = some v) :
    Inv v := by
  induction ops generalizing w with
  | nil => cases h; exact hw
  | cons o os ih =>
    simp only [Handles.run, Option.bind_eq_some_iff] at h
    obtain ⟨u, hu, h⟩ := h
    exact ih (hw.step o hu) h

open Spec in
theorem Inv.toOwned {w : World} (hw : Inv w) : Owned w := by
  refine ⟨hw.nodup, fun r => ⟨hw.known r, ?_⟩, ?_, ?_, ?_, hw.bad⟩
  · rintro (h | ⟨id, h⟩)
    · exact hw.closedBound r h
    · exact hw.bound id r h
  · rintro r hr ⟨id, h⟩; exact hw.apart id r h hr
  · rintro r ⟨id, h⟩
    obtain ⟨x, hx⟩ := hw.owned id r h
    refine ⟨x, by simp [access, hx, h], fun y hy => ?_⟩
    simp only [access, Option.bind_eq_some_iff] at hy
    obtain ⟨id', h1, h2⟩ := hy
    have := hw.libInj id' id r h2 h
    subst this
    exact hw.inj y x id' h1 hx (hw.pos id' r h)
  · intro x id hx h; simpa [access, hx] using hw.valid x id hx h

end Fern.Handles
