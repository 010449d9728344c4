import Verif.Lemmas.ElemLoop
import Verif.Model.Select
import Verif.Spec.Select
namespace Fern

open Spec

variable {R V V1 V2 γ : Type}

theorem actsOk_intro {acts : Nat → Option (List (γ → γ))} {P : Nat → γ → γ → Prop} {n : Nat}
    (h : ∀ i < n, (acts i).isSome = true ∧ ∀ fs, acts i = some fs → ∀ c, P i c (foldActs fs c)) :
    ActsOk acts P n := by
  intro i hi
  obtain ⟨h1, h2⟩ := h i hi
  obtain ⟨fs, hfs⟩ := Option.isSome_iff_exists.mp h1
  exact ⟨fs, hfs, h2 fs hfs⟩

/-- What the model knows about an array argument at position `i`. -/
theorem array_at {p : InPolicy V} {l : List V} {n i : Nat} (h : (Arg.array l).Fits p n)
    (hi : i < n) : ∃ b v, p.isNoData l i = some b ∧ l[i]? = some v ∧
      (Arg.NoData p (.array l) i ↔ b = true) ∧ ∀ w, Arg.HasAt (.array l) i w ↔ w = v := by
  obtain ⟨hl, hp⟩ := h
  obtain ⟨b, hb, hnd⟩ := isNoData_spec hp hl hi
  have hil : i < l.length := by omega
  refine ⟨b, l[i], hb, by simp [hil], hnd.symm, fun w => ?_⟩
  simp [Arg.HasAt, hil, eq_comm]

theorem scalar_at {p : InPolicy V} {v : V} {n : Nat} (h : (Arg.scalar v).Fits p n) :
    ∃ b, p.isNoData0 v = some b ∧ ∀ i, (Arg.NoData p (.scalar v) i ↔ b = true) ∧
      ∀ w, Arg.HasAt (.scalar v) i w ↔ w = v := by
  obtain ⟨b, hb, hnd⟩ := isNoData0_spec (v := v) h
  exact ⟨b, hb, fun i => ⟨hnd.symm, fun w => Iff.rfl⟩⟩

theorem become_store (v : R) (c : Cell R) : Becomes v c (storeAct v c) := ⟨rfl, rfl⟩

end Fern
