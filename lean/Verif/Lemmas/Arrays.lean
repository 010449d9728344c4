import Verif.Model.Arrays
import Verif.Lemmas.Loop
import Mathlib.Tactic.Common
/-!
Lemmas about arrays and masks.
-/
namespace Fern

variable {T : Type}

theorem setMaskLoop_spec (test : Nat → Option Bool) (k i : Nat) (mask : List Bool)
    (hlen : i + k ≤ mask.length) (ht : ∀ j, i ≤ j → j < i + k → test j ≠ none) :
    ∃ out, MaskedArray.setMaskLoop test k i mask = some out ∧ out.length = mask.length ∧
      ∀ j, out[j]? = some true ↔
        mask[j]? = some true ∨ (i ≤ j ∧ j < i + k ∧ test j = some true) := by
  induction k generalizing i mask with
  | zero => exact ⟨mask, rfl, rfl, fun j => by constructor <;> [(intro h; exact .inl h); skip]
                                               rintro (h | h); exacts [h, absurd h (by omega)]⟩
  | succ k ih =>
    rw [MaskedArray.setMaskLoop]
    cases hti : test i with
    | none => exact absurd hti (ht i (by omega) (by omega))
    | some b =>
      rw [Option.bind_eq_bind, Option.bind_some]
      cases b with
      | false =>
        obtain ⟨out, h1, h2, h3⟩ := ih (i + 1) mask (by omega) (fun j a b => ht j (by omega) (by omega))
        refine ⟨out, by simpa using h1, h2, fun j => ?_⟩
        rw [h3]
        by_cases hj : j = i
        · subst hj
          rw [hti]
          simp
        · constructor
          · rintro (h | ⟨a, b, c⟩)
            · exact .inl h
            · exact .inr ⟨by omega, by omega, c⟩
          · rintro (h | ⟨a, b, c⟩)
            · exact .inl h
            · exact .inr ⟨by omega, by omega, c⟩
      | true =>
        have hil : i < mask.length := by omega
        obtain ⟨out, h1, h2, h3⟩ := ih (i + 1) (mask.modify i fun _ => true)
          (by rw [List.length_modify]; omega) (fun j a b => ht j (by omega) (by omega))
        refine ⟨out, ?_, by rw [h2, List.length_modify], fun j => ?_⟩
        · rw [if_pos rfl, modifyAt, if_pos hil]
          exact h1
        · rw [h3, List.getElem?_modify]
          by_cases hj : j = i
          · subst hj
            simp [hti, hil]
          · have hij : ¬ i = j := fun h => hj h.symm
            simp only [hij, if_false, id_map']
            constructor
            · rintro (h | ⟨a, b, c⟩)
              · exact .inl (by simpa using h)
              · exact .inr ⟨by omega, by omega, c⟩
            · rintro (h | ⟨a, b, c⟩)
              · exact .inl (by simpa using h)
              · exact .inr ⟨by omega, by omega, c⟩

theorem writeValues_spec (vs : List T) (k : Nat) (data : List T) :
    (k + vs.length ≤ data.length →
      writeValues k vs data = some (data.take k ++ vs ++ data.drop (k + vs.length))) ∧
    (vs ≠ [] → data.length < k + vs.length → writeValues k vs data = none) := by
  induction vs generalizing k data with
  | nil => exact ⟨fun _ => by simp [writeValues], fun h => absurd rfl h⟩
  | cons v vs ih =>
    rw [writeValues]
    constructor
    · intro h
      rw [List.length_cons] at h
      rw [modifyAt, if_pos (by omega), Option.bind_eq_bind, Option.bind_some,
        (ih (k + 1) _).1 (by rw [List.length_modify]; omega)]
      congr 1
      refine List.ext_getElem? fun i => ?_
      simp only [List.getElem?_append, List.length_append, List.length_take, List.length_modify,
        List.length_cons, List.getElem?_take, List.getElem?_drop, List.getElem?_modify,
        List.getElem?_cons]
      rcases Nat.lt_trichotomy i k with h' | h' | h'
      · simp [show i < min (k + 1) data.length + vs.length from by omega,
          show i < min (k + 1) data.length from by omega, show i < k + 1 from by omega,
          show i < min k data.length + (vs.length + 1) from by omega,
          show i < min k data.length from by omega, h', show k ≠ i from by omega]
      · subst h'
        simp [show i < min (i + 1) data.length + vs.length from by omega,
          show i < min (i + 1) data.length from by omega,
          show i < min i data.length + (vs.length + 1) from by omega,
          show ¬ i < min i data.length from by omega, show min i data.length = i from by omega,
          List.getElem?_eq_getElem (show i < data.length by omega)]
      · have e1 : min (k + 1) data.length = k + 1 := by omega
        have e2 : min k data.length = k := by omega
        rw [e1, e2]
        by_cases hi : i < k + 1 + vs.length
        · simp only [hi, if_true, show ¬ i < k + 1 from by omega, if_false,
            show i < k + (vs.length + 1) from by omega, show ¬ i < k from by omega,
            show ¬ i - k = 0 from by omega]
          congr 1
        · simp only [hi, if_false, show ¬ i < k + (vs.length + 1) from by omega]
          simp only [show ¬ k = k + 1 + vs.length + (i - (k + 1 + vs.length)) from by omega, if_false,
            id_map']
          congr 1
          omega
    · intro _ h
      rw [List.length_cons] at h
      by_cases hk : k < data.length
      · rw [modifyAt, if_pos hk, Option.bind_eq_bind, Option.bind_some]
        refine (ih (k + 1) _).2 ?_ (by rw [List.length_modify]; omega)
        rintro rfl
        simp at h
        omega
      · rw [modifyAt, if_neg hk]
        rfl

end Fern
