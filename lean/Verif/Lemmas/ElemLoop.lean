import Verif.Lemmas.LocalOps
import Verif.Spec.ElemLoop
namespace Fern

open Spec

variable {γ : Type}

@[simp] theorem assertSame_self (s : Nat × Nat) : assertSame s s = some () := by
  simp [assertSame]

theorem computes_d1 {acts : Nat → Option (List (γ → γ))} {P : Nat → γ → γ → Prop} {n : Nat}
    (h : ActsOk acts P n) {res : List γ} (hs : res.length = n) :
    Computes (some (.d1 n acts)) P res := by
  obtain ⟨out, ho, he⟩ := seq1d_spec h res hs
  refine ⟨out, ho, he, fun t ht o => ?_⟩
  rw [← ho]
  exact par1d_iff h ht res hs o

theorem computes_d2 {acts : Nat → Option (List (γ → γ))} {P : Nat → γ → γ → Prop} {n1 n2 : Nat}
    (h : ActsOk acts P (n1 * n2)) {res : List γ} (hs : res.length = n1 * n2) :
    Computes (some (.d2 n1 n2 n2 acts)) P res := by
  obtain ⟨out, ho, he⟩ := seq2d_spec h res hs
  refine ⟨out, ho, he, fun t ht o => ?_⟩
  rw [← ho]
  exact par2d_iff h ht res hs o

/-- Specification of the body when each element's actions are given by an `if` on a Boolean. -/
theorem actsOk_of {acts : Nat → Option (List (γ → γ))} {P : Nat → γ → γ → Prop} {n : Nat}
    (h : ∀ i < n, ∃ fs, acts i = some fs ∧ ∀ c, P i c (foldActs fs c)) : ActsOk acts P n := h

end Fern
namespace Fern

open Spec

theorem Computes.parallel {γ : Type} {loop : Option (ElemLoop γ)} {P : Nat → γ → γ → Prop}
    {res : List γ} (h : Computes loop P res) : ComputesParallel loop P res := by
  obtain ⟨out, _, he, hp⟩ := h
  exact ⟨out, he, hp⟩

theorem Computes.mono {γ : Type} {loop : Option (ElemLoop γ)} {P Q : Nat → γ → γ → Prop}
    {res : List γ} (h : Computes loop P res) (hPQ : ∀ i c c', P i c c' → Q i c c') :
    Computes loop Q res := by
  obtain ⟨out, hs, ⟨hl, he⟩, hp⟩ := h
  refine ⟨out, hs, ⟨hl, fun i c hc => ?_⟩, hp⟩
  obtain ⟨c', hc', hP⟩ := he i c hc
  exact ⟨c', hc', hPQ i c c' hP⟩

end Fern
