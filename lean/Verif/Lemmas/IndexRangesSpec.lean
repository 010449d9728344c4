import Verif.Lemmas.IndexRanges
import Verif.Spec.IndexRanges
namespace Fern
open Spec

/-! Helper facts about the specification. -/

theorem consecutive_append {a b c : Nat} {l l' : List IndexRange}
    (h : Consecutive a b l) (h' : Consecutive b c l') : Consecutive a c (l ++ l') := by
  induction l generalizing a with
  | nil => simp only [Consecutive] at h; subst h; simpa using h'
  | cons r rs ih => exact ⟨h.1, h.2.1, ih h.2.2⟩

theorem consecutive_blocks (bs k : Nat) (h : 0 < bs) :
    Consecutive 0 (k * bs) ((List.range k).map (fun i => ⟨i * bs, (i + 1) * bs⟩)) := by
  induction k with
  | zero => simp [Consecutive]
  | succ k ih =>
    rw [List.range_succ, List.map_append]
    refine consecutive_append ih ?_
    refine ⟨rfl, ?_, rfl⟩
    show k * bs < (k + 1) * bs
    rw [Nat.add_mul]; omega

theorem Spec.Consecutive.le {a b : Nat} {l : List IndexRange} (h : Consecutive a b l) : a ≤ b := by
  induction l generalizing a with
  | nil => exact Nat.le_of_eq h
  | cons r rs ih => have := ih h.2.2; have := h.2.1; omega

theorem Spec.Consecutive.bounds {a b : Nat} {l : List IndexRange} (h : Consecutive a b l)
    (k : Nat) (hk : k < l.length) : a ≤ l[k].b ∧ l[k].b < l[k].e ∧ l[k].e ≤ b := by
  induction l generalizing a k with
  | nil => simp at hk
  | cons r rs ih =>
    obtain ⟨h1, h2, h3⟩ := h
    cases k with
    | zero =>
      simp only [List.getElem_cons_zero]
      exact ⟨by omega, by omega, h3.le⟩
    | succ k =>
      have := ih h3 k (by simpa using hk)
      simp only [List.getElem_cons_succ]
      omega

theorem Spec.Consecutive.exactCover {a b : Nat} {l : List IndexRange} (h : Consecutive a b l) :
    (∀ i, a ≤ i → i < b → ∃ k, ∃ h : k < l.length, InRange i l[k] ∧
      ∀ k', ∀ h' : k' < l.length, InRange i l[k'] → k' = k) := by
  induction l generalizing a with
  | nil => simp only [Consecutive] at h; intro i h1 h2; omega
  | cons r rs ih =>
    obtain ⟨h1, h2, h3⟩ := h
    intro i hi hib
    by_cases hr : i < r.e
    · refine ⟨0, by simp, ⟨by simp; omega, by simpa using hr⟩, ?_⟩
      intro k' hk' hin
      cases k' with
      | zero => rfl
      | succ k' =>
        have := h3.bounds k' (by simpa using hk')
        simp only [List.getElem_cons_succ, InRange] at hin
        omega
    · obtain ⟨k, hk, hin, huniq⟩ := ih h3 i (by omega) hib
      refine ⟨k + 1, by simpa using hk, by simpa using hin, ?_⟩
      intro k' hk' hin'
      cases k' with
      | zero => simp only [List.getElem_cons_zero, InRange] at hin'; omega
      | succ k' =>
        simp only [List.getElem_cons_succ] at hin'
        rw [huniq k' (by simpa using hk') hin']

theorem indexRanges_consecutive {t : Nat} (ht : 1 ≤ t) (n : Nat) :
    ∃ l, indexRanges t n = some l ∧ Consecutive 0 n l := by
  refine ⟨_, indexRanges_eq (by omega) n, ?_⟩
  have hle := nrFull_mul_le t n
  have hfull : Consecutive 0 (nrFull t n * (n / t))
      ((List.range (nrFull t n)).map (fun i => ⟨i * (n / t), (i + 1) * (n / t)⟩)) := by
    by_cases h : 0 < n / t
    · exact consecutive_blocks _ _ h
    · simp [nrFull, h, Consecutive]
  refine consecutive_append hfull ?_
  split
  · exact ⟨rfl, by show nrFull t n * (n / t) < n; omega, rfl⟩
  · show nrFull t n * (n / t) = n; omega

/-- Number of ranges. -/
theorem indexRanges_length {t n : Nat} {l : List IndexRange} (ht : 1 ≤ t)
    (h : indexRanges t n = some l) :
    l.length = nrFull t n + if 0 < n - nrFull t n * (n / t) then 1 else 0 := by
  rw [indexRanges_eq (by omega)] at h
  have h := (Option.some.inj h).symm
  subst h
  split <;> simp

theorem nrFull_eq {t n : Nat} (hq : 0 < n / t) :
    nrFull t n = t + (n % t) / (n / t) := by
  unfold nrFull
  rw [if_pos hq]
  have hn : n = n % t + t * (n / t) := by rw [Nat.mod_add_div]
  conv => lhs; arg 1; rw [hn]
  rw [Nat.add_mul_div_right _ _ hq, Nat.add_comm]

theorem remainder_eq {t n : Nat} (hq : 0 < n / t) :
    n - nrFull t n * (n / t) = (n % t) % (n / t) := by
  rw [nrFull_eq hq, Nat.add_mul]
  have hn : n = n % t + t * (n / t) := by rw [Nat.mod_add_div]
  have hr := Nat.mod_add_div (n % t) (n / t)
  have : n % t / (n / t) * (n / t) = n / t * (n % t / (n / t)) := Nat.mul_comm _ _
  omega


end Fern
