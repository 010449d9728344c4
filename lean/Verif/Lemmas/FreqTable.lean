import Verif.Lemmas.Accumulators
/-
Frequency tables.
-/
namespace Fern

open Spec IntTy

namespace FreqTable

/-- Frequency of `w`. -/
def freq (w : Int) : FreqTable → Nat
  | [] => 0
  | (v, n) :: t => (if v = w then n else 0) + freq w t

theorem freq_bump (v w : Int) (n : Nat) (t : FreqTable) :
    freq w (t.bump v n) = freq w t + if v = w then n else 0 := by
  induction t with
  | nil => simp [bump, freq]
  | cons p t ih =>
    obtain ⟨u, k⟩ := p
    simp only [bump]
    by_cases h : u = v
    · subst h
      simp only [if_true, freq]
      split <;> omega
    · simp only [h, if_false, freq, ih]
      omega

theorem keys_bump (v w : Int) (n : Nat) (t : FreqTable) :
    w ∈ (t.bump v n).map Prod.fst ↔ w = v ∨ w ∈ t.map Prod.fst := by
  induction t with
  | nil => simp [bump]
  | cons p t ih =>
    obtain ⟨u, k⟩ := p
    simp only [bump]
    by_cases h : u = v
    · subst h; simp
    · simp only [h, if_false, List.map_cons, List.mem_cons, ih]
      tauto

theorem nodup_bump (v : Int) (n : Nat) (t : FreqTable) (h : (t.map Prod.fst).Nodup) :
    ((t.bump v n).map Prod.fst).Nodup := by
  induction t with
  | nil => simp [bump]
  | cons p t ih =>
    obtain ⟨u, k⟩ := p
    simp only [List.map_cons, List.nodup_cons] at h
    simp only [bump]
    by_cases hu : u = v
    · simpa [hu] using h
    · simp only [hu, if_false, List.map_cons, List.nodup_cons, keys_bump, not_or]
      exact ⟨⟨not_false, h.1⟩, ih h.2⟩

theorem pos_bump (v : Int) (n : Nat) (hn : 0 < n) (t : FreqTable) (h : ∀ p ∈ t, 0 < p.2) :
    ∀ p ∈ t.bump v n, 0 < p.2 := by
  induction t with
  | nil => simpa [bump] using hn
  | cons q t ih =>
    obtain ⟨u, k⟩ := q
    have ih := ih (fun p hp => h p (by simp [hp]))
    simp only [bump]
    intro p hp
    split at hp
    · rcases List.mem_cons.1 hp with rfl | hp
      · simp; omega
      · exact h p (by simp [hp])
    · rcases List.mem_cons.1 hp with rfl | hp
      · exact h _ (by simp)
      · exact ih p hp

theorem freq_perm {t t' : FreqTable} (h : List.Perm t t') (w : Int) : freq w t = freq w t' := by
  induction h with
  | nil => rfl
  | cons p _ ih => obtain ⟨v, n⟩ := p; simp [freq, ih]
  | swap p q t => obtain ⟨v, n⟩ := p; obtain ⟨u, k⟩ := q; simp only [freq]; omega
  | trans _ _ h1 h2 => rw [h1, h2]

theorem freq_of_not_mem {t : FreqTable} {w : Int} (h : w ∉ t.map Prod.fst) : freq w t = 0 := by
  induction t with
  | nil => rfl
  | cons p t ih =>
    obtain ⟨v, n⟩ := p
    simp only [List.map_cons, List.mem_cons, not_or] at h
    simp only [freq, ih h.2, Nat.add_zero, ite_eq_right_iff]
    intro e; exact absurd e.symm h.1

theorem freq_of_mem {t : FreqTable} (h : (t.map Prod.fst).Nodup) {p : Int × Nat} (hp : p ∈ t) :
    freq p.1 t = p.2 := by
  induction t with
  | nil => simp at hp
  | cons q t ih =>
    obtain ⟨v, n⟩ := q
    simp only [List.map_cons, List.nodup_cons] at h
    rcases List.mem_cons.1 hp with rfl | hp
    · simp [freq, freq_of_not_mem h.1]
    · have hne : v ≠ p.1 := fun e => h.1 (e ▸ List.mem_map_of_mem hp)
      simp [freq, hne, ih h.2 hp]

/-- The table contains the frequencies of the values. -/
structure Of (t : FreqTable) (vs : List Int) : Prop where
  nodup : (t.map Prod.fst).Nodup
  pos : ∀ p ∈ t, 0 < p.2
  freq : ∀ w, FreqTable.freq w t = vs.count w

theorem Of.bump {t : FreqTable} {vs : List Int} (h : t.Of vs) (v : Int) :
    (t.bump v 1).Of (vs ++ [v]) where
  nodup := nodup_bump v 1 t h.nodup
  pos := pos_bump v 1 Nat.one_pos t h.pos
  freq w := by
    rw [freq_bump, h.freq, List.count_append, List.count_singleton]
    simp

theorem Of.foldl {t : FreqTable} {vs : List Int} (h : t.Of vs) (ws : List Int) :
    FreqTable.Of (ws.foldl (fun t v => t.bump v 1) t) (vs ++ ws) := by
  induction ws generalizing t vs with
  | nil => simpa using h
  | cons w ws ih => simpa using ih (h.bump w)

theorem of_value (v : Int) : (modeOfValue v).Of [v] where
  nodup := by simp [modeOfValue]
  pos := by simp [modeOfValue]
  freq w := by simp [modeOfValue, FreqTable.freq, List.count_singleton]

theorem Of.merge {order : FreqTable → FreqTable} (ho : ∀ t, List.Perm (order t) t) {t t' : FreqTable}
    {vs vs' : List Int} (h : t.Of vs) (h' : t'.Of vs') :
    (FreqTable.merge order t t').Of (vs ++ vs') := by
  have key : ∀ (l t : FreqTable), (t.map Prod.fst).Nodup → (∀ p ∈ t, 0 < p.2) → (∀ p ∈ l, 0 < p.2) →
      let s := l.foldl (fun t p => FreqTable.bump p.1 p.2 t) t
      (s.map Prod.fst).Nodup ∧ (∀ p ∈ s, 0 < p.2) ∧ ∀ w, FreqTable.freq w s =
        FreqTable.freq w t + FreqTable.freq w l := by
    intro l
    induction l with
    | nil => intro t h1 h2 _; exact ⟨h1, h2, by simp [FreqTable.freq]⟩
    | cons p l ih =>
      intro t h1 h2 h3
      obtain ⟨g1, g2, g3⟩ := ih (t.bump p.1 p.2) (nodup_bump _ _ _ h1)
        (pos_bump _ _ (h3 p (by simp)) _ h2) (fun q hq => h3 q (by simp [hq]))
      refine ⟨g1, g2, fun w => ?_⟩
      simp only [List.foldl_cons]
      rw [g3, freq_bump]
      simp only [FreqTable.freq]
      omega
  obtain ⟨g1, g2, g3⟩ := key (order t') t h.nodup h.pos
    (fun p hp => h'.pos p ((ho t').mem_iff.1 hp))
  exact ⟨g1, g2, fun w => by
    rw [FreqTable.merge, g3, freq_perm (ho t'), h.freq, h'.freq, List.count_append]⟩

theorem maxElement_spec {t : FreqTable} (h : t ≠ []) :
    ∃ p, maxElement t = some p ∧ p ∈ t ∧ ∀ q ∈ t, q.2 ≤ p.2 := by
  obtain ⟨p, t, rfl⟩ := List.exists_cons_of_ne_nil h
  refine ⟨_, rfl, ?_⟩
  clear h
  induction t generalizing p with
  | nil => simp
  | cons q t ih =>
    simp only [List.foldl_cons]
    obtain ⟨h1, h2⟩ := ih (if p.2 < q.2 then q else p)
    constructor
    · rcases List.mem_cons.1 h1 with h | h
      · rw [h]; split <;> simp
      · simp [h]
    · intro u hu
      have h3 := h2 (if p.2 < q.2 then q else p) (by simp)
      rcases List.mem_cons.1 hu with rfl | hu
      · refine le_trans ?_ h3
        split <;> omega
      · rcases List.mem_cons.1 hu with rfl | hu
        · refine le_trans ?_ h3
          split <;> omega
        · exact h2 u (by simp [hu])

/-- The most frequent entry is a mode. -/
theorem Of.mode {order : FreqTable → FreqTable} (ho : ∀ t, List.Perm (order t) t) {t : FreqTable}
    {vs : List Int} (h : t.Of vs) (hvs : vs ≠ []) :
    ∃ p, maxElement (order t) = some p ∧ IsMode vs p.1 := by
  obtain ⟨v, vs', rfl⟩ := List.exists_cons_of_ne_nil hvs
  have hne : order t ≠ [] := by
    intro e
    have h1 := h.freq v
    have h2 := (freq_perm (ho t) v).symm
    rw [e] at h2
    simp [FreqTable.freq] at h2
    rw [h2, List.count_cons_self] at h1
    omega
  obtain ⟨p, hp, hm, hx⟩ := maxElement_spec hne
  have hm' := (ho t).mem_iff.1 hm
  have hc : FreqTable.freq p.1 t = p.2 := freq_of_mem h.nodup hm'
  refine ⟨p, hp, ?_, ?_⟩
  · have := h.pos p hm'
    rw [← hc, h.freq] at this
    exact List.count_pos_iff.1 this
  · intro w
    rw [← h.freq, ← h.freq, hc]
    by_cases hw : w ∈ t.map Prod.fst
    · obtain ⟨q, hq, rfl⟩ := List.mem_map.1 hw
      rw [freq_of_mem h.nodup hq]
      exact hx q ((ho t).mem_iff.2 hq)
    · rw [freq_of_not_mem hw]; exact Nat.zero_le _

end FreqTable

theorem mode_addFrom (order : FreqTable → FreqTable) (r : IntTy) (s : FreqTable) (vs : List Int) :
    addFrom (modeAcc order r) s vs = some (vs.foldl (fun t v => t.bump v 1) s) := by
  induction vs generalizing s with
  | nil => rfl
  | cons v vs ih => exact ih _

end Fern
