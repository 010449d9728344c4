import Verif.Spec.StdOps

namespace Fern.StdOps

open Fern Fern.StdOps.Spec

variable {α : Type}

theorem printRest_commas (text : α → List Char) : ∀ (l : List α) (x : α),
    text x ++ printRest text l = commas ((x :: l).map text) := by
  intro l
  induction l with
  | nil => intro x; simp [printRest, commas]
  | cons y l ih =>
    intro x
    rw [printRest, List.append_assoc, ih y]
    simp [commas]

theorem printRange_short (text : α → List Char) (l : List α) (h : l.length < 7) :
    printRange text l = "[".toList ++ commas (l.map text) ++ "]\n".toList := by
  unfold printRange
  cases l with
  | nil => simp [commas]
  | cons x r => rw [← printRest_commas]; simp only [h, if_true]

theorem printRange_long (text : α → List Char) (x y z u v w : α) (m : List α) (hm : m ≠ []) :
    printRange text ([x, y, z] ++ m ++ [u, v, w]) =
      "[".toList ++ commas ([x, y, z].map text ++ ["...".toList] ++ [u, v, w].map text) ++ "]\n".toList := by
  have hl : 0 < m.length := List.length_pos_iff.2 hm
  unfold printRange
  simp only [List.cons_append, List.nil_append, List.length_cons, List.length_append, List.length_nil]
  rw [if_neg (by omega)]
  have e (k : Nat) (hk : k < 3) : (x :: y :: z :: (m ++ [u, v, w]))[m.length + (0 + 1 + 1 + 1) + 1 + 1 + 1 - (3 - k)]? =
      [u, v, w][k]? := by
    rw [show m.length + (0 + 1 + 1 + 1) + 1 + 1 + 1 - (3 - k) = (m.length + k) + 1 + 1 + 1 by omega]
    simp only [List.getElem?_cons_succ]
    rw [List.getElem?_append_right (by omega)]
    congr 1
    omega
  have e0 := e 0 (by omega)
  have e1 := e 1 (by omega)
  have e2 := e 2 (by omega)
  simp only [Nat.sub_zero] at e0
  rw [show 3 - 1 = 2 from rfl] at e1
  rw [show 3 - 2 = 1 from rfl] at e2
  simp only [e0, e1, e2]
  simp [commas]

/-- Splitting before the first comma. -/
theorem commas_inj : ∀ (l k : List (List Char)), (∀ t ∈ l, ',' ∉ t) → (∀ t ∈ k, ',' ∉ t) → l ≠ [] → k ≠ [] →
    commas l = commas k → l = k := by
  have split : ∀ (a b r s : List Char), ',' ∉ a → ',' ∉ b → a ++ ',' :: r = b ++ ',' :: s → a = b ∧ r = s := by
    intro a
    induction a with
    | nil =>
      intro b r s _ hb h
      cases b with
      | nil => simpa using h
      | cons c b => simp at h; exact absurd h.1 (by rintro rfl; simp at hb)
    | cons c a ih =>
      intro b r s ha hb h
      cases b with
      | nil => simp at h; exact absurd h.1 (by rintro rfl; simp at ha)
      | cons d b =>
        simp only [List.cons_append, List.cons.injEq] at h
        obtain ⟨h1, h2⟩ := ih b r s (by simp at ha; tauto) (by simp at hb; tauto) h.2
        exact ⟨by rw [h.1, h1], h2⟩
  intro l
  induction l with
  | nil => intro k _ _ h; exact absurd rfl h
  | cons a l ih =>
    intro k hl hk _ hk' h
    cases k with
    | nil => exact absurd rfl hk'
    | cons b k =>
      have ha := hl a (by simp)
      have hb := hk b (by simp)
      cases l with
      | nil =>
        cases k with
        | nil => simpa [commas] using h
        | cons c k =>
          exfalso
          simp only [commas] at h
          apply ha
          rw [h]
          simp
      | cons d l =>
        cases k with
        | nil =>
          exfalso
          simp only [commas] at h
          apply hb
          rw [← h]
          simp
        | cons c k =>
          have h' : a ++ ',' :: (' ' :: commas (d :: l)) = b ++ ',' :: (' ' :: commas (c :: k)) := by
            simpa [commas] using h
          obtain ⟨h1, h2⟩ := split _ _ _ _ ha hb h'
          rw [List.cons.injEq] at h2
          rw [h1, ih (c :: k) (fun t ht => hl t (List.mem_cons_of_mem _ ht)) (fun t ht => hk t (List.mem_cons_of_mem _ ht)) (by simp) (by simp) h2.2]

theorem commas_ne_nil (l : List (List Char)) (h : l ≠ []) (hl : ∀ t ∈ l, t ≠ []) : commas l ≠ [] := by
  cases l with
  | nil => exact absurd rfl h
  | cons a l =>
    cases l with
    | nil => simpa [commas] using hl
    | cons b l => simp [commas]

theorem commas_length (n : Nat) : ∀ l : List (List Char), (∀ t ∈ l, t.length ≤ n) →
    (commas l).length ≤ l.length * (n + 2) := by
  intro l
  induction l with
  | nil => simp [commas]
  | cons a l ih =>
    intro h
    have ha := h a (by simp)
    have := ih fun t ht => h t (List.mem_cons_of_mem _ ht)
    have e : (l.length + 1) * (n + 2) = l.length * (n + 2) + (n + 2) := by rw [Nat.add_mul]; simp
    cases l with
    | nil => simp [commas]; omega
    | cons b l =>
      simp only [commas, List.length_append, List.length_cons] at this e ⊢
      rw [e]
      have : (", ".toList).length = 2 := rfl
      omega

/-- A list of at least seven elements: the first three, the last three, and what is between them. -/
theorem seven (l : List α) (h : 7 ≤ l.length) : ∃ x y z m u v w, m ≠ [] ∧ l = [x, y, z] ++ m ++ [u, v, w] := by
  obtain ⟨x, y, z, r, rfl⟩ : ∃ x y z r, l = x :: y :: z :: r := by
    match l, h with
    | x :: y :: z :: r, _ => exact ⟨x, y, z, r, rfl⟩
  simp only [List.length_cons] at h
  have hd : (r.drop (r.length - 3)).length = 3 := by simp; omega
  obtain ⟨u, v, w, hr⟩ : ∃ u v w, r.drop (r.length - 3) = [u, v, w] := List.length_eq_three.1 hd
  refine ⟨x, y, z, r.take (r.length - 3), u, v, w, ?_, ?_⟩
  · intro e
    have := congrArg List.length e
    simp at this
    omega
  · rw [← hr]
    simp

end Fern.StdOps
