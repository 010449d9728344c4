import Verif.Model.Strings
import Verif.Spec.Strings

/-!
# Lemmas about the string functions
-/

namespace Fern

variable {sep : Char → Bool}

theorem dropWhile_append_of_all {α : Type} {p : α → Bool} {a b : List α}
    (h : ∀ c ∈ a, p c = true) : (a ++ b).dropWhile p = b.dropWhile p := by
  induction a with
  | nil => rfl
  | cons x xs ih =>
    rw [List.cons_append, List.dropWhile_cons_of_pos (h x (by simp))]
    exact ih (fun c hc => h c (by simp [hc]))

theorem takeWhile_append_of_all {α : Type} {p : α → Bool} {a b : List α}
    (h : ∀ c ∈ a, p c = true) : (a ++ b).takeWhile p = a ++ b.takeWhile p := by
  induction a with
  | nil => rfl
  | cons x xs ih =>
    rw [List.cons_append, List.takeWhile_cons_of_pos (h x (by simp)), List.cons_append,
      ih (fun c hc => h c (by simp [hc]))]

theorem pieces_free {s : Str} (h : ∀ c ∈ s, sep c = false) : pieces sep s = [s] := by
  have h1 : s.dropWhile (fun c => !sep c) = [] := by
    rw [List.dropWhile_eq_nil_iff]
    intro c hc
    simp [h c hc]
  rw [pieces]
  split
  · rfl
  · rename_i h2; rw [h1] at h2; exact absurd h2 (by simp)

theorem pieces_append {t r : Str} {c : Char} (h : ∀ x ∈ t, sep x = false) (hc : sep c = true) :
    pieces sep (t ++ c :: r) = t :: pieces sep (r.dropWhile sep) := by
  have hd : (t ++ c :: r).dropWhile (fun c => !sep c) = c :: r := by
    rw [dropWhile_append_of_all (fun x hx => by simp [h x hx])]
    exact List.dropWhile_cons_of_neg (by simp [hc])
  have ht : (t ++ c :: r).takeWhile (fun c => !sep c) = t := by
    rw [takeWhile_append_of_all (fun x hx => by simp [h x hx]),
      List.takeWhile_cons_of_neg (by simp [hc]), List.append_nil]
  rw [pieces]
  split
  · rename_i h2; rw [hd] at h2; exact absurd h2 (by simp)
  · rename_i d rest h2
    rw [hd] at h2
    cases h2
    rw [ht]

theorem splitBy_nil : splitBy sep [] = [] := by
  rw [splitBy, pieces_free (by simp)]
  rfl

theorem splitBy_sep_drop {s : Str} {c : Char} (hc : sep c = true) :
    splitBy sep (c :: s) = splitBy sep (s.dropWhile sep) := by
  have := pieces_append (sep := sep) (t := []) (r := s) (by simp) hc
  rw [List.nil_append] at this
  rw [splitBy, this, splitBy]
  rfl

theorem splitBy_dropWhile (s : Str) : splitBy sep (s.dropWhile sep) = splitBy sep s := by
  cases s with
  | nil => rfl
  | cons c s =>
    cases hc : sep c with
    | true => rw [List.dropWhile_cons_of_pos hc, splitBy_sep_drop hc]
    | false => rw [List.dropWhile_cons_of_neg (by simp [hc])]

theorem splitBy_cons_sep {s : Str} {c : Char} (hc : sep c = true) :
    splitBy sep (c :: s) = splitBy sep s := by
  rw [splitBy_sep_drop hc, splitBy_dropWhile]

theorem splitBy_gap {g s : Str} (hg : ∀ c ∈ g, sep c = true) :
    splitBy sep (g ++ s) = splitBy sep s := by
  induction g with
  | nil => rfl
  | cons c g ih =>
    rw [List.cons_append, splitBy_cons_sep (hg c (by simp)), ih (fun x hx => hg x (by simp [hx]))]

theorem splitBy_run {t rest : Str} (h : ∀ x ∈ t, sep x = false) (ht : t ≠ [])
    (hr : ∀ c, rest.head? = some c → sep c = true) :
    splitBy sep (t ++ rest) = t :: splitBy sep rest := by
  have hte : (!t.isEmpty) = true := by
    cases t with
    | nil => exact absurd rfl ht
    | cons => rfl
  cases rest with
  | nil =>
    rw [List.append_nil, splitBy_nil, splitBy, pieces_free h, List.filter_cons_of_pos (p := fun w => !List.isEmpty w) hte]
    rfl
  | cons c r =>
    have hc := hr c rfl
    rw [splitBy, pieces_append h hc, List.filter_cons_of_pos (p := fun w => !List.isEmpty w) hte, splitBy_sep_drop hc]
    rfl

theorem splitBy_of_runs {s : Str} {ts : List Str} (h : Spec.Runs (fun c => sep c = true) s ts) :
    splitBy sep s = ts := by
  induction h with
  | done g hg =>
    have := splitBy_gap (s := []) hg
    rwa [List.append_nil, splitBy_nil] at this
  | run g t rest ts hg ht hf hr _ ih =>
    rw [List.append_assoc, splitBy_gap hg,
      splitBy_run (fun x hx => by simpa using hf x hx) ht hr, ih]

theorem head?_dropWhile {α : Type} {p : α → Bool} {s : List α} {c : α}
    (h : (s.dropWhile p).head? = some c) : p c = false := by
  induction s with
  | nil => simp at h
  | cons x xs ih =>
    cases hx : p x with
    | true => rw [List.dropWhile_cons_of_pos hx] at h; exact ih h
    | false =>
      rw [List.dropWhile_cons_of_neg (by simp [hx])] at h
      cases h
      exact hx

theorem mem_takeWhile {α : Type} {p : α → Bool} {s : List α} {c : α}
    (h : c ∈ s.takeWhile p) : p c = true := by
  induction s with
  | nil => simp at h
  | cons x xs ih =>
    cases hx : p x with
    | true =>
      rw [List.takeWhile_cons_of_pos hx] at h
      rcases List.mem_cons.1 h with rfl | h
      · exact hx
      · exact ih h
    | false => rw [List.takeWhile_cons_of_neg (by simp [hx])] at h; simp at h

theorem runs_exists (sep : Char → Bool) (n : ℕ) (s : Str) (hn : s.length ≤ n) :
    ∃ ts, Spec.Runs (fun c => sep c = true) s ts := by
  induction n generalizing s with
  | zero =>
    have : s = [] := List.length_eq_zero_iff.1 (by omega)
    subst this
    exact ⟨[], .done [] (by simp)⟩
  | succ n ih =>
    by_cases hall : ∀ c ∈ s, sep c = true
    · exact ⟨[], .done s hall⟩
    have e1 := List.takeWhile_append_dropWhile (p := sep) (l := s)
    have e2 := List.takeWhile_append_dropWhile (p := fun c => !sep c) (l := s.dropWhile sep)
    generalize hg : s.takeWhile sep = g at e1
    generalize hr : s.dropWhile sep = r at *
    generalize ht : r.takeWhile (fun c => !sep c) = t at *
    generalize hu : r.dropWhile (fun c => !sep c) = u at *
    have hne : t ≠ [] := by
      intro h0
      apply hall
      rw [← List.dropWhile_eq_nil_iff, hr]
      cases r with
      | nil => rfl
      | cons c r =>
        have := head?_dropWhile (p := sep) (s := s) (c := c) (by rw [hr]; rfl)
        rw [List.takeWhile_cons_of_pos (by simp [this])] at ht
        exact absurd (ht.trans h0) (by simp)
    have hl : u.length ≤ n := by
      have h1 := congrArg List.length e1
      have h2 := congrArg List.length e2
      have h3 := List.length_pos_iff.2 hne
      simp only [List.length_append] at h1 h2
      omega
    obtain ⟨ts, hts⟩ := ih u hl
    refine ⟨t :: ts, ?_⟩
    have := Spec.Runs.run (sep := fun c => sep c = true) g t u ts
      (fun c hc => mem_takeWhile (by rw [hg]; exact hc)) hne
      (fun c hc => by
        have := mem_takeWhile (p := fun c => !sep c) (s := r) (c := c) (by rw [ht]; exact hc)
        simpa using this)
      (fun c hc => by
        have := head?_dropWhile (p := fun c => !sep c) (s := r) (c := c) (by rw [hu]; exact hc)
        simpa using this) hts
    rwa [List.append_assoc, e2, e1] at this

theorem splitBy_iff {s : Str} {ts : List Str} :
    splitBy sep s = ts ↔ Spec.Runs (fun c => sep c = true) s ts := by
  constructor
  · intro h
    obtain ⟨us, hus⟩ := runs_exists sep s.length s le_rfl
    rw [← h, splitBy_of_runs hus]
    exact hus
  · exact splitBy_of_runs

theorem runs_tokens {p : Char → Prop} {s : Str} {ts : List Str} (h : Spec.Runs p s ts) :
    ∀ t ∈ ts, t ≠ [] ∧ ∀ c ∈ t, ¬ p c := by
  induction h with
  | done => simp
  | run g t rest ts _ ht hf _ _ ih =>
    intro u hu
    rcases List.mem_cons.1 hu with rfl | hu
    · exact ⟨ht, hf⟩
    · exact ih u hu

theorem runs_flatten {s : Str} {ts : List Str} (h : Spec.Runs (fun c => sep c = true) s ts) :
    ts.flatten = s.filter (fun c => !sep c) := by
  induction h with
  | done g hg =>
    rw [List.filter_eq_nil_iff.2 (by simpa using hg)]
    rfl
  | run g t rest ts hg ht hf _ _ ih =>
    rw [List.filter_append, List.filter_append, List.filter_eq_nil_iff.2 (by simpa using hg),
      List.filter_eq_self.2 (by simpa using hf), List.flatten_cons, ih, List.nil_append]

/-! ### Join -/

theorem splitBy_join {ts : List Str} {separator : Str} (hs : separator ≠ [])
    (hsep : ∀ c ∈ separator, sep c = true)
    (ht : ∀ t ∈ ts, t ≠ [] ∧ ∀ c ∈ t, sep c = false) :
    splitBy sep (join ts separator) = ts := by
  induction ts with
  | nil => exact splitBy_nil
  | cons t ts ih =>
    have htt := ht t (by simp)
    cases ts with
    | nil =>
      have := splitBy_run (sep := sep) (t := t) (rest := []) htt.2 htt.1 (by simp)
      rwa [List.append_nil, splitBy_nil] at this
    | cons u us =>
      rw [join, splitBy_run htt.2 htt.1, splitBy_gap hsep, ih (fun x hx => ht x (by simp [hx]))]
      intro c hc
      cases separator with
      | nil => exact absurd rfl hs
      | cons x xs =>
        cases hc
        exact hsep _ (by simp)

theorem join_eq_intercalate (ts : List Str) (separator : Str) :
    join ts separator = separator.intercalate ts := by
  induction ts with
  | nil => rfl
  | cons t ts ih =>
    cases ts with
    | nil => simp [join, List.intercalate, List.intersperse]
    | cons u us =>
      rw [join, ih]
      simp [List.intercalate, List.intersperse]

/-! ### Strip -/

theorem trimLeftIf_spec (p : Char → Bool) (s : Str) :
    Spec.StrippedBegin (fun c => p c = true) s (trimLeftIf p s) :=
  ⟨s.takeWhile p, (List.takeWhile_append_dropWhile).symm, fun _ hc => mem_takeWhile hc,
    fun _ hc => by simpa using head?_dropWhile hc⟩

theorem trimLeftIf_of_spec {p : Char → Bool} {s r : Str}
    (h : Spec.StrippedBegin (fun c => p c = true) s r) : trimLeftIf p s = r := by
  obtain ⟨g, rfl, hg, hr⟩ := h
  rw [trimLeftIf, dropWhile_append_of_all hg]
  cases r with
  | nil => rfl
  | cons c r => exact List.dropWhile_cons_of_neg (hr c rfl)

theorem strippedEnd_reverse {p : Char → Prop} {s r : Str} :
    Spec.StrippedEnd p s r ↔ Spec.StrippedBegin p s.reverse r.reverse := by
  constructor
  · rintro ⟨g, rfl, hg, hr⟩
    exact ⟨g.reverse, by simp, by simpa using hg, by simpa using hr⟩
  · rintro ⟨g, h, hg, hr⟩
    refine ⟨g.reverse, ?_, by simpa using hg, by simpa using hr⟩
    have := congrArg List.reverse h
    simpa using this

theorem trimRightIf_spec (p : Char → Bool) (s : Str) :
    Spec.StrippedEnd (fun c => p c = true) s (trimRightIf p s) := by
  rw [strippedEnd_reverse, trimRightIf, List.reverse_reverse]
  exact trimLeftIf_spec p s.reverse

theorem trimRightIf_of_spec {p : Char → Bool} {s r : Str}
    (h : Spec.StrippedEnd (fun c => p c = true) s r) : trimRightIf p s = r := by
  rw [strippedEnd_reverse] at h
  have := trimLeftIf_of_spec h
  rw [trimRightIf]
  rw [trimLeftIf] at this
  rw [this, List.reverse_reverse]

theorem stripped_unique {p : Char → Prop} {s r r' : Str} (h : Spec.Stripped p s r)
    (h' : Spec.Stripped p s r') : r = r' := by
  classical
  obtain ⟨g, k, e, hg, hk, h1, h2⟩ := h
  obtain ⟨g', k', e', hg', hk', h1', h2'⟩ := h'
  have key : ∀ {g k r : Str}, s = g ++ r ++ k → (∀ c ∈ g, p c) → (∀ c ∈ k, p c) →
      (∀ c, r.head? = some c → ¬ p c) → (∀ c, r.getLast? = some c → ¬ p c) →
      trimRightIf (fun c => decide (p c)) (trimLeftIf (fun c => decide (p c)) s) = r := by
    intro g k r e hg hk h1 h2
    cases r with
    | nil =>
      have : trimLeftIf (fun c => decide (p c)) s = [] := by
        rw [trimLeftIf, List.dropWhile_eq_nil_iff]
        intro c hc
        rw [e] at hc
        simp only [List.append_nil, List.mem_append] at hc
        rcases hc with hc | hc
        · simpa using hg c hc
        · simpa using hk c hc
      rw [this]
      rfl
    | cons x r =>
      have hl : trimLeftIf (fun c => decide (p c)) s = x :: r ++ k := by
        apply trimLeftIf_of_spec
        exact ⟨g, by rw [e, List.append_assoc], by simpa using hg, by simpa using h1⟩
      rw [hl]
      apply trimRightIf_of_spec
      exact ⟨k, rfl, by simpa using hk, by simpa using h2⟩
  exact (key e hg hk h1 h2).symm.trans (key e' hg' hk' h1' h2')

theorem head?_append_left {α : Type} {a b : List α} {c : α} (h : a.head? = some c) :
    (a ++ b).head? = some c := by
  cases a with
  | nil => simp at h
  | cons x xs => exact h

theorem getLast?_append_right {α : Type} {a b : List α} {c : α} (h : b.getLast? = some c) :
    (a ++ b).getLast? = some c := by
  rw [List.getLast?_append, h]
  rfl

theorem stripped_begin_end {p : Char → Prop} {s t r : Str} (h1 : Spec.StrippedBegin p s t)
    (h2 : Spec.StrippedEnd p t r) : Spec.Stripped p s r := by
  obtain ⟨g, rfl, hg, ht⟩ := h1
  obtain ⟨k, rfl, hk, hr⟩ := h2
  exact ⟨g, k, by simp, hg, hk, fun c hc => ht c (head?_append_left hc), hr⟩

theorem stripped_end_begin {p : Char → Prop} {s t r : Str} (h1 : Spec.StrippedEnd p s t)
    (h2 : Spec.StrippedBegin p t r) : Spec.Stripped p s r := by
  obtain ⟨k, rfl, hk, ht⟩ := h1
  obtain ⟨g, rfl, hg, hr⟩ := h2
  exact ⟨g, k, by simp, hg, hk, hr, fun c hc => ht c (getLast?_append_right hc)⟩

/-! ### Substrings -/

theorem startsWith_iff {s sub : Str} : startsWith s sub = true ↔ ∃ r, s = sub ++ r := by
  rw [startsWith, List.isPrefixOf_iff_prefix]
  constructor
  · rintro ⟨r, h⟩; exact ⟨r, h.symm⟩
  · rintro ⟨r, h⟩; exact ⟨r, h.symm⟩

theorem endsWith_iff {s sub : Str} : endsWith s sub = true ↔ ∃ r, s = r ++ sub := by
  rw [endsWith, List.isPrefixOf_iff_prefix, List.reverse_prefix]
  constructor
  · rintro ⟨r, h⟩; exact ⟨r, h.symm⟩
  · rintro ⟨r, h⟩; exact ⟨r, h.symm⟩

theorem containsSub_iff {s sub : Str} : containsSub s sub = true ↔ ∃ a b, s = a ++ sub ++ b := by
  induction s with
  | nil =>
    rw [containsSub, List.isEmpty_iff]
    constructor
    · rintro rfl; exact ⟨[], [], rfl⟩
    · rintro ⟨a, b, h⟩
      have := List.append_eq_nil_iff.1 (List.append_eq_nil_iff.1 h.symm).1
      exact this.2
  | cons c cs ih =>
    rw [containsSub, Bool.or_eq_true, startsWith_iff, ih]
    constructor
    · rintro (⟨r, h⟩ | ⟨a, b, h⟩)
      · exact ⟨[], r, by rw [h, List.nil_append]⟩
      · exact ⟨c :: a, b, by rw [h]; rfl⟩
    · rintro ⟨a, b, h⟩
      cases a with
      | nil => exact .inl ⟨b, by rw [h, List.nil_append]⟩
      | cons x a =>
        simp only [List.cons_append, List.cons.injEq] at h
        exact .inr ⟨a, b, h.2⟩

end Fern
