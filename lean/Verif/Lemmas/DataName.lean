import Verif.Lemmas.Strings
import Verif.Model.DataName
import Verif.Spec.DataName

/-!
# Lemmas about data names
-/

namespace Fern

/-- Being a slash, as a test. -/
def isSlash (c : Char) : Bool := c == '/'

theorem inSet_slash : inSet ['/'] = isSlash := by
  funext c
  rw [inSet, isSlash, List.contains_cons, List.contains_nil, Bool.or_false]

theorem splitBy_append_sep {sep : Char → Bool} {t r : Str} {c : Char}
    (h : ∀ x ∈ t, sep x = false) (hc : sep c = true) :
    splitBy sep (t ++ c :: r) = (if t.isEmpty then [] else [t]) ++ splitBy sep r := by
  rw [splitBy, pieces_append h hc, List.filter_cons, ← splitBy_dropWhile r, splitBy]
  cases t <;> rfl

theorem startsWith_slashes {c : Char} {cs : Str} :
    startsWith (c :: cs) ['/', '/'] = true ↔ c = '/' ∧ ∃ r, cs = '/' :: r := by
  rw [startsWith_iff]
  constructor
  · rintro ⟨r, h⟩
    cases h
    exact ⟨rfl, r, rfl⟩
  · rintro ⟨rfl, r, rfl⟩
    exact ⟨r, rfl⟩

theorem replaceLoop_slashes_pos (r : Str) :
    replaceLoop ['/', '/'] ['/'] ('/' :: '/' :: r) = '/' :: replaceLoop ['/', '/'] ['/'] r := by
  rw [replaceLoop, if_pos (by rw [Bool.and_eq_true, startsWith_slashes]; exact ⟨⟨rfl, r, rfl⟩, rfl⟩)]
  rfl

theorem replaceLoop_slashes_neg {c : Char} {cs : Str} (h : ¬ (c = '/' ∧ ∃ r, cs = '/' :: r)) :
    replaceLoop ['/', '/'] ['/'] (c :: cs) = c :: replaceLoop ['/', '/'] ['/'] cs := by
  rw [replaceLoop, if_neg (by rw [Bool.and_eq_true, startsWith_slashes]; exact fun k => h k.1)]

theorem splitBy_replace (n : ℕ) (s t : Str) (hn : s.length ≤ n) (ht : ∀ x ∈ t, isSlash x = false) :
    splitBy isSlash (t ++ replaceLoop ['/', '/'] ['/'] s) = splitBy isSlash (t ++ s) := by
  induction n generalizing s t with
  | zero =>
    have : s = [] := List.length_eq_zero_iff.1 (by omega)
    subst this
    rw [replaceLoop]
  | succ n ih =>
    cases s with
    | nil => rw [replaceLoop]
    | cons c cs =>
      rw [List.length_cons] at hn
      by_cases h : c = '/' ∧ ∃ r, cs = '/' :: r
      · obtain ⟨rfl, r, rfl⟩ := h
        rw [List.length_cons] at hn
        have := ih r [] (by omega) (by simp)
        rw [List.nil_append, List.nil_append] at this
        rw [replaceLoop_slashes_pos, splitBy_append_sep ht rfl, splitBy_append_sep ht rfl,
          splitBy_cons_sep rfl, this]
      · rw [replaceLoop_slashes_neg h]
        cases hc : isSlash c with
        | true =>
          have := ih cs [] (by omega) (by simp)
          rw [List.nil_append, List.nil_append] at this
          rw [splitBy_append_sep ht hc, splitBy_append_sep ht hc, this]
        | false =>
          have := ih cs (t ++ [c]) (by omega) (by
            intro x hx
            rcases List.mem_append.1 hx with hx | hx
            · exact ht x hx
            · rw [List.mem_singleton.1 hx]; exact hc)
          simpa only [List.append_assoc, List.singleton_append] using this

theorem getLast?_replace (n : ℕ) (s : Str) (hn : s.length ≤ n) :
    (replaceLoop ['/', '/'] ['/'] s).getLast? = s.getLast? := by
  induction n generalizing s with
  | zero =>
    have : s = [] := List.length_eq_zero_iff.1 (by omega)
    subst this
    rw [replaceLoop]
  | succ n ih =>
    cases s with
    | nil => rw [replaceLoop]
    | cons c cs =>
      rw [List.length_cons] at hn
      by_cases h : c = '/' ∧ ∃ r, cs = '/' :: r
      · obtain ⟨rfl, r, rfl⟩ := h
        rw [List.length_cons] at hn
        rw [replaceLoop_slashes_pos, List.getLast?_cons, List.getLast?_cons, List.getLast?_cons,
          ih r (by omega)]
        cases r.getLast? <;> rfl
      · rw [replaceLoop_slashes_neg h, List.getLast?_cons, List.getLast?_cons, ih cs (by omega)]

theorem squeeze_spec (s : Str) :
    splitBy isSlash (squeeze s) = splitBy isSlash s ∧ (squeeze s).getLast? = s.getLast? ∧
      containsSub (squeeze s) ['/', '/'] = false := by
  induction hn : s.length using Nat.strong_induction_on generalizing s with
  | _ n ih =>
    rw [squeeze]
    split
    · rename_i h
      have hlt := replaceLoop_length_lt ['/', '/'] ['/'] (by simp) s h
      obtain ⟨h1, h2, h3⟩ := ih _ (by rw [← hn]; exact hlt) (replaceAll s ['/', '/'] ['/']) rfl
      refine ⟨h1.trans ?_, h2.trans ?_, h3⟩
      · exact splitBy_replace s.length s [] le_rfl (by simp)
      · exact getLast?_replace s.length s le_rfl
    · rename_i h
      exact ⟨rfl, rfl, by simpa using h⟩

/-- A path which starts with a slash, has no double slash and does not end in a slash is made of
its components. -/
theorem runs_absolute {s : Str} {ts : List Str} (h : Spec.Runs (fun c => isSlash c = true) s ts)
    (hs : s.head? = some '/') (hd : ∀ a b, s ≠ a ++ ['/', '/'] ++ b)
    (hl : s.getLast? ≠ some '/') : s = (ts.map fun n => '/' :: n).flatten := by
  induction h with
  | done g hg =>
    exfalso
    have hne : g ≠ [] := by rintro rfl; simp at hs
    apply hl
    rw [List.getLast?_eq_some_getLast hne]
    have := hg _ (List.getLast_mem hne)
    rw [isSlash, beq_iff_eq] at this
    rw [this]
  | run g t rest ts hg ht hf hr hrest ih =>
    have hg1 : g = ['/'] := by
      match g, hg with
      | [], _ =>
        exfalso
        cases t with
        | nil => exact ht rfl
        | cons x t =>
          cases hs
          exact hf '/' (by simp) rfl
      | [x], hg =>
        have := hg x (by simp)
        rw [isSlash, beq_iff_eq] at this
        rw [this]
      | x :: y :: g, hg =>
        exfalso
        have h1 := hg x (by simp)
        have h2 := hg y (by simp)
        rw [isSlash, beq_iff_eq] at h1 h2
        subst h1
        subst h2
        exact hd [] (g ++ t ++ rest) (by simp)
    subst hg1
    cases rest with
    | nil =>
      have : ts = [] := by
        have h1 := splitBy_of_runs (sep := isSlash) hrest
        rw [splitBy_nil] at h1
        exact h1.symm
      subst this
      simp
    | cons c r =>
      have hc := hr c rfl
      rw [isSlash, beq_iff_eq] at hc
      subst hc
      have := ih rfl
        (fun a b e => hd (['/'] ++ t ++ a) b (by rw [e]; simp))
        (by rwa [getLast?_append_right_ne] at hl; simp)
      rw [List.map_cons, List.flatten_cons, ← this]
      simp
where
  getLast?_append_right_ne {a b : Str} (hb : b ≠ []) : (a ++ b).getLast? = b.getLast? := by
    rw [List.getLast?_append, List.getLast?_eq_some_getLast hb]
    rfl

theorem splitBy_cons_slash (s : Str) : splitBy isSlash ('/' :: s) = splitBy isSlash s :=
  splitBy_cons_sep rfl

theorem splitBy_stripEnd (s : Str) : splitBy isSlash (stripEnd s ['/']) = splitBy isSlash s := by
  obtain ⟨g, e, hg, -⟩ := trimRightIf_spec (inSet ['/']) s
  rw [inSet_slash] at hg e
  rw [stripEnd, inSet_slash]
  conv_rhs => rw [e]
  -- separators at the end make no difference
  have key : ∀ (g : Str), (∀ c ∈ g, isSlash c = true) → ∀ (n : ℕ) (r t : Str), r.length ≤ n →
      (∀ x ∈ t, isSlash x = false) → splitBy isSlash (t ++ r) = splitBy isSlash (t ++ r ++ g) := by
    intro g hg n
    induction n with
    | zero =>
      intro r t hr ht
      have : r = [] := List.length_eq_zero_iff.1 (by omega)
      subst this
      rw [List.append_nil]
      have hnil : splitBy isSlash g = [] := by
        have := splitBy_gap (s := []) hg
        rwa [List.append_nil, splitBy_nil] at this
      cases t with
      | nil => rw [List.nil_append, hnil, splitBy_nil]
      | cons x t =>
        rw [splitBy_run ht (by simp) (fun c hc => hg c (List.mem_of_mem_head? hc)), hnil]
        have := splitBy_run (sep := isSlash) (t := x :: t) (rest := []) ht (by simp) (by simp)
        rwa [List.append_nil, splitBy_nil] at this
    | succ n ih =>
      intro r t hr ht
      cases r with
      | nil => exact ih [] t (by simp) ht
      | cons c r =>
        rw [List.length_cons] at hr
        cases hc : isSlash c with
        | true =>
          have := ih r [] (by omega) (by simp)
          rw [List.nil_append] at this
          rw [List.append_assoc, List.cons_append, splitBy_append_sep ht hc,
            splitBy_append_sep ht hc, this]
        | false =>
          have := ih r (t ++ [c]) (by omega) (by
            intro x hx
            rcases List.mem_append.1 hx with hx | hx
            · exact ht x hx
            · rw [List.mem_singleton.1 hx]; exact hc)
          simpa only [List.append_assoc, List.singleton_append, List.cons_append,
            List.nil_append] using this
  have := key g hg (trimRightIf isSlash s).length (trimRightIf isSlash s) [] le_rfl (by simp)
  simpa only [List.nil_append] using this

theorem runs_nil {p : Char → Prop} {s : Str} {ts : List Str} (h : Spec.Runs p s ts)
    (hts : ts = []) : ∀ c ∈ s, p c := by
  cases h with
  | done g hg => exact hg
  | run => exact absurd hts (by simp)

theorem canonicalPath_eq (s : Str) : canonicalPath s = Spec.absolutePath (splitBy isSlash s) := by
  obtain ⟨h1, h2, h3⟩ := squeeze_spec (stripEnd s ['/'])
  rw [splitBy_stripEnd] at h1
  have hlast : (squeeze (stripEnd s ['/'])).getLast? ≠ some '/' := by
    rw [h2]
    intro h
    obtain ⟨g, e, hg, hr⟩ := trimRightIf_spec (inSet ['/']) s
    exact hr '/' h rfl
  have hd : ∀ a b, squeeze (stripEnd s ['/']) ≠ a ++ ['/', '/'] ++ b := by
    intro a b e
    rw [containsSub_iff.2 ⟨a, b, e⟩] at h3
    exact absurd h3 (by simp)
  rw [canonicalPath]
  generalize squeeze (stripEnd s ['/']) = q at *
  rw [← h1]
  cases q with
  | nil => rw [splitBy_nil]; rfl
  | cons c q =>
    have hne : splitBy isSlash (c :: q) ≠ [] := by
      intro h0
      have hr := splitBy_iff.1 h0
      have hg := runs_nil hr rfl
      apply hlast
      rw [List.getLast?_eq_some_getLast (by simp)]
      have := hg _ (List.getLast_mem (by simp : c :: q ≠ []))
      rw [isSlash, beq_iff_eq] at this
      rw [this]
    rw [Spec.absolutePath, if_neg hne]
    have he : (c :: q).isEmpty = false := rfl
    simp only [he, Bool.false_eq_true, if_false]
    by_cases hc : c = '/'
    · subst hc
      rw [if_neg (by simp [startsWith, List.isPrefixOf])]
      exact runs_absolute (splitBy_iff.1 rfl) rfl hd hlast
    · rw [if_pos (by
        have : ('/' == c) = false := by rw [beq_eq_false_iff_ne]; exact fun h => hc h.symm
        simp [startsWith, List.isPrefixOf, this])]
      have := runs_absolute (s := '/' :: c :: q) (splitBy_iff.1 rfl) rfl (by
        intro a b e
        cases a with
        | nil =>
          simp only [List.nil_append, List.cons_append, List.cons.injEq] at e
          exact hc e.2.1
        | cons x a =>
          simp only [List.cons_append, List.cons.injEq] at e
          exact hd a b (by rw [e.2])) (by
        rw [List.getLast?_cons_cons]
        exact hlast)
      rw [splitBy_cons_slash] at this
      exact this

theorem matchDataName_iff {s db rest : Str} :
    matchDataName s = some (db, rest) ↔ Spec.NameParts s db rest := by
  have hline : ∀ r : Str, r.any isLineTerminator = false ↔ '\n' ∉ r ∧ '\r' ∉ r := by
    intro r
    rw [List.any_eq_false]
    constructor
    · intro h
      exact ⟨fun hm => h _ hm rfl, fun hm => h _ hm rfl⟩
    · rintro ⟨h1, h2⟩ x hx
      rw [isLineTerminator, Bool.or_eq_true, beq_iff_eq, beq_iff_eq]
      rintro (rfl | rfl)
      · exact h1 hx
      · exact h2 hx
  have hfree : ∀ c ∈ s.takeWhile (fun c => !(c == ':')), ¬ c = ':' := by
    intro c hc
    have := mem_takeWhile hc
    simpa using this
  have e := List.takeWhile_append_dropWhile (p := fun c => !(c == ':')) (l := s)
  rw [matchDataName]
  constructor
  · intro h
    by_cases hdb : (s.takeWhile (fun c => !(c == ':'))).isEmpty = true
    · simp [hdb] at h
    · rw [if_neg hdb] at h
      rw [List.isEmpty_iff] at hdb
      cases hd : s.dropWhile (fun c => !(c == ':')) with
      | nil =>
        rw [hd] at h e
        simp only [Option.some.injEq, Prod.mk.injEq] at h
        obtain ⟨rfl, rfl⟩ := h
        rw [List.append_nil] at e
        exact ⟨hdb, fun hm => hfree _ hm rfl, .inl ⟨e.symm, rfl⟩, by simp, by simp⟩
      | cons x r =>
        rw [hd] at h e
        have hx := head?_dropWhile (p := fun c => !(c == ':')) (s := s) (c := x) (by rw [hd]; rfl)
        have hx : x = ':' := by simpa using hx
        subst hx
        cases hl : r.any isLineTerminator with
        | true => simp [hl] at h
        | false =>
          simp only [hl, Bool.false_eq_true, if_false, Option.some.injEq, Prod.mk.injEq] at h
          obtain ⟨rfl, rfl⟩ := h
          have := (hline r).1 hl
          exact ⟨hdb, fun hm => hfree _ hm rfl, .inr e.symm, this.1, this.2⟩
  · rintro ⟨h1, h2, h3, h4, h5⟩
    have hall : ∀ c ∈ db, (!(c == ':')) = true := by
      intro c hc
      have : c ≠ ':' := by rintro rfl; exact h2 hc
      simp [this]
    have hdb : db.isEmpty = false := by rwa [List.isEmpty_eq_false_iff]
    rcases h3 with ⟨rfl, rfl⟩ | rfl
    · have ht : s.takeWhile (fun c => !(c == ':')) = s := by
        have := takeWhile_append_of_all (b := []) hall
        rwa [List.append_nil, List.takeWhile_nil, List.append_nil] at this
      have hd : s.dropWhile (fun c => !(c == ':')) = [] := List.dropWhile_eq_nil_iff.2 hall
      simp [ht, hd, hdb]
    · have ht : (db ++ ':' :: rest).takeWhile (fun c => !(c == ':')) = db := by
        rw [takeWhile_append_of_all hall, List.takeWhile_cons_of_neg (by simp), List.append_nil]
      have hd : (db ++ ':' :: rest).dropWhile (fun c => !(c == ':')) = ':' :: rest := by
        rw [dropWhile_append_of_all hall, List.dropWhile_cons_of_neg (by simp)]
      have hl := (hline rest).2 ⟨h4, h5⟩
      simp [ht, hd, hdb, hl]

theorem startsWith_absolutePath (ts : List Str) :
    startsWith (Spec.absolutePath ts) ['/'] = true := by
  rw [startsWith_iff, Spec.absolutePath]
  cases ts with
  | nil => exact ⟨[], rfl⟩
  | cons t ts => exact ⟨t ++ (ts.map fun n => '/' :: n).flatten, by simp⟩

theorem dataName_eq (s db path : Str) :
    dataName s = some (db, path) ↔
      ∃ rest, Spec.NameParts s db rest ∧ path = Spec.absolutePath (splitBy isSlash rest) := by
  rw [dataName]
  cases h : matchDataName s with
  | none =>
    constructor
    · intro h; simp at h
    · rintro ⟨rest, hp, _⟩
      rw [← matchDataName_iff, h] at hp
      exact absurd hp (by simp)
  | some x =>
    obtain ⟨d, r⟩ := x
    simp only [canonicalPath_eq, startsWith_absolutePath, if_true, Option.some.injEq,
      Prod.mk.injEq]
    constructor
    · rintro ⟨rfl, rfl⟩
      exact ⟨r, matchDataName_iff.1 h, rfl⟩
    · rintro ⟨rest, hp, rfl⟩
      rw [← matchDataName_iff, h] at hp
      cases hp
      exact ⟨rfl, rfl⟩

end Fern
