import Verif.Lemmas.Strings
import Mathlib.Order.Nat
import Mathlib.Data.Nat.Find

/-!
# Splitting, joining, stripping (C47, C48) and substrings (C68)
-/

namespace Fern

/-! ### C47: split and join -/

/-- The characters at which `split` splits. -/
def Spec.SplitsAt (characters : List Char) (c : Char) : Prop :=
  (characters = [] ∧ (c = ' ' ∨ c = '\t' ∨ c = '\n' ∨ c = '\x0b' ∨ c = '\x0c' ∨ c = '\r')) ∨
    c ∈ characters

/-- Characters without a meaning of their own between the brackets of a regular expression. -/
def Spec.Plain (characters : List Char) : Prop :=
  ∀ c ∈ characters, c ≠ '[' ∧ c ≠ ']' ∧ c ≠ '-' ∧ c ≠ '^' ∧ c ≠ '\\'

theorem isSpace_iff (c : Char) : isSpace c = true ↔
    (c = ' ' ∨ c = '\t' ∨ c = '\n' ∨ c = '\x0b' ∨ c = '\x0c' ∨ c = '\r') := by
  have h : ∀ d : Char, c = d ↔ c.toNat = d.toNat := fun d => by
    constructor
    · rintro rfl; rfl
    · intro h
      exact Char.ext (UInt32.toNat_inj.1 h)
  rw [h, h, h, h, h, h]
  simp only [isSpace, Bool.or_eq_true, Bool.and_eq_true, beq_iff_eq, decide_eq_true_eq]
  have e1 : (' ' : Char).toNat = 32 := rfl
  have e2 : ('\t' : Char).toNat = 9 := rfl
  have e3 : ('\n' : Char).toNat = 10 := rfl
  have e4 : ('\x0b' : Char).toNat = 11 := rfl
  have e5 : ('\x0c' : Char).toNat = 12 := rfl
  have e6 : ('\r' : Char).toNat = 13 := rfl
  omega

theorem inSet_iff (characters : Str) (c : Char) : inSet characters c = true ↔ c ∈ characters := by
  rw [inSet, List.contains_iff_mem]

/-- `split` returns the maximal non-empty runs of non-separators, in order, and nothing else:
for every string and every set of characters without a meaning of their own in a bracket
expression. -/
theorem C47_split (s characters : Str) (hp : Spec.Plain characters) (ts : List Str) :
    split s characters = some ts ↔ Spec.Runs (Spec.SplitsAt characters) s ts := by
  rw [split]
  cases characters with
  | nil =>
    have e : Spec.SplitsAt [] = fun c => isSpace c = true := by
      funext c
      rw [Spec.SplitsAt, eq_iff_iff, isSpace_iff]
      simp
    rw [e, if_pos (by rfl), Option.some.injEq, splitBy_iff]
  | cons x xs =>
    have e : Spec.SplitsAt (x :: xs) = fun c => inSet (x :: xs) c = true := by
      funext c
      rw [Spec.SplitsAt, eq_iff_iff, inSet_iff]
      simp
    have hn : (x :: xs).any bracketSpecial = false := by
      rw [List.any_eq_false]
      intro c hc
      have := hp c hc
      simp [bracketSpecial, this]
    rw [e, if_neg (by simp), hn, if_neg (by simp), Option.some.injEq, splitBy_iff]

example : split "a, b,,c".toList ", ".toList = some ["a".toList, "b".toList, "c".toList] := by
  decide +kernel

/-- No token is empty or contains a separator, and no other character is lost: the tokens
together are the string without the separators. -/
theorem C47_tokens (s characters : Str) (ts : List Str) (h : split s characters = some ts) :
    (∀ t ∈ ts, t ≠ [] ∧ ∀ c ∈ t, ¬ Spec.SplitsAt characters c) ∧
      ∀ [DecidablePred (Spec.SplitsAt characters)],
        ts.flatten = s.filter (fun c => !decide (Spec.SplitsAt characters c)) := by
  have hp : Spec.Plain characters := by
    intro c hc
    rw [split] at h
    split at h
    · rename_i hn
      rw [List.isEmpty_iff] at hn
      rw [hn] at hc
      exact absurd hc (by simp)
    · split at h
      · exact absurd h (by simp)
      · rename_i hn
        simp only [List.any_eq_true, not_exists, not_and] at hn
        have := hn c hc
        simpa [bracketSpecial, and_assoc] using this
  have hr := (C47_split s characters hp ts).1 h
  refine ⟨runs_tokens hr, fun {_} => ?_⟩
  exact runs_flatten (sep := fun c => decide (Spec.SplitsAt characters c)) (by simpa using hr)

/-- Joining tokens without separators by a string of separators and splitting again gives the
tokens back. -/
theorem C47_join_split (ts : List Str) (separator characters : Str) (hp : Spec.Plain characters)
    (hs : separator ≠ []) (hsep : ∀ c ∈ separator, Spec.SplitsAt characters c)
    (ht : ∀ t ∈ ts, t ≠ [] ∧ ∀ c ∈ t, ¬ Spec.SplitsAt characters c) :
    split (join ts separator) characters = some ts := by
  classical
  rw [C47_split _ _ hp]
  have := splitBy_join (sep := fun c => decide (Spec.SplitsAt characters c)) (ts := ts) hs
    (by simpa using hsep) (by simpa using ht)
  simpa using splitBy_iff.1 this

example : split (join ["ab".toList, "c".toList] "; ".toList) " ;".toList =
    some ["ab".toList, "c".toList] := by decide +kernel

/-- Splitting and joining with one separator is idempotent: it normalises the separators. -/
theorem C47_split_join_split (s : Str) (c : Char) (ts : List Str)
    (h : split s [c] = some ts) : split (join ts [c]) [c] = some ts := by
  have h' := h
  have hp : Spec.Plain [c] := by
    rw [split, if_neg (by simp)] at h'
    split at h'
    · exact absurd h' (by simp)
    · rename_i hn
      intro d hd
      rw [List.mem_singleton.1 hd]
      simpa [bracketSpecial, and_assoc] using hn
  exact C47_join_split ts [c] [c] hp (by simp)
    (fun d hd => .inr hd) (C47_tokens s [c] ts h).1

example : split "//a/b//".toList "/".toList = some ["a".toList, "b".toList] ∧
    join ["a".toList, "b".toList] "/".toList = "a/b".toList := by decide +kernel

/-- The characters are pasted into a bracket expression: those with a meaning of their own are
outside the model (and outside what the documentation promises). -/
theorem C47_special (s : Str) : split s "a-z".toList = none := rfl

/-! ### C48: strip -/

/-- `strip_begin` removes the longest prefix made of the given characters, and only that. -/
theorem C48_strip_begin (s characters r : Str) :
    stripBegin s characters = r ↔ Spec.StrippedBegin (· ∈ characters) s r := by
  have e : (fun c => inSet characters c = true) = (· ∈ characters) := by
    funext c; rw [eq_iff_iff, inSet_iff]
  constructor
  · rintro rfl
    have := trimLeftIf_spec (inSet characters) s
    rwa [e] at this
  · intro h
    rw [← e] at h
    exact trimLeftIf_of_spec h

/-- `strip_end` removes the longest suffix made of the given characters, and only that. -/
theorem C48_strip_end (s characters r : Str) :
    stripEnd s characters = r ↔ Spec.StrippedEnd (· ∈ characters) s r := by
  have e : (fun c => inSet characters c = true) = (· ∈ characters) := by
    funext c; rw [eq_iff_iff, inSet_iff]
  constructor
  · rintro rfl
    have := trimRightIf_spec (inSet characters) s
    rwa [e] at this
  · intro h
    rw [← e] at h
    exact trimRightIf_of_spec h

example : stripBegin "xxaxbxx".toList "x".toList = "axbxx".toList ∧
    stripEnd "xxaxbxx".toList "x".toList = "xxaxb".toList ∧
    strip "xxaxbxx".toList "x".toList = "axb".toList := by decide +kernel

/-- `strip` removes both; without characters it removes white space. -/
theorem C48_strip (s characters r : Str) :
    strip s characters = r ↔ Spec.Stripped (Spec.SplitsAt characters) s r := by
  have key : ∀ r, strip s characters = r → Spec.Stripped (Spec.SplitsAt characters) s r := by
    rintro r rfl
    rw [strip]
    cases characters with
    | nil =>
      have e : Spec.SplitsAt [] = fun c => isSpace c = true := by
        funext c
        rw [Spec.SplitsAt, eq_iff_iff, isSpace_iff]
        simp
      rw [e, if_pos (by rfl)]
      exact stripped_end_begin (trimRightIf_spec _ _) (trimLeftIf_spec _ _)
    | cons x xs =>
      have e : Spec.SplitsAt (x :: xs) = fun c => inSet (x :: xs) c = true := by
        funext c
        rw [Spec.SplitsAt, eq_iff_iff, inSet_iff]
        simp
      rw [e, if_neg (by simp)]
      exact stripped_begin_end (trimLeftIf_spec _ _) (trimRightIf_spec _ _)
  exact ⟨key r, fun h => stripped_unique (key _ rfl) h⟩

example : strip " a b\n".toList [] = "a b".toList := by decide +kernel

/-- The order does not matter, for any set of characters. -/
theorem C48_strip_order (s characters : Str) :
    stripEnd (stripBegin s characters) characters =
      stripBegin (stripEnd s characters) characters :=
  stripped_unique
    (stripped_begin_end ((C48_strip_begin _ _ _).1 rfl) ((C48_strip_end _ _ _).1 rfl))
    (stripped_end_begin ((C48_strip_end _ _ _).1 rfl) ((C48_strip_begin _ _ _).1 rfl))

/-- Given characters, `strip` is `strip_begin` and `strip_end`. -/
theorem C48_strip_eq (s characters : Str) (h : characters ≠ []) :
    strip s characters = stripBegin (stripEnd s characters) characters := by
  rw [strip, if_neg (by rwa [List.isEmpty_iff]), C48_strip_order]

/-- Stripping again changes nothing. -/
theorem C48_strip_idempotent (s characters : Str) :
    strip (strip s characters) characters = strip s characters ∧
      stripBegin (stripBegin s characters) characters = stripBegin s characters ∧
      stripEnd (stripEnd s characters) characters = stripEnd s characters := by
  refine ⟨?_, ?_, ?_⟩
  · rw [C48_strip]
    obtain ⟨g, h, _, _, _, h1, h2⟩ := (C48_strip s characters _).1 rfl
    exact ⟨[], [], by simp, by simp, by simp, h1, h2⟩
  · rw [C48_strip_begin]
    obtain ⟨g, _, _, h1⟩ := (C48_strip_begin s characters _).1 rfl
    exact ⟨[], by simp, by simp, h1⟩
  · rw [C48_strip_end]
    obtain ⟨g, _, _, h1⟩ := (C48_strip_end s characters _).1 rfl
    exact ⟨[], by simp, by simp, h1⟩

/-- Without characters `strip` removes white space but `strip_begin` and `strip_end` do
nothing. -/
theorem C48_no_characters :
    strip " a ".toList [] = "a".toList ∧ ∀ s, stripBegin s [] = s ∧ stripEnd s [] = s := by
  refine ⟨by decide +kernel, fun s => ⟨?_, ?_⟩⟩
  · rw [C48_strip_begin]; exact ⟨[], by simp, by simp, by simp⟩
  · rw [C48_strip_end]; exact ⟨[], by simp, by simp, by simp⟩

/-! ### C68: substrings and replacement -/

/-- `starts_with`, `ends_with` and `contains` hold exactly for prefixes, suffixes and
substrings. -/
theorem C68_substrings (s sub : Str) :
    (startsWith s sub = true ↔ ∃ b, s = sub ++ b) ∧
    (endsWith s sub = true ↔ ∃ a, s = a ++ sub) ∧
    (containsSub s sub = true ↔ ∃ a b, s = a ++ sub ++ b) :=
  ⟨startsWith_iff, endsWith_iff, containsSub_iff⟩

example : startsWith "abc".toList "ab".toList = true ∧ endsWith "abc".toList "bc".toList = true ∧
    containsSub "abc".toList "b".toList = true ∧ containsSub "abc".toList "ac".toList = false := by
  decide +kernel

/-- `r` is `s` with the leftmost non-overlapping occurrences of `old` replaced: `s` is some text
in which `old` does not occur before the next chosen occurrence, the occurrence, and so on. -/
inductive Spec.Replaced (old new : List Char) : List Char → List Char → Prop
  | done (s : List Char) : (∀ a b, s ≠ a ++ old ++ b) → Spec.Replaced old new s s
  | step (pre rest r : List Char) :
      (∀ a b, pre ++ old ++ rest = a ++ old ++ b → pre.length ≤ a.length) →
      Spec.Replaced old new rest r → Spec.Replaced old new (pre ++ old ++ rest) (pre ++ new ++ r)

theorem replaceLoop_skip (old new : Str) (pre rest : Str)
    (h : ∀ a b, pre ++ old ++ rest = a ++ old ++ b → pre.length ≤ a.length) (ho : old ≠ []) :
    replaceLoop old new (pre ++ old ++ rest) = pre ++ new ++ replaceLoop old new rest := by
  induction pre with
  | nil =>
    rw [List.nil_append, List.nil_append]
    cases old with
    | nil => exact absurd rfl ho
    | cons x xs =>
      rw [List.cons_append, replaceLoop, if_pos]
      · rw [← List.cons_append, List.drop_left]
      · rw [Bool.and_eq_true, startsWith_iff]
        exact ⟨⟨rest, rfl⟩, rfl⟩
  | cons x pre ih =>
    rw [List.cons_append, List.cons_append, replaceLoop, if_neg]
    · rw [ih, List.cons_append, List.cons_append]
      intro a b e
      have := h (x :: a) b (by rw [List.cons_append, List.cons_append, e]; rfl)
      simpa using this
    · rw [Bool.and_eq_true, startsWith_iff]
      rintro ⟨⟨b, e⟩, -⟩
      have := h [] b (by rw [List.nil_append, ← e]; rfl)
      simp at this

theorem replaceLoop_absent (old new s : Str) (h : ∀ a b, s ≠ a ++ old ++ b) :
    replaceLoop old new s = s := by
  induction s with
  | nil => rw [replaceLoop]
  | cons c cs ih =>
    rw [replaceLoop, if_neg, ih]
    · intro a b e
      exact h (c :: a) b (by rw [e]; rfl)
    · rw [Bool.and_eq_true, startsWith_iff]
      rintro ⟨⟨b, e⟩, -⟩
      exact h [] b (by rw [List.nil_append]; exact e)

/-- Either the string does not occur, or there is a leftmost occurrence. -/
theorem leftmost (old s : Str) : (∀ a b, s ≠ a ++ old ++ b) ∨
    ∃ pre rest, s = pre ++ old ++ rest ∧
      ∀ a b, pre ++ old ++ rest = a ++ old ++ b → pre.length ≤ a.length := by
  by_cases h : ∃ n, ∃ a b : Str, a.length = n ∧ s = a ++ old ++ b
  · classical
    right
    obtain ⟨a, b, hl, e⟩ := Nat.find_spec h
    refine ⟨a, b, e, fun a' b' e' => ?_⟩
    rw [hl]
    exact Nat.find_min' h ⟨a', b', rfl, e.trans e'⟩
  · left
    intro a b e
    exact h ⟨a.length, a, b, rfl, e⟩

/-- `replace` replaces the leftmost non-overlapping occurrences, in a single pass. -/
theorem C68_replace (s old new r : Str) (ho : old ≠ []) :
    replaceAll s old new = r ↔ Spec.Replaced old new s r := by
  have back : ∀ r, Spec.Replaced old new s r → replaceAll s old new = r := by
    intro r h
    rw [replaceAll]
    induction h with
    | done s h => exact replaceLoop_absent old new s h
    | step pre rest r h _ ih => rw [replaceLoop_skip old new pre rest h ho, ih]
  have ex : ∃ r, Spec.Replaced old new s r := by
    clear back
    induction hn : s.length using Nat.strong_induction_on generalizing s with
    | _ n ih =>
      rcases leftmost old s with h | ⟨pre, rest, rfl, h⟩
      · exact ⟨s, .done s h⟩
      · have hp := List.length_pos_iff.2 ho
        obtain ⟨r, hr⟩ := ih rest.length (by
          rw [← hn, List.length_append, List.length_append]; omega) rest rfl
        exact ⟨_, .step pre rest r h hr⟩
  constructor
  · rintro rfl
    obtain ⟨r, hr⟩ := ex
    rwa [back r hr]
  · exact back r

/-- One pass may leave an occurrence: the warning of the documentation. -/
theorem C68_single_pass :
    replaceAll "a///b".toList "//".toList "/".toList = "a//b".toList := by decide +kernel

end Fern
