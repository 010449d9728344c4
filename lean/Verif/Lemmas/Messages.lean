import Verif.Lemmas.Print
import Verif.Lemmas.Strings
import Verif.Spec.Messages

/-!
# Lemmas on the texts of errors
-/

namespace Fern.Messages

open Fern Fern.Messages.Spec

theorem natDecimal (n : Nat) : (toString n).toList = Nat.toDigits 10 n := by
  change (Nat.repr n).toList = _
  simp [Nat.repr]

theorem formatInt_eq (v : Int) : formatInt v = decimal v := by
  rw [decimal, formatInt]
  cases v with
  | ofNat n =>
    rw [if_neg (by simp)]
    exact (natDecimal n).symm
  | negSucc n =>
    rw [if_pos (Int.negSucc_lt_zero n)]
    change _ = ("-" ++ Nat.repr (n + 1)).toList
    simp [Nat.repr, Int.natAbs_negSucc]

theorem decimal_nat (n : Nat) : decimal (n : Int) = Nat.toDigits 10 n := by
  rw [← formatInt_eq, formatInt, if_neg (by omega), Int.natAbs_natCast]

/-! ## `boost::format` -/

/-- The items of a piece. -/
def items : Piece → List Item
  | .text s => s.map .char
  | .slot n => [.argument n]

theorem parse_digits (d s ds : Str) (h : ∀ c ∈ d, c.isDigit = true) :
    parseFormat (some ds) (d ++ s) = parseFormat (some (ds ++ d)) s := by
  induction d generalizing ds with
  | nil => simp
  | cons c d ih =>
    have hc := h c (by simp)
    have hp : c ≠ '%' := by
      rintro rfl
      exact absurd hc (by decide)
    rw [List.cons_append, parseFormat, if_neg hp, if_pos hc, ih _ fun x hx => h x (by simp [hx])]
    simp

theorem parse_piece (p : Piece) (s : Str) :
    parseFormat none (p.written ++ s) = (parseFormat none s).map (items p ++ ·) := by
  cases p with
  | text t =>
    rw [Piece.written, items]
    induction t with
    | nil => simp
    | cons c t ih =>
      rw [List.flatMap_cons, List.append_assoc]
      have hmap : (parseFormat none s).map (List.map Item.char (c :: t) ++ ·) =
          ((parseFormat none s).map (List.map Item.char t ++ ·)).map (Item.char c :: ·) := by
        rw [Option.map_map]; rfl
      rw [hmap, ← ih]
      by_cases hc : c = '%'
      · subst hc
        rw [if_pos rfl]
        simp only [List.cons_append, List.nil_append]
        rw [parseFormat, if_pos rfl, parseFormat, if_pos rfl, if_pos rfl]
      · rw [if_neg hc]
        simp only [List.cons_append, List.nil_append]
        rw [parseFormat, if_neg hc]
  | slot n =>
    rw [Piece.written, items, natDecimal]
    have hd : ∀ c ∈ Nat.toDigits 10 (n + 1), c.isDigit = true := fun c hc =>
      Nat.isDigit_of_mem_toDigits (by decide) (by decide) hc
    have hv : Nat.ofDigitChars 10 (Nat.toDigits 10 (n + 1)) 0 = n + 1 := Nat.ofDigitChars_ten_toDigits
    rw [List.cons_append, parseFormat, if_pos rfl, List.append_assoc, parse_digits _ _ _ hd, List.nil_append,
      List.singleton_append, parseFormat, if_pos rfl, if_neg Nat.toDigits_ne_nil, hv, if_neg (by omega)]
    rfl

theorem parse_written (ps : List Piece) : parseFormat none (written ps) = some (ps.flatMap items) := by
  induction ps with
  | nil => rfl
  | cons p ps ih =>
    have : written (p :: ps) = p.written ++ written ps := by simp [written]
    rw [this, parse_piece, ih]
    rfl

theorem nrArguments_append (a b : List Item) : nrArguments (a ++ b) = max (nrArguments a) (nrArguments b) := by
  induction a with
  | nil => simp [nrArguments]
  | cons i a ih =>
    cases i <;> simp only [List.cons_append, nrArguments, ih]
    omega

theorem nrArguments_text (s : Str) : nrArguments (s.map .char) = 0 := by
  induction s with
  | nil => rfl
  | cons c s ih => exact ih

theorem nrArguments_le (ps : List Piece) (k : Nat) :
    nrArguments (ps.flatMap items) ≤ k ↔ ∀ n, Piece.slot n ∈ ps → n < k := by
  induction ps with
  | nil => simp [nrArguments]
  | cons p ps ih =>
    rw [List.flatMap_cons, nrArguments_append, Nat.max_le, ih]
    cases p with
    | text s =>
      rw [items, nrArguments_text]
      simp
    | slot m =>
      simp only [items, nrArguments, List.mem_cons, Piece.slot.injEq]
      constructor
      · rintro ⟨h1, h2⟩ n (rfl | h)
        · omega
        · exact h2 n h
      · intro h
        exact ⟨by have := h m (Or.inl rfl); omega, fun n hn => h n (Or.inr hn)⟩

theorem nrArguments_attained (ps : List Piece) (h : nrArguments (ps.flatMap items) ≠ 0) :
    Piece.slot (nrArguments (ps.flatMap items) - 1) ∈ ps := by
  induction ps with
  | nil => exact absurd rfl h
  | cons p ps ih =>
    rw [List.flatMap_cons, nrArguments_append] at h ⊢
    cases p with
    | text s =>
      rw [items, nrArguments_text] at h ⊢
      rw [Nat.zero_max] at h ⊢
      exact List.mem_cons_of_mem _ (ih h)
    | slot m =>
      simp only [items, nrArguments, Nat.max_zero] at h ⊢
      rcases Nat.le_total (m + 1) (nrArguments (ps.flatMap items)) with hm | hm
      · rw [Nat.max_eq_right hm] at h ⊢
        exact List.mem_cons_of_mem _ (ih h)
      · rw [Nat.max_eq_left hm]
        exact List.mem_cons_self

theorem render_append (args : List Str) (a b : List Item) : render args (a ++ b) = render args a ++ render args b := by
  induction a with
  | nil => rfl
  | cons i a ih => cases i <;> simp [render, ih]

theorem render_written (args : List Str) (ps : List Piece) : render args (ps.flatMap items) = filled args ps := by
  induction ps with
  | nil => rfl
  | cons p ps ih =>
    have hf : filled args (p :: ps) = p.filled args ++ filled args ps := by simp [filled]
    rw [List.flatMap_cons, render_append, ih, hf]
    clear hf
    congr 1
    cases p with
    | text s =>
      rw [items, Piece.filled]
      induction s with
      | nil => rfl
      | cons c s ih => rw [List.map_cons, render, ih]
    | slot n => simp [items, render, Piece.filled, List.getD]

theorem fits_iff (args : List Str) (ps : List Piece) :
    Fits args ps ↔ nrArguments (ps.flatMap items) = args.length := by
  constructor
  · rintro ⟨h1, h2⟩
    refine Nat.le_antisymm ((nrArguments_le ps _).2 h1) ?_
    by_cases ha : args = []
    · simp [ha]
    · have := (nrArguments_le ps _).1 le_rfl _ (h2 ha)
      have : 0 < args.length := List.length_pos_iff.2 ha
      omega
  · intro h
    refine ⟨(nrArguments_le ps _).1 h.le, fun ha => ?_⟩
    have : 0 < args.length := List.length_pos_iff.2 ha
    rw [← h]
    exact nrArguments_attained ps (by omega)

theorem template_eq (i : Id) : template i = some (written (templateOf i)) := by
  cases i <;> decide +kernel

/-- The number of arguments of a message. -/
theorem nrArguments_templateOf (i : Id) : nrArguments ((templateOf i).flatMap items) = nrSlots i := by
  cases i <;> decide +kernel

theorem formatMessage_eq (i : Id) (args : List Str) (h : args.length = nrSlots i) :
    formatMessage i args = .text (filled args (templateOf i)) := by
  rw [formatMessage, template_eq]
  simp only
  rw [format, parse_written]
  simp only
  rw [nrArguments_templateOf, if_neg (by omega), if_neg (by omega), render_written]

theorem formatMessage_few (i : Id) (args : List Str) (h : args.length < nrSlots i) :
    formatMessage i args = .tooFewArguments := by
  rw [formatMessage, template_eq]
  simp only
  rw [format, parse_written]
  simp only
  rw [nrArguments_templateOf, if_neg (by omega), if_pos h]

theorem formatMessage_many (i : Id) (args : List Str) (h : nrSlots i < args.length) :
    formatMessage i args = .tooManyArguments := by
  rw [formatMessage, template_eq]
  simp only
  rw [format, parse_written]
  simp only
  rw [nrArguments_templateOf, if_pos h]

theorem filled_unsupported (c : Str) : filled [c] (templateOf .unsupportedLanguageConstruct) =
    "Unsupported language construct: ".toList ++ c := by
  simp only [filled, templateOf, List.flatMap_cons, List.flatMap_nil, Piece.filled]
  simp

theorem filled_undefinedIdentifier (c : Str) : filled [c] (templateOf .undefinedIdentifier) =
    "Undefined identifier: ".toList ++ c := by
  simp only [filled, templateOf, List.flatMap_cons, List.flatMap_nil, Piece.filled]
  simp

theorem filled_undefinedOperation (c : Str) : filled [c] (templateOf .undefinedOperation) =
    "Undefined operation: ".toList ++ c := by
  simp only [filled, templateOf, List.flatMap_cons, List.flatMap_nil, Piece.filled]
  simp

theorem filled_wrongNumber (n : Str) (a b : Nat) :
    filled [n, Nat.toDigits 10 a, Nat.toDigits 10 b] (templateOf .wrongNumberOfArguments) =
    "Wrong number of arguments for operation: ".toList ++ n ++ ": ".toList ++ decimal a ++
      " required, but ".toList ++ decimal b ++ " provided".toList := by
  simp only [filled, templateOf, List.flatMap_cons, List.flatMap_nil, Piece.filled, decimal_nat]
  simp only [List.append_assoc, List.append_nil]
  rfl

theorem filled_wrongType (n r p : Str) (a : Nat) :
    filled [Nat.toDigits 10 a, n, r, p] (templateOf .wrongTypeOfArgument) =
    "Wrong type of argument ".toList ++ decimal a ++ " provided for operation: ".toList ++ n ++ ": ".toList ++ r ++
      " required, but ".toList ++ p ++ " provided".toList := by
  simp only [filled, templateOf, List.flatMap_cons, List.flatMap_nil, Piece.filled, decimal_nat]
  simp only [List.append_assoc, List.append_nil]
  rfl

theorem whenText_text (s : Str) (f : Str → Reported) : (Reported.text s).whenText f = f s := rfl

/-! ## Stripping -/

theorem stripped_nil (s : Str) : strip s ['\n'] = [] ↔ ∀ c ∈ s, c = '\n' := by
  have key : ∀ (p : Char → Bool) (t : Str), t.dropWhile p = [] ↔ ∀ c ∈ t, p c = true := by
    intro p t
    induction t with
    | nil => simp
    | cons c t ih =>
      rw [List.dropWhile_cons]
      by_cases hc : p c = true
      · simp [hc, ih]
      · simp [hc]
  have hin : ∀ c, inSet ['\n'] c = true ↔ c = '\n' := by
    intro c
    simp [inSet]
  rw [strip, if_neg (by simp), stripEnd, trimRightIf, List.reverse_eq_nil_iff, key, stripBegin, trimLeftIf]
  constructor
  · intro h
    have h' : s.dropWhile (inSet ['\n']) = [] := by
      by_contra hne
      have h1 := List.head_dropWhile_not (inSet ['\n']) hne
      have h2 := h _ (List.mem_reverse.2 (List.head_mem hne))
      rw [h2] at h1
      exact absurd h1 (by simp)
    intro c hc
    exact (hin c).1 ((key _ _).1 h' c hc)
  · intro h c hc
    have h' : s.dropWhile (inSet ['\n']) = [] := (key _ _).2 fun c hc => (hin c).2 (h c hc)
    rw [h'] at hc
    simp at hc

/-! ## Separators -/

/-- What comes before the first separator. -/
theorem before_unique {x : Char} {a a' b b' : Str} (ha : x ∉ a) (ha' : x ∉ a') (h : a ++ x :: b = a' ++ x :: b') :
    a = a' ∧ b = b' := by
  induction a generalizing a' with
  | nil =>
    cases a' with
    | nil => simpa using h
    | cons c a' =>
      simp only [List.nil_append, List.cons_append, List.cons.injEq] at h
      exact absurd (h.1 ▸ List.mem_cons_self) ha'
  | cons c a ih =>
    cases a' with
    | nil =>
      simp only [List.nil_append, List.cons_append, List.cons.injEq] at h
      exact absurd (h.1 ▸ List.mem_cons_self) ha
    | cons c' a' =>
      simp only [List.cons_append, List.cons.injEq] at h
      obtain ⟨h1, h2⟩ := ih (fun hx => ha (List.mem_cons_of_mem _ hx)) (fun hx => ha' (List.mem_cons_of_mem _ hx)) h.2
      exact ⟨by rw [h.1, h1], h2⟩

theorem decimal_noColon (v : Int) : ':' ∉ decimal v := by
  rw [← formatInt_eq, formatInt]
  have hd : ∀ n : Nat, ':' ∉ Nat.toDigits 10 n := fun n hn => by
    have := Nat.isDigit_of_mem_toDigits (b := 10) (n := n) (by decide) (by decide) hn
    exact absurd this (by decide)
  split
  · simpa using hd _
  · exact hd _

theorem decimal_injective {v v' : Int} (h : decimal v = decimal v') : v = v' := by
  rw [← formatInt_eq, ← formatInt_eq] at h
  have := formatInt_unique (v := v) (v' := v') (r := []) (r' := []) (by simp) (by simp) (by rw [h])
  exact this.1

end Fern.Messages
