import Verif.Lemmas.Messages

/-!
# C89: the texts of errors
-/

namespace Fern.Messages

open Fern Fern.Messages.Spec

/-! ## Templates -/

/-- C89: if there are as many arguments as the template asks for, each slot is filled with its argument, character by
character; whatever the text and the arguments contain. -/
theorem C89_format (ps : List Piece) (args : List Str) (h : Fits args ps) :
    format (written ps) args = .text (filled args ps) := by
  have h' := (fits_iff args ps).1 h
  rw [format, parse_written]
  simp only
  rw [if_neg (by omega), if_neg (by omega), render_written]

example : Fits ["50%1%".toList, "x".toList] [.text "a%".toList, .slot 1, .slot 0, .slot 1] ∧
    filled ["50%1%".toList, "x".toList] [.text "a%".toList, .slot 1, .slot 0, .slot 1] = "a%x50%1%x".toList ∧
    written [.text "a%".toList, .slot 1, .slot 0, .slot 1] = "a%%%2%%1%%2%".toList := by
  refine ⟨⟨?_, ?_⟩, by decide +kernel, by decide +kernel⟩
  · intro n hn
    simp only [List.mem_cons, Piece.slot.injEq, reduceCtorEq, List.not_mem_nil, or_false, false_or] at hn
    simp only [List.length_cons, List.length_nil]
    omega
  · intro _
    simp

/-- C89: if there is a slot without argument, asking for the text is an exception. -/
theorem C89_format_few (ps : List Piece) (args : List Str) (n : Nat) (hn : Piece.slot n ∈ ps)
    (h : args.length ≤ n) : format (written ps) args = .tooFewArguments := by
  have := (nrArguments_le ps _).1 le_rfl n hn
  rw [format, parse_written]
  simp only
  rw [if_neg (by omega), if_pos (by omega)]

/-- C89: if there are slots for fewer arguments than given, that is an exception too. -/
theorem C89_format_many (ps : List Piece) (args : List Str) (hn : ∀ n, Piece.slot n ∈ ps → n + 1 < args.length)
    (h : args ≠ []) : format (written ps) args = .tooManyArguments := by
  have hl : 0 < args.length := List.length_pos_iff.2 h
  have := (nrArguments_le ps (args.length - 1)).2 fun n hp => by have := hn n hp; omega
  rw [format, parse_written]
  simp only
  rw [if_pos (by omega)]

example : format "%3%".toList ["x".toList] = .tooFewArguments ∧ format "a%1%".toList ["x".toList, "y".toList] =
    .tooManyArguments := by decide +kernel

/-! ## The messages -/

/-- C89: all messages exist: looking one up never fails. -/
theorem C89_total (i : Id) : ∃ s, template i = some s := by
  cases i <;> exact ⟨_, rfl⟩

/-- C89: wherever a message is used as it is, its text has no placeholders. -/
theorem C89_bare (i : Id) (h : i ∈ usedBare) : ∃ s, message i = .text s ∧ '%' ∉ s := by
  simp only [usedBare, List.mem_cons, List.not_mem_nil, or_false] at h
  rcases h with rfl | rfl | rfl | rfl | rfl <;> exact ⟨_, rfl, by decide +kernel⟩

/-- C89: what is used as it is, is used with all its placeholders. -/
theorem C89_bare_text (i : Id) : message i = .text (written (templateOf i)) := by
  rw [message, template_eq]

/-- C89: each message is its template, filled with the arguments, if there is one for each slot. -/
theorem C89_message (i : Id) (args : List Str) :
    formatMessage i args =
      if args.length = nrSlots i then .text (filled args (templateOf i))
      else if args.length < nrSlots i then .tooFewArguments else .tooManyArguments := by
  split
  · exact formatMessage_eq i args ‹_›
  · split
    · exact formatMessage_few i args ‹_›
    · exact formatMessage_many i args (by omega)

example : formatMessage .unsupportedValueType ["100%".toList, "CInt16".toList] =
    .text "Unsupported value type: 100%: CInt16".toList := by decide +kernel

/-- C89: wherever a message is formatted, the number of arguments is the one that its template has: the result is
text, whatever the arguments are. -/
theorem C89_uses (i : Id) (k : Nat) (h : (i, k) ∈ usedWith) (args : List Str) (ha : args.length = k) :
    formatMessage i args = .text (filled args (templateOf i)) := by
  have key : ∀ e ∈ usedWith, e.2 = nrSlots e.1 := by decide +kernel
  exact formatMessage_eq i args (ha.trans (key _ h))

example : (Id.wrongTypeOfArgument, 4) ∈ usedWith := by decide

/-! ## The exceptions -/

/-- C89: the text of an error of input or output. -/
theorem C89_io (source message : Str) :
    (makeIO source message).text =
      .text ("I/O error handling ".toList ++ source ++ ": ".toList ++ message) := by
  change formatMessage .ioError [source, message] = _
  rw [formatMessage_eq _ _ rfl]
  simp [filled, templateOf, Piece.filled, t]

/-- C89: the text of an error in a script, without the statement. -/
theorem C89_parse (asserts : Bool) (source : Str) (line col : Int) (message : Str) (h : source ≠ []) :
    (makeParse asserts source line col message).text =
      .text ("Error parsing ".toList ++ place source line col ++ ": ".toList ++ message) := by
  rw [makeParse, if_neg (fun x => h x.2)]
  simp only [Made.text]
  rw [Error.text, if_pos rfl, formatMessage_eq _ _ rfl]
  simp [filled, templateOf, Piece.filled, t, place, formatInt_eq]

/-- C89: the text of an error in a script, with the statement. -/
theorem C89_statement (asserts : Bool) (source : Str) (line col : Int) (statement message : Str) (h : source ≠ [])
    (hs : statement ≠ []) :
    (makeParseStatement asserts source line col statement message).text =
      .text ("Error parsing ".toList ++ place source line col ++ ":".toList ++ statement ++ ": ".toList ++
        message) := by
  rw [makeParseStatement, if_neg (fun x => h x.2), if_neg (fun x => hs x.2)]
  simp only [Made.text]
  rw [Error.text, if_neg hs, formatMessage_eq _ _ rfl]
  simp [filled, templateOf, Piece.filled, t, place, formatInt_eq]

/-- C89: if the statement is empty, an assertion fails when the error is made; without assertions, asking for the
text of the error is an exception of another kind. -/
theorem C89_statement_empty (asserts : Bool) (source : Str) (line col : Int) (message : Str) (h : source ≠ []) :
    (makeParseStatement asserts source line col [] message).text =
      if asserts then .assertion else .tooFewArguments := by
  rw [makeParseStatement, if_neg (fun x => h x.2)]
  cases asserts with
  | true => rfl
  | false =>
    rw [if_neg (by simp)]
    simp only [Made.text]
    rw [Error.text, if_pos rfl, formatMessage_few _ _ (by change 4 < nrSlots Id.errorParsingStatement; decide +kernel)]
    rfl

/-- C89: the text of an error found by validation. -/
theorem C89_validate (asserts : Bool) (source : Str) (line col : Int) (message : Str) (h : source ≠ []) :
    (makeValidate asserts source line col message).text =
      .text (place source line col ++ ": ".toList ++ message) := by
  rw [makeValidate, if_neg (fun x => h x.2)]
  simp only [Made.text]
  rw [Error.text, formatMessage_eq _ _ rfl]
  simp [filled, templateOf, Piece.filled, t, place, formatInt_eq]

example : (makeValidate true "a%1%.ran".toList 3 (-1) "x".toList).text = .text "a%1%.ran:3:-1: x".toList := by
  decide +kernel

/-- C89: an error of a script, from where it is found: the text tells the source, the place and what is wrong; if the
name of the source isn't empty, and the statement that a syntax error is about isn't. -/
theorem C89_described (asserts : Bool) (e : Low) (h : NamedSource e) (hs : SomeStatement e) :
    e.text asserts = .text (described e) := by
  cases e with
  | fileOpen source error => exact C89_io source error
  | syntaxError source line col statement message =>
    refine C89_statement asserts source line col _ message h fun hn => ?_
    obtain ⟨c, hc, hc'⟩ := hs
    exact hc' ((stripped_nil statement).1 hn c hc)
  | xml line col message => exact C89_parse asserts _ line col message (by decide)
  | unsupported source line col construct =>
    simp only [Low.text]
    rw [formatMessage_eq .unsupportedLanguageConstruct [construct] rfl, filled_unsupported, whenText_text, C89_parse asserts source line col _ h]
    rfl
  | undefinedIdentifier source line col name =>
    simp only [Low.text]
    rw [formatMessage_eq .undefinedIdentifier [name] rfl, filled_undefinedIdentifier, whenText_text, C89_validate asserts source line col _ h]
    rfl
  | undefinedOperation source line col name =>
    simp only [Low.text]
    rw [formatMessage_eq .undefinedOperation [name] rfl, filled_undefinedOperation, whenText_text, C89_validate asserts source line col _ h]
    rfl
  | wrongNumber source line col name required provided =>
    simp only [Low.text]
    rw [formatMessage_eq .wrongNumberOfArguments [name, _, _] rfl, filled_wrongNumber, whenText_text, C89_validate asserts source line col _ h]
    rfl
  | wrongType source line col name argument required provided =>
    simp only [Low.text]
    rw [formatMessage_eq .wrongTypeOfArgument [_, name, _, _] rfl, filled_wrongType, whenText_text, C89_validate asserts source line col _ h]
    rfl

example : NamedSource (.syntaxError "m.ran".toList 2 5 "a b\n".toList "invalid syntax".toList) ∧
    SomeStatement (.syntaxError "m.ran".toList 2 5 "a b\n".toList "invalid syntax".toList) ∧
    described (.syntaxError "m.ran".toList 2 5 "a b\n".toList "invalid syntax".toList) =
      "Error parsing m.ran:2:5:a b: invalid syntax".toList := by
  refine ⟨by simp [NamedSource], ⟨'a', by decide, by decide⟩, by decide +kernel⟩

/-- C89: a syntax error about a statement that has nothing but ends of lines can't be told to the user. -/
theorem C89_syntax_undescribed (asserts : Bool) (source : Str) (line col : Int) (statement message : Str)
    (h : source ≠ []) (hs : ∀ c ∈ statement, c = '\n') :
    (Low.syntaxError source line col statement message).text asserts =
      if asserts then .assertion else .tooFewArguments := by
  rw [Low.text, (stripped_nil statement).2 hs]
  exact C89_statement_empty asserts source line col message h

example : ∀ c ∈ "\n".toList, c = '\n' := by decide

/-! ## What the texts determine -/

/-- C89: two errors found by validation that have the same text and source have the same place and message; and if
the names of the sources have no colon, they have the same source. -/
theorem C89_validate_determined (source source' : Str) (line line' col col' : Int) (message message' : Str)
    (hs : source = source' ∨ (':' ∉ source ∧ ':' ∉ source'))
    (h : place source line col ++ ": ".toList ++ message = place source' line' col' ++ ": ".toList ++ message') :
    source = source' ∧ line = line' ∧ col = col' ∧ message = message' := by
  have e : ∀ (s : Str) (l c : Int) (m : Str), place s l c ++ ": ".toList ++ m =
      s ++ ':' :: (decimal l ++ ':' :: (decimal c ++ ':' :: (' ' :: m))) := by
    intro s l c m
    simp [place]
  rw [e, e] at h
  have hb : source = source' ∧ decimal line ++ ':' :: (decimal col ++ ':' :: (' ' :: message)) =
      decimal line' ++ ':' :: (decimal col' ++ ':' :: (' ' :: message')) := by
    rcases hs with rfl | ⟨h1, h2⟩
    · refine ⟨rfl, ?_⟩
      have := List.append_cancel_left h
      simpa using this
    · exact before_unique h1 h2 h
  obtain ⟨h1, h2⟩ := before_unique (decimal_noColon line) (decimal_noColon line') hb.2
  obtain ⟨h3, h4⟩ := before_unique (decimal_noColon col) (decimal_noColon col') h2
  refine ⟨hb.1, decimal_injective h1, decimal_injective h3, ?_⟩
  simpa using h4

/-- C89: the same for errors of parsing. -/
theorem C89_parse_determined (source source' : Str) (line line' col col' : Int) (message message' : Str)
    (hs : source = source' ∨ (':' ∉ source ∧ ':' ∉ source'))
    (h : "Error parsing ".toList ++ place source line col ++ ": ".toList ++ message =
      "Error parsing ".toList ++ place source' line' col' ++ ": ".toList ++ message') :
    source = source' ∧ line = line' ∧ col = col' ∧ message = message' := by
  refine C89_validate_determined source source' line line' col col' message message' hs ?_
  simp only [List.append_assoc] at h ⊢
  exact List.append_cancel_left h

example : ':' ∉ "m.ran".toList ∧ place "m.ran".toList 12 3 ++ ": ".toList ++ "x: y".toList = "m.ran:12:3: x: y".toList := by
  constructor <;> decide +kernel

/-- C89: in general the texts don't determine the errors: a name with a colon, or a statement with one, can be read
in more than one way; and so can the text of an error with a statement, as one without. -/
theorem C89_ambiguous :
    (place "a".toList 1 2 ++ ": ".toList ++ ":3:4: x".toList = place "a:1:2: ".toList 3 4 ++ ": ".toList ++ "x".toList) ∧
    (∃ (s : Str) (st st' m m' : Str), st ≠ st' ∧ st ≠ [] ∧ st' ≠ [] ∧
      (makeParseStatement true s 1 2 st m).text = (makeParseStatement true s 1 2 st' m').text ∧ s ≠ []) ∧
    (∃ (s st m m' : Str), s ≠ [] ∧ st ≠ [] ∧
      (makeParseStatement true s 1 2 st m).text = (makeParse true s 1 2 m').text) := by
  refine ⟨by decide +kernel, ⟨"s".toList, "a".toList, "a: b".toList, "b: c".toList, "c".toList, ?_⟩,
    ⟨"s".toList, " a".toList, "b".toList, "a: b".toList, ?_⟩⟩
  · refine ⟨by decide, by decide, by decide, by decide +kernel, by decide⟩
  · refine ⟨by decide, by decide, by decide +kernel⟩

end Fern.Messages
