import Verif.Model.Messages

/-!
# Specification of the texts of errors

A template is a list of pieces: text, and slots for arguments. How a template is written as a format string and what
its text is, are given here without parsing; and the text of each error.
-/

namespace Fern.Messages.Spec

open Fern Fern.Messages

/-- A piece of a template. -/
inductive Piece
  | text (s : Str)
  /-- The slot for an argument, counted from 0. -/
  | slot (n : Nat)

/-- The piece in a format string: per cent signs are doubled. -/
def Piece.written : Piece → Str
  | .text s => s.flatMap fun c => if c = '%' then ['%', '%'] else [c]
  | .slot n => '%' :: ((toString (n + 1)).toList ++ ['%'])

/-- The template as format string. -/
def written (ps : List Piece) : Str := ps.flatMap Piece.written

/-- The text of a piece, given the arguments. -/
def Piece.filled (args : List Str) : Piece → Str
  | .text s => s
  | .slot n => args[n]?.getD []

/-- The text of a template, given the arguments. -/
def filled (args : List Str) (ps : List Piece) : Str := ps.flatMap (Piece.filled args)

/-- There are as many arguments as the template asks for: one for each slot, and the last one has a slot. -/
def Fits (args : List Str) (ps : List Piece) : Prop :=
  (∀ n, Piece.slot n ∈ ps → n < args.length) ∧ (args ≠ [] → Piece.slot (args.length - 1) ∈ ps)

/-- A piece of text. -/
abbrev t (s : String) : Piece := .text s.toList

/-- The messages as templates. -/
def templateOf : Id → List Piece
  | .unknownError => [t "Sorry, unknown error"]
  | .ioError => [t "I/O error handling ", .slot 0, t ": ", .slot 1]
  | .doesNotExist => [t "Does not exist"]
  | .cannotBeRead => [t "Cannot be read"]
  | .cannotBeWritten => [t "Cannot be written"]
  | .cannotBeCreated => [t "Cannot be created"]
  | .doesNotConformToConvention => [t "Does not conform to convention: ", .slot 0]
  | .doesNotContainVariable => [t "Does not contain variable: ", .slot 0]
  | .variableIsNotAScalar => [t "Variable is not a scalar: ", .slot 0]
  | .doesNotContainFeature => [t "Does not contain feature: ", .slot 0]
  | .doesNotContainAttribute => [t "Does not contain attribute: ", .slot 0]
  | .doesNotContainData => [t "Does not contain data: ", .slot 0]
  | .unsupportedValueType => [t "Unsupported value type: ", .slot 0, t ": ", .slot 1]
  | .noSuchDriver => [t "No such driver: ", .slot 0]
  | .errorParsing => [t "Error parsing ", .slot 0, t ":", .slot 1, t ":", .slot 2, t ": ", .slot 3]
  | .errorParsingStatement =>
    [t "Error parsing ", .slot 0, t ":", .slot 1, t ":", .slot 2, t ":", .slot 3, t ": ", .slot 4]
  | .unsupportedLanguageConstruct => [t "Unsupported language construct: ", .slot 0]
  | .undefinedIdentifier => [t "Undefined identifier: ", .slot 0]
  | .undefinedOperation => [t "Undefined operation: ", .slot 0]
  | .wrongNumberOfArguments =>
    [t "Wrong number of arguments for operation: ", .slot 0, t ": ", .slot 1, t " required, but ", .slot 2,
     t " provided"]
  | .wrongTypeOfArgument =>
    [t "Wrong type of argument ", .slot 0, t " provided for operation: ", .slot 1, t ": ", .slot 2,
     t " required, but ", .slot 3, t " provided"]
  | .errorValidating => [.slot 0, t ":", .slot 1, t ":", .slot 2, t ": ", .slot 3]

/-- The number of arguments of a message. -/
def nrSlots (i : Id) : Nat := (templateOf i).countP fun p => match p with | .slot _ => true | .text _ => false

/-- A number in decimal notation. -/
def decimal (n : Int) : Str := (toString n).toList

/-- A place in a script. -/
def place (source : Str) (line col : Int) : Str :=
  source ++ ":".toList ++ decimal line ++ ":".toList ++ decimal col

/-- The text of an error. -/
def described : Low → Str
  | .fileOpen source error => "I/O error handling ".toList ++ source ++ ": ".toList ++ error
  | .syntaxError source line col statement message =>
    "Error parsing ".toList ++ place source line col ++ ":".toList ++ strip statement ['\n'] ++ ": ".toList ++
      message
  | .xml line col message =>
    "Error parsing ".toList ++ place "<string>".toList line col ++ ": ".toList ++ message
  | .unsupported source line col construct =>
    "Error parsing ".toList ++ place source line col ++ ": ".toList ++
      ("Unsupported language construct: ".toList ++ construct)
  | .undefinedIdentifier source line col name =>
    place source line col ++ ": ".toList ++ ("Undefined identifier: ".toList ++ name)
  | .undefinedOperation source line col name =>
    place source line col ++ ": ".toList ++ ("Undefined operation: ".toList ++ name)
  | .wrongNumber source line col name required provided =>
    place source line col ++ ": ".toList ++ ("Wrong number of arguments for operation: ".toList ++ name ++
      ": ".toList ++ decimal required ++ " required, but ".toList ++ decimal provided ++ " provided".toList)
  | .wrongType source line col name argument required provided =>
    place source line col ++ ": ".toList ++ ("Wrong type of argument ".toList ++ decimal argument ++
      " provided for operation: ".toList ++ name ++ ": ".toList ++ required ++ " required, but ".toList ++
      provided ++ " provided".toList)

/-- The name of the source that is asserted not to be empty. -/
def NamedSource : Low → Prop
  | .fileOpen _ _ => True
  | .xml _ _ _ => True
  | .syntaxError s _ _ _ _ => s ≠ []
  | .unsupported s _ _ _ => s ≠ []
  | .undefinedIdentifier s _ _ _ => s ≠ []
  | .undefinedOperation s _ _ _ => s ≠ []
  | .wrongNumber s _ _ _ _ _ => s ≠ []
  | .wrongType s _ _ _ _ _ _ => s ≠ []

/-- If it is a syntax error, the statement has a character that is not the end of a line. -/
def SomeStatement : Low → Prop
  | .syntaxError _ _ _ statement _ => ∃ c ∈ statement, c ≠ '\n'
  | _ => True

end Fern.Messages.Spec
