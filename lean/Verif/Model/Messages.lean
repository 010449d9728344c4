import Verif.Model.Strings
import Verif.Model.Print

/-!
# The texts of errors

Model of `core/messages.cc`, `core/messages.h`, of the exceptions in `core/exception.cc`, `core/io_error.cc`,
`core/script_error.cc`, `core/parse_error.cc` and `core/validate_error.cc`, and of the places in
`language/interpreter/interpreter.cc`, `language/python/exception.cc` and `language/ast/xml/xml_parser.cc` that make
them.

Simplified:

* Of `boost::format` the directives `%N%` and `%%` are modelled, which are the ones that the templates have. Any
  other use of `%` gives `badFormat`.
* Arguments are given as the text that a stream writes for them.
* The text `std::strerror` gives for an error number is an argument.
-/

namespace Fern.Messages

open Fern

/-- `MessageId` (`core/message_id.h:14-48`). -/
inductive Id
  | unknownError
  | ioError | doesNotExist | cannotBeRead | cannotBeWritten | cannotBeCreated
  | doesNotConformToConvention | doesNotContainVariable | variableIsNotAScalar
  | doesNotContainFeature | doesNotContainAttribute | doesNotContainData | unsupportedValueType | noSuchDriver
  | errorParsing | errorParsingStatement
  | unsupportedLanguageConstruct | undefinedIdentifier | undefinedOperation | wrongNumberOfArguments
  | wrongTypeOfArgument
  | errorValidating
  deriving DecidableEq

/-- The insertions of the constructor of `Messages`, in order (`core/messages.cc:15-90`). -/
def table : List (Id × String) :=
  [(.unknownError, "Sorry, unknown error"),
   (.ioError, "I/O error handling %1%: %2%"),
   (.doesNotExist, "Does not exist"),
   (.cannotBeRead, "Cannot be read"),
   (.cannotBeWritten, "Cannot be written"),
   (.cannotBeCreated, "Cannot be created"),
   (.doesNotConformToConvention, "Does not conform to convention: %1%"),
   (.doesNotContainVariable, "Does not contain variable: %1%"),
   (.variableIsNotAScalar, "Variable is not a scalar: %1%"),
   (.doesNotContainFeature, "Does not contain feature: %1%"),
   (.doesNotContainAttribute, "Does not contain attribute: %1%"),
   (.doesNotContainData, "Does not contain data: %1%"),
   (.unsupportedValueType, "Unsupported value type: %1%: %2%"),
   (.noSuchDriver, "No such driver: %1%"),
   (.errorParsing, "Error parsing %1%:%2%:%3%: %4%"),
   (.errorParsingStatement, "Error parsing %1%:%2%:%3%:%4%: %5%"),
   (.unsupportedLanguageConstruct, "Unsupported language construct: %1%"),
   (.undefinedIdentifier, "Undefined identifier: %1%"),
   (.undefinedOperation, "Undefined operation: %1%"),
   (.wrongNumberOfArguments, "Wrong number of arguments for operation: %1%: %2% required, but %3% provided"),
   (.wrongTypeOfArgument,
     "Wrong type of argument %1% provided for operation: %2%: %3% required, but %4% provided"),
   (.errorValidating, "%1%:%2%:%3%: %4%")]

/-- What asking for a text can end in. -/
inductive Reported
  | text (s : Str)
  /-- A failing `assert`. -/
  | assertion
  /-- `boost::io::too_many_args`, `boost::io::too_few_args`: exceptions of `boost::format`. -/
  | tooManyArguments
  | tooFewArguments
  /-- A template that is not modelled. -/
  | badFormat
  deriving DecidableEq

/-- `Messages::operator[]` (`core/messages.cc:93-108`). `std::map::insert` keeps the first value. -/
def template (i : Id) : Option Str := ((table.find? fun e => e.1 = i).map fun e => e.2.toList)

/-! ## `boost::format` -/

/-- A piece of a format string. -/
inductive Item
  | char (c : Char)
  /-- `%N%`, `N` being the given number plus one. -/
  | argument (n : Nat)
  deriving DecidableEq

/-- The pieces of a format string. The first argument: the digits of a directive that has been started. -/
def parseFormat : Option Str → Str → Option (List Item)
  | none, [] => some []
  | some _, [] => none
  | none, c :: s => if c = '%' then parseFormat (some []) s else (parseFormat none s).map (Item.char c :: ·)
  | some ds, c :: s =>
    if c = '%' then
      if ds = [] then (parseFormat none s).map (Item.char '%' :: ·)
      else if Nat.ofDigitChars 10 ds 0 = 0 then none
      else (parseFormat none s).map (Item.argument (Nat.ofDigitChars 10 ds 0 - 1) :: ·)
    else if c.isDigit then parseFormat (some (ds ++ [c])) s
    else none

/-- The number of arguments that are expected: the largest number of a directive. -/
def nrArguments : List Item → Nat
  | [] => 0
  | .char _ :: is => nrArguments is
  | .argument n :: is => max (n + 1) (nrArguments is)

/-- The text of the pieces. -/
def render (args : List Str) : List Item → Str
  | [] => []
  | .char c :: is => c :: render args is
  | .argument n :: is => args.getD n [] ++ render args is

/-- `(boost::format(s) % a % b ...).str()`: feeding too many arguments throws, and so does asking for the text
after too few. -/
def format (s : Str) (args : List Str) : Reported :=
  match parseFormat none s with
  | none => .badFormat
  | some is =>
    if nrArguments is < args.length then .tooManyArguments
    else if args.length < nrArguments is then .tooFewArguments
    else .text (render args is)

/-- `Messages::format_message` (`core/messages.h:73-140`). -/
def formatMessage (i : Id) (args : List Str) : Reported :=
  match template i with
  | none => .assertion
  | some s => format s args

/-- `Exception::messages()[id]`, used as the text of an error. -/
def message (i : Id) : Reported :=
  match template i with
  | none => .assertion
  | some s => .text s

/-- The messages that are used as they are (`io/netcdf/coards/detail/read.h:57`, `io/netcdf/core/dataset.cc:31`,
`io/xml/parse.h:40-47`, `io/gdal/dataset.cc:31-42`, `language/io/fern/utils.cc:26-70`,
`language/io/gdal/gdal_dataset.cc:36-120`, `432`, `450`, `618-650`, `language/io/drivers.cc:76-77`). -/
def usedBare : List Id := [.doesNotExist, .cannotBeRead, .cannotBeWritten, .cannotBeCreated, .unknownError]

/-- The messages that are formatted, with the number of arguments (`io/netcdf/coards/detail/read.h:67`, `77`, `86`,
`language/operation/std/read.cc:55`, `language/interpreter/interpreter.cc:133`, `225`, `319`, `338`, `362`, `389`,
`language/io/fern/fern_dataset.cc:64`, `324`, `507`, `language/io/gdal/gdal_dataset.cc:293`, `376`, `471`, `496`,
`language/io/drivers.cc:33`). -/
def usedWith : List (Id × Nat) :=
  [(.doesNotConformToConvention, 1), (.doesNotContainVariable, 1), (.variableIsNotAScalar, 1),
   (.doesNotContainData, 1), (.unsupportedLanguageConstruct, 1), (.undefinedIdentifier, 1),
   (.undefinedOperation, 1), (.wrongNumberOfArguments, 3), (.wrongTypeOfArgument, 4),
   (.doesNotContainAttribute, 1), (.doesNotContainFeature, 1), (.unsupportedValueType, 2), (.noSuchDriver, 1)]

/-! ## The exceptions -/

/-- The classes of exceptions, with their members. -/
inductive Error
  /-- `IOError` (`core/io_error.h:42-44`). -/
  | io (source message : Str)
  /-- `ParseError`, with the members of `ScriptError` (`core/parse_error.h`, `core/script_error.h:43-47`); `id`: the
  member of `Exception`. -/
  | parse (id : Id) (source : Str) (line col : Int) (statement message : Str)
  /-- `ValidateError` (`core/validate_error.h`). -/
  | validate (source : Str) (line col : Int) (message : Str)
  deriving DecidableEq

/-- The result of a constructor: an exception or a failing `assert`. -/
abbrev Made := Option Error

/-- The constructors of `IOError` (`core/io_error.cc:15-24`, and `31-40` with the text of the error number). -/
def makeIO (source message : Str) : Made := some (.io source message)

/-- The first constructor of `ParseError` (`core/parse_error.cc:15-25`); the assertion is in the one of `ScriptError`
(`core/script_error.cc:15-28`). `asserts`: whether assertions are compiled in. -/
def makeParse (asserts : Bool) (source : Str) (line col : Int) (message : Str) : Made :=
  if asserts ∧ source = [] then none else some (.parse .errorParsing source line col [] message)

/-- The second constructor of `ParseError` (`core/parse_error.cc:28-42`). -/
def makeParseStatement (asserts : Bool) (source : Str) (line col : Int) (statement message : Str) : Made :=
  if asserts ∧ source = [] then none
  else if asserts ∧ statement = [] then none
  else some (.parse .errorParsingStatement source line col statement message)

/-- The constructor of `ValidateError` (`core/validate_error.cc:14-25`). -/
def makeValidate (asserts : Bool) (source : Str) (line col : Int) (message : Str) : Made :=
  if asserts ∧ source = [] then none else some (.validate source line col message)

/-- `message()` (`core/io_error.cc:46-52`, `core/parse_error.cc:45-68`, `core/validate_error.cc:28-40`). -/
def Error.text : Error → Reported
  | .io source message => formatMessage .ioError [source, message]
  | .parse i source line col statement message =>
    if statement = [] then formatMessage i [source, formatInt line, formatInt col, message]
    else formatMessage i [source, formatInt line, formatInt col, statement, message]
  | .validate source line col message =>
    formatMessage .errorValidating [source, formatInt line, formatInt col, message]

/-- Asking an exception that has been made for its text. -/
def Made.text : Made → Reported
  | none => .assertion
  | some e => e.text

/-- The exception made from the text of a message. -/
def Reported.whenText (r : Reported) (f : Str → Reported) : Reported :=
  match r with
  | .text s => f s
  | r => r

/-! ## From where an error is found to its text -/

/-- The exceptions of the lower level, with the information that they carry where they are thrown. -/
inductive Low
  /-- `FileOpenError` (`language/script/algebra_parser.cc:1024-1026`); the text of the error number. -/
  | fileOpen (source error : Str)
  /-- A syntax error (`language/python/exception.cc:36-85`): the text Python gives for the statement. -/
  | syntaxError (source : Str) (line col : Int) (statement message : Str)
  /-- An error of the XML parser (`language/ast/xml/xml_parser.cc:1208-1217`). -/
  | xml (line col : Int) (message : Str)
  /-- `UnsupportedLanguageConstruct` (`language/script/algebra_parser.cc:37-47`, `916-921`). -/
  | unsupported (source : Str) (line col : Int) (construct : Str)
  /-- What the validate visitor throws (`language/ast/visitor/validate_visitor.cc:26-86`), with the source of the tree. -/
  | undefinedIdentifier (source : Str) (line col : Int) (name : Str)
  | undefinedOperation (source : Str) (line col : Int) (name : Str)
  | wrongNumber (source : Str) (line col : Int) (name : Str) (required provided : Nat)
  | wrongType (source : Str) (line col : Int) (name : Str) (argument : Nat) (required provided : Str)

/-- The text of the exception that the interpreter makes of an exception of the lower level
(`language/interpreter/interpreter.cc:86-134`, `162-226`, `300-392`). -/
def Low.text (asserts : Bool) : Low → Reported
  | .fileOpen source error => (makeIO source error).text
  | .syntaxError source line col statement message =>
    (makeParseStatement asserts source line col (strip statement ['\n']) message).text
  | .xml line col message => (makeParse asserts "<string>".toList line col message).text
  | .unsupported source line col construct =>
    (formatMessage .unsupportedLanguageConstruct [construct]).whenText fun m =>
      (makeParse asserts source line col m).text
  | .undefinedIdentifier source line col name =>
    (formatMessage .undefinedIdentifier [name]).whenText fun m => (makeValidate asserts source line col m).text
  | .undefinedOperation source line col name =>
    (formatMessage .undefinedOperation [name]).whenText fun m => (makeValidate asserts source line col m).text
  | .wrongNumber source line col name required provided =>
    (formatMessage .wrongNumberOfArguments
      [name, Nat.toDigits 10 required, Nat.toDigits 10 provided]).whenText fun m =>
      (makeValidate asserts source line col m).text
  | .wrongType source line col name argument required provided =>
    (formatMessage .wrongTypeOfArgument
      [Nat.toDigits 10 argument, name, required, provided]).whenText fun m =>
      (makeValidate asserts source line col m).text

end Fern.Messages
