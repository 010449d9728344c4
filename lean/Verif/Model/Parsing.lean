import Verif.Model.Messages

/-!
# Parsing: references, errors and files

`language/python/{owned_reference,exception,string}.cc` and the functions of `language/script/algebra_parser.cc` that
call Python's parser. A failing assertion is `none`. Not modelled: Python's parser itself.
-/

namespace Fern.Parsing

/-! ## References to Python objects -/

/-- Objects of Python have a number of references. `outside` is how many of them belong to others than the
`OwnedReference`s of the program. -/
structure Refs where
  count : Nat → Nat
  outside : Nat → Nat
  /-- The living `OwnedReference`s, with the object that is layered (none: `NULL`). -/
  refs : List (Nat × Option Nat)

/-- What is done with references. `declare`: default construction. `construct`: construction with the new reference
that a function of Python returns (or `NULL`). `borrowed`: construction with a reference that isn't ours, followed by
`inc_ref`. `assign`: assignment of a new reference. `fill`: a function of Python gets the address of the pointer and
stores a new reference. `hold` and `release`: others. -/
inductive Op
  | declare (x : Nat)
  | construct (x : Nat) (o : Option Nat)
  | borrowed (x : Nat) (o : Nat)
  | assign (x : Nat) (o : Option Nat)
  | fill (x : Nat) (o : Option Nat)
  | destroy (x : Nat)
  | hold (o : Nat)
  | release (o : Nat)
  deriving DecidableEq

/-- One reference more. -/
def more (f : Nat → Nat) (o : Option Nat) : Nat → Nat := fun x => if some x = o then f x + 1 else f x

/-- One reference less: `Py_DECREF`. The number must not be zero. -/
def less (f : Nat → Nat) (o : Option Nat) : Option (Nat → Nat) :=
  match o with
  | none => some f
  | some o => if f o = 0 then none else some fun x => if x = o then f x - 1 else f x

/-- The references without one of them. -/
def without (l : List (Nat × Option Nat)) (x : Nat) : List (Nat × Option Nat) := l.eraseP fun y => y.1 == x

/-- The members of `OwnedReference` (`language/python/owned_reference.cc:19-149`). -/
def Refs.step (s : Refs) : Op → Option Refs
  | .declare x => some { s with refs := (x, none) :: s.refs }
  | .construct x o => some { s with count := more s.count o, refs := (x, o) :: s.refs }
  | .borrowed x o => some { s with count := more s.count (some o), refs := (x, some o) :: s.refs }
  | .assign x o =>
    (s.refs.lookup x).bind fun h =>
    let count := more s.count o
    if h = o then some { s with count := count }
    else (less count h).map fun c => { s with count := c, refs := (x, o) :: without s.refs x }
  | .fill x o =>
    (s.refs.lookup x).bind fun h =>
    if h = none then some { s with count := more s.count o, refs := (x, o) :: without s.refs x } else none
  | .destroy x =>
    (s.refs.lookup x).bind fun h =>
    (less s.count h).map fun c => { s with count := c, refs := without s.refs x }
  | .hold o => some { s with count := more s.count (some o), outside := more s.outside (some o) }
  | .release o => (less s.outside (some o)).bind fun b =>
    (less s.count (some o)).map fun c => { s with count := c, outside := b }

/-- A history. -/
def Refs.run (s : Refs) (l : List Op) : Option Refs := l.foldlM Refs.step s

/-! ## Errors of Python -/

/-- Values of Python, as far as they are looked at. -/
inductive PyValue
  | null
  | int (v : Int)
  | str (s : Str)
  | tuple (l : List PyValue)
  | other

/-- The items of a value, if it is a sequence (`PySequence_Check`, `PySequence_GetItem`): strings are sequences of
strings. -/
def items : PyValue → Option (List PyValue)
  | .str s => some (s.map fun c => .str [c])
  | .tuple l => some l
  | _ => none

/-- `as_unicode_string` (`language/python/string.cc:13-23`): the text up to the first zero. -/
def asString : PyValue → Option Str
  | .str s => some (s.takeWhile (· != '\x00'))
  | _ => none

/-- `PyInt_Check` and `PyInt_AsLong`. -/
def asInt : PyValue → Option Int
  | .int v => some v
  | _ => none

/-- `throw_syntax_error` (`language/python/exception.cc:36-85`). -/
def throwSyntaxError (source : Str) (value : PyValue) : Option Messages.Low :=
  (items value).bind fun l =>
  match l with
  | [message, details] =>
    (asString message).bind fun message =>
    (items details).bind fun d =>
    match d with
    | [_, line, col, statement] =>
      (asInt line).bind fun line => (asInt col).bind fun col => (asString statement).map fun statement =>
        .syntaxError source line col statement message
    | _ => none
  | _ => none

/-- `throw_exception` (`language/python/exception.cc:90-118`), with the error that has been fetched: whether it is a syntax
error, and its value. -/
def throwException (source : Str) (isSyntaxError : Bool) (value : PyValue) : Option Messages.Low :=
  if isSyntaxError then throwSyntaxError source value else none

/-! ## Files -/

/-- What Python's parser makes of a text. -/
inductive Answer
  | tree (xml : Str)
  | error (isSyntaxError : Bool) (value : PyValue)

/-- The files of the process that are open, how many can be, and the arenas in use. -/
structure Process where
  openFiles : Nat
  limit : Nat
  arenas : Nat
  deriving DecidableEq

/-- The outcome of parsing. -/
inductive Parsed
  | xml (s : Str)
  | thrown (e : Messages.Low)
  | assertion

/-- What becomes of the answer (`language/script/algebra_parser.cc:1000-1004`, `1032-1036`). -/
def Answer.parsed (source : Str) : Answer → Parsed
  | .tree xml => .xml xml
  | .error s v =>
    match throwException source s v with
    | some e => .thrown e
    | none => .assertion

/-- `AlgebraParser::parse_string` (`language/script/algebra_parser.cc:993-1005`). The arena is freed on all ways out. -/
def parseString (p : Process) (a : Answer) : Process × Parsed :=
  let p := { p with arenas := p.arenas + 1 }
  let r := a.parsed "<string>".toList
  ({ p with arenas := p.arenas - 1 }, r)

/-- `AlgebraParser::parse_file` (`language/script/algebra_parser.cc:1016-1037`). `fopen` fails if the file can't be
opened (`error`: why), or if there are too many open files. The file is not closed. -/
def parseFile (p : Process) (filename : Str) (error : Option Str) (a : Answer) : Process × Parsed :=
  let p := { p with arenas := p.arenas + 1 }
  match error with
  | some e => ({ p with arenas := p.arenas - 1 }, .thrown (.fileOpen filename e))
  | none =>
    if p.openFiles < p.limit then
      let p := { p with openFiles := p.openFiles + 1 }
      ({ p with arenas := p.arenas - 1 }, a.parsed filename)
    else ({ p with arenas := p.arenas - 1 }, .thrown (.fileOpen filename "Too many open files".toList))

end Fern.Parsing
