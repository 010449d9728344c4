import Verif.Model.Interpreter
import Verif.Model.Print

/-!
# The interactive interpreter

Model of `language/command/interpreter.cc`. The parser is any function. Simplified: the prompts and the editing of
lines, which readline does, are left out; an operation that throws counts as one that aborts.
-/

namespace Fern.Shell

open Fern

/-! ## Values -/

/-- The constants (`core/value_type_traits.h`). A floating point number is given by the text that a stream writes for
it. -/
inductive Constant
  | bool (b : Bool)
  | char (c : Char)
  | int (t : IntTy) (v : Int)
  | float (text : Str)
  | string (s : Str)
  deriving DecidableEq

/-- `std::cout << value` (`language/command/interpreter.cc:47-55`). `int8_t` and `uint8_t` are character types.
Simplified: bytes are taken for the characters with those numbers. -/
def Constant.text : Constant → Str
  | .bool b => if b then ['1'] else ['0']
  | .char c => [c]
  | .int .i8 v => [Char.ofNat (v % 256).toNat]
  | .int .u8 v => [Char.ofNat v.toNat]
  | .int _ v => formatInt v
  | .float s => s
  | .string s => s

/-- An attribute, as `AttributeTypeVisitor` tells them apart. -/
inductive Attribute
  | constant (c : Constant)
  | staticField
  | other
  deriving DecidableEq

/-- `show_value(std::shared_ptr<Attribute> const&)` (`language/command/interpreter.cc:68-108`). `none`: a failing
assertion. -/
def showAttribute : Attribute → Option Str
  | .constant c => some (c.text ++ ['\n'])
  | .staticField => some "static field\n".toList
  | .other => none

/-- An argument: an attribute, or a feature, with its attributes in the order of their names. -/
inductive Argument
  | attribute (a : Attribute)
  | feature (attributes : List (Str × Attribute))
  deriving DecidableEq

/-- The loop over the attributes (`language/command/interpreter.cc:132-135`). -/
def showAttributes : List (Str × Attribute) → Option Str
  | [] => some []
  | (n, a) :: l => (showAttribute a).bind fun s => (showAttributes l).map fun r => n ++ ['\n'] ++ s ++ r

/-- `show_value(std::shared_ptr<Argument> const&)` (`language/command/interpreter.cc:113-155`). -/
def showArgument : Argument → Option Str
  | .attribute a => showAttribute a
  | .feature l => (showAttributes l).map fun s =>
    "feature containing ".toList ++ formatInt l.length ++ " attribute(s):\n".toList ++ s

/-! ## Lines -/

variable {V : Type}

/-- `show_stack_values` (`language/command/interpreter.cc:158-165`). The stack is given from the top. -/
def showStack (text : V → Option Str) : List V → Option Str
  | [] => some []
  | x :: xs => (text x).bind fun s => (showStack text xs).map (s ++ ·)

/-- What the parser makes of a line: a tree, or one of the two sorts of exception. -/
inductive Parsed
  | tree (m : Module)
  | fernError (message : Str)
  | otherError (what : Str)

/-- What is used. `problem`: the text of a `ValidateError`. -/
structure Tools (V : Type) where
  parse : Str → Parsed
  context : InterpreterContext V
  text : V → Option Str
  problem : Problem → Str
  version : Str

/-- The state of the program. -/
structure Console (V : Type) where
  interpreter : Interpreter V
  out : Str
  err : Str
  history : List Str

/-- The body of the loop (`language/command/interpreter.cc:199-224`). `none`: the program ends. -/
def line (T : Tools V) (k : Console V) (l : Str) : Option (Console V) :=
  let k := { k with history := k.history ++ [l] }
  match T.parse l with
  | .fernError message =>
    some { k with interpreter := k.interpreter.clearStack, err := k.err ++ message ++ ['\n'] }
  | .otherError what =>
    some { k with interpreter := k.interpreter.clearStack,
                  err := k.err ++ "TODO: unhandled exception: ".toList ++ what ++ ['\n'] }
  | .tree m =>
    match k.interpreter.execute T.context m .none [] [] with
    | .failed => none
    | .refused i p => some { k with interpreter := i.clearStack, err := k.err ++ T.problem p ++ ['\n'] }
    | .done i =>
      (showStack T.text i.back.stack).map fun s => { k with interpreter := i.clearStack, out := k.out ++ s }

/-- The loop. -/
def lines (T : Tools V) : Console V → List Str → Option (Console V)
  | k, [] => some k
  | k, l :: ls => (line T k l).bind fun k => lines T k ls

/-- `enter_interpreter` (`language/command/interpreter.cc:168-228`), with the lines that are entered until the end of
the input. `home`: the environment variable, which has to be set; `history`: the lines in the file. The history in the
result is what the file has afterwards. -/
def enterInterpreter (T : Tools V) (home : Option Str) (history : List Str) (ls : List Str) : Option (Console V) :=
  match home with
  | none => none
  | some _ => (lines T ⟨.initial, T.version, [], history⟩ ls).map fun k => { k with out := k.out ++ ['\n'] }

end Fern.Shell
