import Verif.Model.DataName

/-!
# The `fern` command

Model of `language/command/fern.cc`, `command.cc`, `compile_command.cc`, `describe_command.cc`, `execute_command.cc`
and `import_command.cc`.

The parser, the interpreter, the visitors, the compiler and the datasets are any functions (`Tools`); each can change
the world, throw one of Fern's own exceptions or another one, or abort. Simplified: `argc` is at least 1; the words
after `argv[0]` are given as a list; the help texts are parameters; streams never fail.
-/

namespace Fern.Command

open Fern

/-- The world: what has been written to standard output and standard error, and the rest. -/
structure World (S : Type) where
  out : Str
  err : Str
  state : S
  deriving DecidableEq

/-- `std::cout << s` -/
def World.say {S : Type} (w : World S) (s : Str) : World S := { w with out := w.out ++ s }

/-- `std::cerr << s` -/
def World.complain {S : Type} (w : World S) (s : Str) : World S := { w with err := w.err ++ s }

/-- How a step ends. `fernError`: an exception derived from `fern::Exception`, with its `message()`; `otherError`:
another exception derived from `std::exception`, with its `what()`. -/
inductive Result (α : Type)
  | ok (a : α)
  | fernError (message : Str)
  | otherError (what : Str)
  /-- A failing assertion. -/
  | aborts

/-- A step of the program. -/
abbrev Step (S α : Type) := World S → Result α × World S

/-- One step after the other. -/
def Step.next {S α β : Type} (m : Step S α) (k : α → Step S β) : Step S β := fun w =>
  match m w with
  | (.ok a, w) => k a w
  | (.fernError e, w) => (.fernError e, w)
  | (.otherError e, w) => (.otherError e, w)
  | (.aborts, w) => (.aborts, w)

/-- The texts shown by the `show_..._help` functions. -/
inductive Page
  | general | compile | cpp | dot | dotAst | dotFlowgraph | xml | describe | execute | «import»
  deriving DecidableEq

/-- What the command uses. -/
structure Tools (S Tree Dataset : Type) where
  /-- The help texts (`fern.cc:24-42`, `compile_command.cc:20-129`, `describe_command.cc:18-29`,
  `execute_command.cc:16-25`, `import_command.cc:18-28`). -/
  help : Page → Str
  /-- `show_version` (`message.cc:17-21`) and `show_build` (`fern.cc:45-53`). -/
  version : Str
  build : Str
  /-- `enter_interpreter` -/
  interpreter : Step S Unit
  /-- `Interpreter::parse_file`: standard input is read if the name is empty. -/
  parseFile : Str → Step S Tree
  /-- `Interpreter::execute` -/
  execute : Tree → Step S Unit
  /-- `compile_to_dot_ast(tree, modes)` (`compile_command.cc:209-219`). -/
  dotAst : Tree → Nat → Step S Str
  /-- `compile_to_dot_flowgraph(tree)` (`compile_command.cc:278-287`). -/
  dotFlowgraph : Tree → Step S Str
  /-- `Compiler::compile` -/
  compile : Str → Str → Nat → Step S Unit
  /-- `dataset_exists`, `open_dataset` (both for reading) and the functions of `Dataset` that are used. -/
  datasetExists : Str → Step S Bool
  openDataset : Str → Step S Dataset
  containsFeature : Dataset → Str → Step S Bool
  containsAttribute : Dataset → Str → Step S Bool
  openFeature : Dataset → Str → Step S Unit
  openAttribute : Dataset → Str → Step S Unit
  featureNames : Dataset → Step S (List Str)
  /-- A file stream is opened, written to and closed. Nobody looks at whether that works. -/
  writeFile : Str → Str → S → S
  /-- What `what()` gives for Fern's own exceptions, which don't override it (`core/exception.h:31-61`). -/
  what : Str

variable {S Tree Dataset : Type} (T : Tools S Tree Dataset)

/-- A help text is shown. The result is whether the status is `EXIT_SUCCESS`. -/
def usage (p : Page) : Step S Bool := fun w => (.ok true, w.say (T.help p))

/-- The arguments are refused: a complaint and a help text (such as `language/command/compile_command.cc:184-191`). -/
def refuse (complaint : String) (p : Page) : Step S Bool := fun w =>
  (.ok false, (w.complain complaint.toList).say (T.help p))

/-- `Command::write` (`command.cc:83-94`). -/
def write (contents filename : Str) : Step S Unit := fun w =>
  if filename = [] then (.ok (), w.say contents)
  else (.ok (), { w with state := T.writeFile filename contents w.state })

/-- Whether there are no arguments, or the first is the help option (such as
`language/command/compile_command.cc:159`). -/
def asksHelp : List Str → Bool
  | [] => true
  | a :: _ => a == "--help".toList

/-- `strcmp(argument, "-") != 0 ? argument : ""` (`language/command/compile_command.cc:195, 262, 316, 389`) -/
def inputName (a : Str) : Str := if a = "-".toList then [] else a

/-- The loops over options (`compile_command.cc:166-181`, `235-248`): the words left, and the bits. -/
def scanOptions (options : List (Str × Nat)) : List Str → Nat → List Str × Nat
  | [], bits => ([], bits)
  | a :: as, bits =>
    match options.lookup a with
    | some b => scanOptions options as (bits ||| b)
    | none => (a :: as, bits)

/-- The options of `c++` (`compile_command.cc:169-176`, `language/compiler/compiler.h:33-39`). -/
def cppOptions : List (Str × Nat) := [("--dump_driver".toList, 2), ("--dump_cmake".toList, 4)]

/-- The options of `dot ast` (`compile_command.cc:237-244`, `language/ast/visitor/ast_dot_visitor.h:31-36`). -/
def astOptions : List (Str × Nat) := [("--with-cfg".toList, 4), ("--with-use".toList, 8)]

/-- `compile_to_cpp` (`compile_command.cc:153-206`). -/
def compileToCpp (args : List Str) : Step S Bool :=
  if asksHelp args then usage T .cpp
  else
    let (rest, flags) := scanOptions cppOptions args 0
    if rest.length < 2 then refuse T "Not enough arguments.\n" .cpp
    else if 2 < rest.length then refuse T "Too many arguments.\n" .cpp
    else (T.compile (inputName (rest.getD 0 [])) (rest.getD 1 []) flags).next fun _ w => (.ok true, w)

/-- The last words of the two graph types: `current_argument_id == argc - 1` after the input
(`language/command/compile_command.cc:265, 319, 392`). -/
def outputName (rest : List Str) : Str := if rest.length = 2 then rest.getD 1 [] else []

/-- `compile_to_dot_ast` (`compile_command.cc:222-275`). -/
def compileToDotAst (args : List Str) : Step S Bool :=
  if asksHelp args then usage T .dotAst
  else
    let (rest, modes) := scanOptions astOptions args 0
    if rest = [] then refuse T "Not enough arguments.\n" .dotAst
    else if 3 < rest.length then refuse T "Too many arguments.\n" .dotAst
    else (T.parseFile (inputName (rest.getD 0 []))).next fun tree =>
      (T.dotAst tree modes).next fun script =>
      (write T script (outputName rest)).next fun _ w => (.ok true, w)

/-- `compile_to_dot_flowgraph` (`compile_command.cc:290-329`). -/
def compileToDotFlowgraph (args : List Str) : Step S Bool :=
  if asksHelp args then usage T .dotFlowgraph
  else if args = [] then refuse T "Not enough arguments.\n" .dotAst
  else if 3 < args.length then refuse T "Too many arguments.\n" .dotAst
  else (T.parseFile (inputName (args.getD 0 []))).next fun tree =>
    (T.dotFlowgraph tree).next fun script =>
    (write T script (outputName args)).next fun _ w => (.ok true, w)

/-- `compile_to_dot` (`compile_command.cc:332-356`). -/
def compileToDot (args : List Str) : Step S Bool :=
  match args with
  | [] => usage T .dot
  | a :: as =>
    if a = "--help".toList then usage T .dot
    else if a = "ast".toList then compileToDotAst T as
    else if a = "flowgraph".toList then compileToDotFlowgraph T as
    else fun w => (.ok false, (w.complain ("Unknown graph type: ".toList ++ a ++ "\n".toList)).complain
      "See 'fern compile dot --help' for list of types.\n".toList)

/-- `compile_to_xml` (`compile_command.cc:368-402`). -/
def compileToXml (args : List Str) : Step S Bool :=
  if asksHelp args then usage T .xml
  else if 2 < args.length then refuse T "Too many arguments.\n" .xml
  else fun w => (.ok true, w.say "TODO make XML visitor\n".toList)

/-- The choice of a language (`compile_command.cc:410-434`). -/
def compileTo (args : List Str) : Step S Bool :=
  match args with
  | [] => usage T .compile
  | a :: as =>
    if a = "--help".toList then usage T .compile
    else if a = "fern".toList then
      fun w => (.ok true, w.say "Conversion to Fern script not supported yet\n".toList)
    else if a = "dot".toList then compileToDot T as
    else if a = "c++".toList then compileToCpp T as
    else if a = "python".toList then
      fun w => (.ok true, w.say "Conversion to Python not supported yet\n".toList)
    else if a = "xml".toList then compileToXml T as
    else fun w => (.ok false, (w.complain ("Unknown target language: ".toList ++ a ++ "\n".toList)).complain
      "See 'fern compile --help' for list of languages.\n".toList)

/-- `CompileCommand::execute` (`compile_command.cc:405-446`): with the handlers. -/
def compileCommand (args : List Str) : Step S Bool := fun w =>
  match compileTo T args w with
  | (.fernError message, w) => (.ok false, w.complain (message ++ "\n".toList))
  | (.otherError what, w) => (.ok false, w.complain (what ++ "\n".toList))
  | r => r

/-- `describe_feature`, `describe_attribute` (`describe_command.cc:45-62`). -/
def describeFeature (d : Dataset) (path : Str) : Step S Unit :=
  (T.openFeature d path).next fun _ w => (.ok (), w.say ("feature: ".toList ++ path ++ "\n".toList))

@[inherit_doc describeFeature]
def describeAttribute (d : Dataset) (path : Str) : Step S Unit :=
  (T.openAttribute d path).next fun _ w => (.ok (), w.say ("attribute: ".toList ++ path ++ "\n".toList))

/-- The loop over the features (`describe_command.cc:94-97`). -/
def describeFeatures (d : Dataset) : List Str → Step S Unit
  | [] => fun w => (.ok (), w)
  | n :: ns => (describeFeature T d n).next fun _ => describeFeatures d ns

/-- `describe` (`describe_command.cc:65-100`). -/
def describe (name : Str) : Step S Unit :=
  match dataName name with
  | none => fun w => (.aborts, w)
  | some (database, path) =>
    (T.datasetExists database).next fun b =>
    if !b then fun w => (.ok (), w.say "Dataset does not exist\n".toList)
    else (T.openDataset database).next fun d =>
      if path ≠ [] then
        (T.containsFeature d path).next fun b =>
        if b then describeFeature T d path
        else (T.containsAttribute d path).next fun b =>
          if b then describeAttribute T d path
          else fun w => (.ok (), w.say "Datapath does not point to a feature or attribute\n".toList)
      else (T.featureNames d).next fun ns => describeFeatures T d ns

/-- `DescribeCommand::execute` (`describe_command.cc:103-127`). -/
def describeCommand (args : List Str) : Step S Bool :=
  if asksHelp args then usage T .describe
  else if 1 < args.length then refuse T "Too many arguments.\n" .describe
  else (describe T (args.getD 0 [])).next fun _ w => (.ok true, w)

/-- `ExecuteCommand::execute` (`execute_command.cc:48-71`). -/
def executeCommand (args : List Str) : Step S Bool :=
  if asksHelp args then usage T .execute
  else if 1 < args.length then refuse T "Too many arguments.\n" .execute
  else (T.parseFile (inputName (args.getD 0 []))).next fun tree =>
    (T.execute tree).next fun _ w => (.ok true, w)

/-- `ImportCommand::execute` (`import_command.cc:43-70`). -/
def importCommand (args : List Str) : Step S Bool :=
  if asksHelp args then usage T .import
  else if args.length = 1 then refuse T "Not enough arguments.\n" .import
  else if 2 < args.length then refuse T "Too many arguments.\n" .import
  else fun w => (.ok true, w)

/-- How the program ends: with a status, or by a failing assertion. -/
inductive Exit
  | success
  | failure
  | abort
  deriving DecidableEq

/-- A status. -/
def Exit.ofStatus : Bool → Exit
  | true => .success
  | false => .failure

/-- A step with the handler of `main` (`fern.cc:69-76`, `118-124`), which only shows `what()`. -/
def handled (m : Step S Bool) : World S → Exit × World S := fun w =>
  match m w with
  | (.ok b, w) => (.ofStatus b, w)
  | (.fernError _, w) => (.failure, w.complain (T.what ++ "\n".toList))
  | (.otherError what, w) => (.failure, w.complain (what ++ "\n".toList))
  | (.aborts, w) => (.abort, w)

/-- `main` (`fern.cc:59-128`). For an unknown command there is no object, so that `assert(command)` fails; without
assertions a null pointer is used. -/
def main (args : List Str) : World S → Exit × World S :=
  match args with
  | [] => handled T (T.interpreter.next fun _ w => (.ok true, w))
  | a :: as =>
    if a = "--help".toList then fun w => (.success, w.say (T.help .general))
    else if a = "--version".toList then fun w => (.success, w.say T.version)
    else if a = "--build".toList then fun w => (.success, w.say T.build)
    else if a = "compile".toList then handled T (compileCommand T as)
    else if a = "describe".toList then handled T (describeCommand T as)
    else if a = "execute".toList then handled T (executeCommand T as)
    else if a = "import".toList then handled T (importCommand T as)
    else fun w => (.abort, w.say (T.help .general))

end Fern.Command
