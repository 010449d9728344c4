import Verif.Model.Drivers

/-!
# The command line of a compiled module

Model of `language/compiler/parse_command_line.cc`, of the constructors of the sources and syncs that it makes
(`language/interpreter/dataset_source.cc`, `dataset_sync.cc`) and of
`Module::check_sources_and_syncs` (`language/compiler/module.cc:41-55`).
-/

namespace Fern

/-- The exceptions. -/
inductive ProgramError
  | io (e : IOErr)
  | tooManyArguments
  | notEnoughSources
  | tooManySources
  deriving DecidableEq

/-- `DataSource`: the classes that are used. `D`: double precision floating point numbers. -/
inductive ProgramSource (D : Type)
  | dataset (database path : Str)
  | int64 (v : Int)
  | float64 (v : D)
  | text (s : Str)
  deriving DecidableEq

/-- `DatasetSync`: the dataset that has been opened, and the path. -/
structure ProgramSync (W : Type) where
  database : Str
  path : Str
  dataset : OpenDataset W

/-- A step of the program: its result and the world after it. -/
abbrev ProgramStep (W α : Type) := W → IOResult ProgramError α × W

namespace ProgramStep

/-- One step after the other. -/
def next {W α β : Type} (m : ProgramStep W α) (k : α → ProgramStep W β) : ProgramStep W β := fun w =>
  match m w with
  | (.ok a, w) => k a w
  | (.error e, w) => (.error e, w)
  | (.fails, w) => (.fails, w)

/-- A step of input or output. -/
def ofIO {W α : Type} (m : W → IOResult IOErr α × W) : ProgramStep W α := fun w =>
  match m w with
  | (.ok a, w) => (.ok a, w)
  | (.error e, w) => (.error (.io e), w)
  | (.fails, w) => (.fails, w)

/-- A step with a given result. -/
def pure {W α : Type} (a : α) : ProgramStep W α := fun w => (.ok a, w)

end ProgramStep

open ProgramStep

variable {W D : Type}

/-- What `boost::lexical_cast` makes of a string, if anything. -/
structure Conversions (D : Type) where
  int64 : Str → Option Int
  float64 : Str → Option D

/-- The constructor of `DatasetSource` (`language/interpreter/dataset_source.cc:17-26`). -/
def datasetSource (drivers : List (Str × Driver W)) (database path : Str) : ProgramStep W (ProgramSource D) :=
  next (ofIO (openDataset drivers database .read [])) fun dataset =>
  next (ofIO fun w => (dataset.expressionType path w, w)) fun _ =>
  pure (.dataset database path)

/-- `data_source` (`language/compiler/parse_command_line.cc:27-57`). The second test doesn't depend on the first
one: its result replaces the one of the first. -/
def dataSource (drivers : List (Str × Driver W)) (c : Conversions D) (value : Str) :
    ProgramStep W (ProgramSource D) :=
  match dataName value with
  | none => fun w => (.fails, w)
  | some (database, path) =>
    next (ofIO (datasetExists drivers database .read [])) fun b =>
    next (if b then next (datasetSource (D := D) drivers database path) fun s => pure (some s) else pure none)
      fun (_ : Option (ProgramSource D)) =>
    match c.int64 value with
    | some v => pure (.int64 v)
    | none =>
      match c.float64 value with
      | some v => pure (.float64 v)
      | none => pure (.text value)

/-- `data_sync` (`language/compiler/parse_command_line.cc:60-67`), with the constructor of `DatasetSync`
(`language/interpreter/dataset_sync.cc:17-25`). -/
def dataSync (drivers : List (Str × Driver W)) (value : Str) : ProgramStep W (ProgramSync W) :=
  match dataName value with
  | none => fun w => (.fails, w)
  | some (database, path) =>
    next (ofIO (openDataset drivers database .overwrite [])) fun dataset =>
    pure ⟨database, path, dataset⟩

/-- The two loops (`language/compiler/parse_command_line.cc:112-132`): at most `n` of the arguments are made
into something; the others remain. -/
def takeArguments {α : Type} (make : Str → ProgramStep W α) : (n : Nat) → List Str → ProgramStep W (List α × List Str)
  | 0, argv => pure ([], argv)
  | _ + 1, [] => pure ([], [])
  | n + 1, a :: argv =>
    next (make a) fun x => next (takeArguments make n argv) fun r => pure (x :: r.1, r.2)

/-- `parse_command_line` (`language/compiler/parse_command_line.cc:92-140`), given the numbers of arguments and
results of the module. `argv`: without the name of the program. -/
def parseCommandLine (drivers : List (Str × Driver W)) (c : Conversions D) (arguments results : Nat)
    (argv : List Str) : ProgramStep W (List (ProgramSource D) × List (ProgramSync W)) :=
  next (takeArguments (dataSource drivers c) arguments argv) fun sources =>
  next (takeArguments (dataSync drivers) results sources.2) fun syncs =>
  if syncs.2 ≠ [] then fun w => (.error .tooManyArguments, w) else pure (sources.1, syncs.1)

/-- `Module::check_sources_and_syncs` (`language/compiler/module.cc:41-55`). -/
def checkSources (arguments : Nat) (sources : List (ProgramSource D)) : ProgramStep W Unit :=
  if arguments > sources.length then fun w => (.error .notEnoughSources, w)
  else if arguments < sources.length then fun w => (.error .tooManySources, w)
  else pure ()

/-- The first part of the generated program (`language/compiler/compiler.cc:201-207`): the command line is parsed,
and the sources are counted by `run`. -/
def programStart (drivers : List (Str × Driver W)) (c : Conversions D) (arguments results : Nat)
    (argv : List Str) : ProgramStep W (List (ProgramSource D) × List (ProgramSync W)) :=
  next (parseCommandLine drivers c arguments results argv) fun r =>
  next (checkSources arguments r.1) fun _ => pure r

end Fern
