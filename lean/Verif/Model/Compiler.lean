import Verif.Model.Compile

/-!
# Files that are written by the compiler

Model of `language/io/core/file.cc`, `language/compiler/compiler.cc` and the part of `language/io/gdal/gdal_driver.cc` that
uses them. Paths are texts, as on POSIX systems. A disk is what is found at the ends of paths; only the last name of a
path may be that of a link, and `..` is a name like any other. `none` as a status: an exception (too many links).
-/

namespace Fern.Compiler

/-- A path as names from the root. -/
abbrev Place := List Str

/-- What there is at a place. Of files and directories the bit that allows the owner to write, and whether the process
may write are not the same thing. -/
inductive Node
  | file (text : Str) (ownerWrite mayWrite : Bool)
  | directory (ownerWrite mayWrite : Bool)
  | link (target : Place)
  | other
  deriving DecidableEq

/-- A disk, and the working directory. -/
structure Disk where
  cwd : Place
  node : Place → Option Node

/-! ### Texts of paths -/

/-- The text before the first slash, and those after it. -/
def names : Str → List Str
  | [] => [[]]
  | c :: s =>
    if c = '/' then [] :: names s
    else match names s with
      | [] => [[c]]
      | n :: ns => (c :: n) :: ns

/-- The place to which a path leads. -/
def Disk.place (d : Disk) (p : Str) : Place :=
  let ns := (names p).filter fun n => n ≠ [] ∧ n ≠ ['.']
  if p.head? = some '/' then ns else d.cwd ++ ns

/-- `path::filename`: what comes after the last slash. -/
def filename (p : Str) : Str := (names p).getLastD []

/-- The position of the last dot. -/
def lastDot : Str → Option Nat
  | [] => none
  | c :: s => match lastDot s with
    | some i => some (i + 1)
    | none => if c = '.' then some 0 else none

/-- `path::stem`: the last name without what comes after its last dot, unless that is its first character. -/
def stem (p : Str) : Str :=
  let n := filename p
  if n = ['.', '.'] then n
  else match lastDot n with
    | none | some 0 => n
    | some i => n.take i

/-- Slashes at the end left out. -/
def dropSlashes (p : Str) : Str := (p.reverse.dropWhile (· = '/')).reverse

/-- `path::parent_path`: what comes before the last name. The root is its own parent. -/
def parentPath (p : Str) : Str :=
  let before := p.take (p.length - (filename p).length)
  let q := dropSlashes before
  if q = [] ∧ p.head? = some '/' then ['/'] else q

/-- `path::operator/=`. -/
def append (p q : Str) : Str :=
  if q.head? = some '/' then q
  else if p = [] ∨ p.getLast? = some '/' then p ++ q
  else p ++ ['/'] ++ q

/-! ### Files (`language/io/core/file.cc`) -/

/-- Links are followed, 40 of them at most. -/
def Disk.follow (d : Disk) : Nat → Place → Option Place
  | n, k => match d.node k with
    | some (.link t) => match n with
      | 0 => none
      | n + 1 => d.follow n t
    | _ => some k

/-- The place where the path leads to, links followed: `fs::canonical` as far as it exists. -/
def Disk.canonical (d : Disk) (p : Str) : Option Place := d.follow 40 (d.place p)

/-- `fs::status`: nothing is found if the path is empty. -/
def Disk.status (d : Disk) (p : Str) : Option (Option Node) :=
  if p = [] then some none else (d.canonical p).map d.node

/-- `fs::is_regular_file` -/
def isFile : Node → Bool
  | .file _ _ _ => true
  | _ => false

/-- `fs::is_directory` -/
def isDirectory : Node → Bool
  | .directory _ _ => true
  | _ => false

/-- `permissions() & owner_write`. The code doesn't look at the other bits. -/
def ownerWrite : Node → Bool
  | .file _ b _ => b
  | .directory b _ => b
  | _ => true

/-- The three questions have the same shape: if the first status doesn't satisfy, the status of the canonical path is
asked for. -/
def Disk.ask (d : Disk) (p : Str) (good : Node → Bool) : Option Bool :=
  (d.status p).bind fun s => match s with
    | none => some false
    | some n =>
      if good n then some true
      else (d.canonical p).map fun k => match d.node k with
        | none => false
        | some n => good n

/-- `file_exists` (`language/io/core/file.cc:21-41`). -/
def Disk.fileExists (d : Disk) (p : Str) : Option Bool := d.ask p isFile

/-- `file_is_writable` (`language/io/core/file.cc:48-69`). -/
def Disk.fileIsWritable (d : Disk) (p : Str) : Option Bool := d.ask p fun n => isFile n && ownerWrite n

/-- `directory_is_writable` (`language/io/core/file.cc:76-97`). -/
def Disk.directoryIsWritable (d : Disk) (p : Str) : Option Bool :=
  d.ask (if p = [] then ['.'] else p) fun n => isDirectory n && ownerWrite n

/-- A disk with something at a place. -/
def Disk.put (d : Disk) (k : Place) (n : Node) : Disk := { d with node := fun k' => if k' = k then some n else d.node k' }

/-- What opening a stream for writing and writing a text does, if it works (`language/io/core/file.cc:100-112`,
otherwise the assertion fails). An existing file is overwritten; a new one is made if the process may write in the
directory. -/
def Disk.write (d : Disk) (p text : Str) : Option Disk :=
  if p = [] then none
  else (d.canonical p).bind fun k => match d.node k with
    | some (.file _ owner true) => some (d.put k (.file text owner true))
    | some _ => none
    | none => match d.node k.dropLast with
      | some (.directory _ true) => some (d.put k (.file text true true))
      | _ => none

/-! ### The compiler (`language/compiler/compiler.cc`) -/

/-- The header (`language/compiler/compile_visitor.cc:181-209`). -/
def headerText (className : Str) : Str :=
  ("#pragma once\n#include \"fern/language/compiler/module.h\"\n" ++
   "#include \"fern/language/operation/std/operations.h\"\n\n\nclass ").toList ++ className ++
  ":\n    public fern::Module\n{\n\npublic:\n\n                   ".toList ++ className ++
  "                 ();\n\n                   ~".toList ++ className ++
  ("                ();\n\n    void           run                 (std::vector<std::shared_ptr<\n" ++
   "                                            fern::DataSource>> const&\n" ++
   "                                                data_sources,\n" ++
   "                                        std::vector<std::shared_ptr<\n" ++
   "                                            fern::DataSync>> const&\n" ++
   "                                                data_syncs) const;\n\nprivate:\n\n" ++
   "    std::shared_ptr<fern::Operations> _operations;\n\n};\n").toList

/-- A target of the CMake script (`language/compiler/compiler.cc:122-140, 143-167`). -/
def targetText (kind target : Str) (modules : List Str) (output : Str) (libraries : List Str) : Str :=
  kind ++ "(".toList ++ target ++ "\n    ".toList ++ join modules ", ".toList ++ "\n)\nSET_TARGET_PROPERTIES(".toList ++
  target ++ "\n    PROPERTIES\n        OUTPUT_NAME ".toList ++ output ++ "\n)\nTARGET_LINK_LIBRARIES(".toList ++ target ++
  "\n    ".toList ++ join libraries " ".toList ++ "\n)\n".toList

/-- The CMake script (`language/compiler/compiler.cc:103-177`). -/
def cmakeText (model : Str) (driver : Bool) : Str :=
  let library := model ++ "_library".toList
  let program := model ++ "_driver".toList
  "CMAKE_MINIMUM_REQUIRED(VERSION 2.8)\nPROJECT(".toList ++ model ++
  (")\nSET(CMAKE_MODULE_PATH $ENV{CMAKE_MODULE_PATH})\nINCLUDE(FernCompiler)\nINCLUDE(FernExternal)\n").toList ++
  targetText "ADD_LIBRARY".toList library [model] model [] ++
  (if driver then
    targetText "ADD_EXECUTABLE".toList program ["main".toList] model
      [library, "fernlib".toList, "${FERN_EXTERNAL_LIBRARIES}".toList]
  else []) ++
  "INSTALL(\n    TARGETS ".toList ++ join (if driver then [library, program] else [library]) " ".toList ++
  "\n    RUNTIME DESTINATION bin\n    ARCHIVE DESTINATION lib\n    LIBRARY DESTINATION lib\n)\n".toList

/-- The main program (`language/compiler/compiler.cc:185-219`). -/
def driverText (header className : Str) : Str :=
  ("#include <cstdlib>\n#include <iostream>\n#include \"fern/core/exception.h\"\n" ++
   "#include \"fern/language/io/io_client.h\"\n#include \"fern/language/compiler/parse_command_line.h\"\n#include \"").toList ++
  header ++
  ("\"\n\n\nint main(\n    int argc,\n    char** argv)\n{\n    int status = EXIT_FAILURE;\n\n    try {\n" ++
   "        fern::IOClient io_client;\n        ").toList ++ className ++
  (" module;\n        std::vector<std::shared_ptr<fern::DataSource>> sources;\n" ++
   "        std::vector<std::shared_ptr<fern::DataSync>> syncs;\n" ++
   "        std::tie(sources, syncs) = fern::parse_command_line(\n" ++
   "            argc, argv, module.arguments(), module.results());\n        module.run(sources, syncs);\n" ++
   "        status = EXIT_SUCCESS;\n    }\n    catch(fern::Exception const& exception) {\n" ++
   "        std::cerr << exception.message() << \"\\n\";\n    }\n    catch(std::exception const& exception) {\n" ++
   "        std::cerr << exception.what() << \"\\n\";\n    }\n\n    return status;\n}").toList

/-- How compiling ends. -/
inductive End
  | ok
  | fails
  | throws
  deriving DecidableEq

/-- Whether a file can be written as far as the compiler is concerned (`language/compiler/compiler.cc:72-94`). It asks for
the directory *above* the one where the file will be. -/
def Disk.canWrite (d : Disk) (destination path : Str) : Option Bool :=
  (d.fileExists path).bind fun here =>
  if here then d.fileIsWritable path
  else d.directoryIsWritable (parentPath destination)

/-- Texts are written in order, until one can't be. -/
def Disk.writeAll (d : Disk) : List (Str × Str) → End × Disk
  | [] => (.ok, d)
  | (p, text) :: ws => match d.write p text with
    | none => (.fails, d)
    | some d' => d'.writeAll ws

/-- `Compiler::compile` after the module has been parsed (`language/compiler/compiler.cc:46-224`). `source` is the name of the
source of the module, `module` gives the C++ module for the name of the header and that of the class (`compileModule`). -/
def compile (d : Disk) (source destination headerExtension moduleExtension : Str) (driver cmake : Bool)
    (module : Str → Str → Option Str) : End × Disk :=
  match d.directoryIsWritable destination with
  | none => (.throws, d)
  | some false => (.fails, d)
  | some true =>
    let model := stem source
    let headerName := model ++ ['.'] ++ headerExtension
    let header := append destination headerName
    let moduleFile := append destination (model ++ ['.'] ++ moduleExtension)
    match d.canWrite destination header with
    | none => (.throws, d)
    | some false => (.fails, d)
    | some true =>
      match d.canWrite destination moduleFile with
      | none => (.throws, d)
      | some false => (.fails, d)
      | some true =>
        match module (filename header) model with
        | none => (.fails, d)
        | some code =>
          d.writeAll ([(header, headerText model), (moduleFile, code)] ++
            (if cmake then [(append destination "CMakeLists.txt".toList, cmakeText model driver)] else []) ++
            (if driver then [(append destination ("main.".toList ++ moduleExtension),
              driverText (filename header) model)] else []))

/-! ### Overwriting rasters (`language/io/gdal/gdal_driver.cc`) -/

/-- `GDALDriver::can_open_for_overwrite` (`language/io/gdal/gdal_driver.cc:95-102`), given whether the dataset can be opened
for update. -/
def Disk.canOverwrite (d : Disk) (name : Str) (update : Bool) : Option Bool :=
  (d.fileExists name).bind fun here =>
  if here && update then some true else d.directoryIsWritable (parentPath name)

end Fern.Compiler
