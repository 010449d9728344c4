import Mathlib.Logic.Function.Basic
import Mathlib.Data.List.Basic

/-!
# Handles of open files, groups and datasets

Model of the life of the objects that close something in their destructor:
`language/io/fern/hdf5_group.cc`, `language/io/fern/hdf5_dataset.cc` (a moved object is emptied) and
`io/netcdf/core/dataset_handle.{h,cc}`, `io/gdal/dataset_handle.{h,cc}` (moves are defaulted), and of the
identifiers that the queries of `HDF5Dataset` ask for.

The libraries are trusted to give an identifier that is positive (for GDAL: a pointer) and not in use; an
identifier that has been closed may be given again. What is opened is numbered in the order of opening, so that
things that got the same identifier can be told apart. Simplified: the kinds of identifiers of HDF5 (files,
groups, datasets) are not distinguished, as each class closes its own kind.
-/

namespace Fern.Handles

/-- What the moves of a class do with the moved object.
`emptied`: `HDF5Group` (`hdf5_group.cc:33-54`), `HDF5Dataset` (`hdf5_dataset.cc:34-55`).
`defaulted`: `DatasetHandle` of netCDF and GDAL (`io/netcdf/core/dataset_handle.h:33,39`,
`io/gdal/dataset_handle.h:36,42`): the identifier is copied. -/
inductive Style
  | emptied
  | defaulted
  deriving DecidableEq

/-- The library and the objects of the program. -/
structure World where
  /-- The thing that is open under an identifier. -/
  lib : Nat → Option Nat
  /-- The identifier in each object that exists; 0 if it is empty. -/
  object : Nat → Option Nat
  /-- The number of things that have been opened. -/
  opened : Nat
  /-- The things that have been closed, the last one first. -/
  closed : List Nat
  /-- The number of identifiers that were closed although nothing was open under them. HDF5 and netCDF
  answer with a status, which is ignored; for GDAL this is undefined behaviour. -/
  bad : Nat

/-- Nothing has happened. -/
def World.initial : World := ⟨fun _ => none, fun _ => none, 0, [], 0⟩

/-- `H5Gclose`, `H5Dclose`, `nc_close`, `GDALClose`. -/
def World.close (w : World) (id : Nat) : World :=
  match w.lib id with
  | some r => { w with lib := Function.update w.lib id none, closed := r :: w.closed }
  | none => { w with bad := w.bad + 1 }

/-- Closing in a destructor (`hdf5_group.cc:57-62`, `hdf5_dataset.cc:58-63`: only if the identifier is
positive; `io/netcdf/core/dataset_handle.cc:32-35`, `io/gdal/dataset_handle.cc:34-37`: always). -/
def World.release (style : Style) (w : World) (id : Nat) : World :=
  match style with
  | .emptied => if 0 < id then w.close id else w
  | .defaulted => w.close id

/-- What a program does with objects, which are numbered. -/
inductive Op
  /-- Open something; the library answers `id`, from which an object is constructed. -/
  | create (x id : Nat)
  /-- The default constructor of the classes for HDF5. -/
  | empty (x : Nat)
  /-- `T x(std::move(y))` -/
  | moveNew (x y : Nat)
  /-- `x = std::move(y)` -/
  | moveTo (x y : Nat)
  /-- `~T()` -/
  | destroy (x : Nat)
  deriving DecidableEq

/-- One operation. `none`: no program and no library can do this (an object is constructed twice or used
although it does not exist, the library gives an identifier that is in use). -/
def step (style : Style) (w : World) : Op → Option World
  -- `hdf5_group.cc:23-30`, `hdf5_dataset.cc:23-30`, `dataset_handle.cc:20-26`, `21-28`
  | .create x id =>
    if w.object x = none ∧ 0 < id ∧ w.lib id = none then
      some { w with
        lib := Function.update w.lib id (some w.opened), opened := w.opened + 1,
        object := Function.update w.object x (some id) }
    else none
  -- `hdf5_group.cc:15-20`, `hdf5_dataset.cc:15-20`
  | .empty x =>
    if w.object x = none ∧ style = .emptied then
      some { w with object := Function.update w.object x (some 0) }
    else none
  | .moveNew x y =>
    match w.object x, w.object y with
    | none, some j => some { w with object := match style with
        -- `hdf5_group.cc:33-40`, `hdf5_dataset.cc:34-41`
        | .emptied => Function.update (Function.update w.object x (some j)) y (some 0)
        | .defaulted => Function.update w.object x (some j) }
    | _, _ => none
  | .moveTo x y =>
    match w.object x, w.object y with
    | some i, some j => some (match style with
        -- `hdf5_group.cc:43-54`, `hdf5_dataset.cc:44-55`: close, take, empty, in this order
        | .emptied =>
          let w := w.release .emptied i
          { w with object := Function.update (Function.update w.object x (some j)) y (some 0) }
        | .defaulted => { w with object := Function.update w.object x (some j) })
    | _, _ => none
  | .destroy x =>
    match w.object x with
    | some i =>
      let w := w.release style i
      some { w with object := Function.update w.object x none }
    | none => none

/-- A program. -/
def run (style : Style) (w : World) : List Op → Option World
  | [] => some w
  | o :: os => (step style w o).bind fun w => run style w os

/-! ## Identifiers of types and spaces -/

/-- The numbers of identifiers of types and of spaces that are open. -/
structure Ids where
  types : Nat
  spaces : Nat
  deriving DecidableEq

/-- What can be asked of an `HDF5Dataset`. -/
inductive Query
  | typeClass
  | type
  | spaceIsSimple
  | extentType
  deriving DecidableEq

/-- What is open during a query and behind it. `type` (`hdf5_dataset.cc:73-77`) opens an identifier and hands
it to the caller; `type_class` (`80-84`) opens one and forgets it; `space_is_simple` (`102-113`) opens and
closes a space, `extent_type` (`116-129`) does so twice, the first time in an assertion. -/
def Query.ids (n : Ids) : Query → Ids
  | .typeClass => { n with types := n.types + 1 }
  | .type => { n with types := n.types + 1 }
  | .spaceIsSimple =>
    let n := { n with spaces := n.spaces + 1 }
    { n with spaces := n.spaces - 1 }
  | .extentType =>
    let n := { n with spaces := n.spaces + 1 }
    let n := { n with spaces := n.spaces - 1 }
    let n := { n with spaces := n.spaces + 1 }
    { n with spaces := n.spaces - 1 }

/-- Queries one after the other. -/
def queries (n : Ids) (qs : List Query) : Ids := qs.foldl Query.ids n

/-- The queries of `FernDataset::read_attribute` (`fern_dataset.cc:577-578`): those of `value_type` (`84-85`)
and of the second `read_attribute` (`537`). The caller of `type` does not close what it gets. -/
def readQueries : List Query := [.typeClass, .type, .extentType]

/-- The queries of `FernDataset::write_attribute` for an attribute that exists
(`fern_dataset.cc:672-675`), in builds with assertions. -/
def rewriteQueries : List Query := [.spaceIsSimple, .extentType, .typeClass]

/-- The objects of `FernDataset::write_attribute` (`fern_dataset.cc:658-671`): the group (object 0), the empty
dataset (object 1), and the dataset (object 2) that is moved to it; at the end of their scopes they are
destroyed. -/
def writeObjects (group dataset : Nat) : List Op :=
  [.create 0 group, .empty 1, .create 2 dataset, .moveTo 1 2, .destroy 2, .destroy 1, .destroy 0]

end Fern.Handles
