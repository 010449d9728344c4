import Verif.Model.Syntax
import Verif.Model.DataName

/-!
# Datasets in Fern format

Model of `language/io/fern/fern_dataset.cc` and of the parts of `language/io/fern/hdf5_file.cc` and
`hdf5_group.cc` which it uses. The contents of an HDF5 file are trusted to be a tree of groups and
datasets; what the HDF5 functions do with it is described at the definitions. Paths are the lists of
their components (`core/path.cc:82-85`): the paths of data names are absolute and normalised
(`core/data_name.cc:54-66`). Components `.` and `..`, links and names with a null character are not modelled,
nor are files that are opened more than once at the same time.
-/

namespace Fern

/-- The ways in which input and output end: with a result, with an `IOError`, or with an assertion that
fails. -/
inductive IOResult (E α : Type)
  | ok (a : α)
  | error (e : E)
  | fails
  deriving DecidableEq

namespace IOResult

/-- The next step, if there is one. -/
def andThen {E α β : Type} (r : IOResult E α) (k : α → IOResult E β) : IOResult E β :=
  match r with
  | ok a => k a
  | error e => error e
  | fails => fails

end IOResult

/-- What is at a path. `other`: a dataset that is not a scalar, or not a number. -/
inductive Object
  | group
  | scalar (n : Number)
  | other
  deriving DecidableEq

/-- The contents of a file. -/
abbrev Hdf5 := List Str → Option Object

namespace Hdf5

/-- A new file: `H5Fcreate`. -/
def empty : Hdf5 := fun p => if p = [] then some .group else none

/-- The contents with an object added or replaced. -/
def put (f : Hdf5) (p : List Str) (o : Object) : Hdf5 := fun q => if q = p then some o else f q

/-- All groups above a path exist. -/
def groupsAbove (f : Hdf5) (p : List Str) : Bool :=
  (List.range p.length).all fun i => decide (f (p.take i) = some .group)

/-- `H5Lexists` followed by `H5Gget_objinfo` (`language/io/fern/hdf5_file.cc:75-82`, `95-102`): the object,
if any. If one of the groups above it does not exist, `H5Lexists` returns a negative number, which counts as
true, after which `H5Gget_objinfo` returns a negative number too and the assertion fails: outer `none`. -/
def object (f : Hdf5) (p : List Str) : Option (Option Object) :=
  if f.groupsAbove p then some (f p) else none

/-- `HDF5File::is_group` (`language/io/fern/hdf5_file.cc:69-86`). -/
def isGroup (f : Hdf5) (p : List Str) : Option Bool :=
  (f.object p).map fun o => decide (o = some .group)

/-- `HDF5File::is_dataset` (`language/io/fern/hdf5_file.cc:89-106`). -/
def isDataset (f : Hdf5) (p : List Str) : Option Bool :=
  (f.object p).map fun
    | some (.scalar _) => true
    | some .other => true
    | _ => false

/-- The loop of `contains_feature` (`language/io/fern/fern_dataset.cc:214-225`): it continues after a group
that does not exist. -/
def containsFeatureLoop (f : Hdf5) : (pathname : List Str) → (result : Bool) → List Str → Option Bool
  | _, result, [] => some result
  | pathname, result, n :: ns =>
    (f.isGroup (pathname ++ [n])).bind fun b =>
      f.containsFeatureLoop (pathname ++ [n]) (if !b then false else result) ns

/-- `contains_feature` (`language/io/fern/fern_dataset.cc:204-226`). -/
def containsFeature (f : Hdf5) (p : List Str) : Option Bool := f.containsFeatureLoop [] true p

/-- `contains_attribute` (`language/io/fern/fern_dataset.cc:245-252`). The parent of an absolute path is not
empty; that of the root is the root. -/
def containsAttribute (f : Hdf5) (p : List Str) : Option Bool :=
  (f.containsFeature p.dropLast).bind fun b => if b then f.isDataset p else some false

/-- The loop of `add_feature` (`language/io/fern/fern_dataset.cc:624-630`) with `create_group`
(`language/io/fern/hdf5_file.cc:109-118`), which fails if there is something already. -/
def addFeatureLoop (f : Hdf5) : (pathname : List Str) → List Str → Option Hdf5
  | _, [] => some f
  | pathname, n :: ns =>
    let p := pathname ++ [n]
    (f.isGroup p).bind fun b =>
      if b then f.addFeatureLoop p ns
      else if f p = none then (f.put p .group).addFeatureLoop p ns
      else none

/-- `add_feature` (`language/io/fern/fern_dataset.cc:607-631`). -/
def addFeature (f : Hdf5) (p : List Str) : Option Hdf5 :=
  (f.containsFeature p).bind fun b => if b then none else
  (f.containsAttribute p).bind fun b => if b then none else
  if p = [] then none else f.addFeatureLoop [] p

/-- `HDF5TypeTraits<T>::type_class`: integers, or floating point numbers. -/
def typeClass : Number → Bool
  | .int _ _ => true
  | .float32 _ => false
  | .float64 _ => false

/-- The second part of `write_attribute<T>` (`language/io/fern/fern_dataset.cc:658-699`). `convert`: what is
stored if the second number is written into a dataset that has the type of the first one (`H5Dwrite`). An
attribute without name can't be created (`H5Dcreate`), nor can one that replaces a group. -/
def writeScalar (f : Hdf5) (convert : Number → Number → Number) (p : List Str) (n : Number) : Option Hdf5 :=
  (f.isDataset p).bind fun b =>
  if b then
    match f p with
    | some (.scalar old) => if typeClass old = typeClass n then some (f.put p (.scalar (convert old n))) else none
    | _ => none
  else if p = [] then none
  else if f p = none then some (f.put p (.scalar n)) else none

/-- `write_attribute<T>` (`language/io/fern/fern_dataset.cc:643-700`). The assertion on the mode is that of the
caller. -/
def writeNumber (convert : Number → Number → Number) (f : Hdf5) (p : List Str) (n : Number) : Option Hdf5 :=
  let parent := p.dropLast
  (f.containsFeature parent).bind fun b =>
  (if b then some f else f.addFeature parent).bind fun f => f.writeScalar convert p n

/-- `read_attribute` (`language/io/fern/fern_dataset.cc:532-602`) with `dataset` (58-68): an `IOError` if there
is no such attribute. -/
def readAttribute (f : Hdf5) (p : List Str) : IOResult Unit Number :=
  match f.containsAttribute p with
  | none => .fails
  | some false => .error ()
  | some true =>
    match f p with
    | some (.scalar n) => .ok n
    | _ => .fails

end Hdf5

end Fern
