import Verif.Model.FernDataset

/-!
# Drivers

Model of `language/io/drivers.cc`, of the driver for Fern's own format (`language/io/fern/fern_driver.cc`,
`utils.cc`, `fern_dataset.cc`) and of the operations that read and write
(`language/operation/std/read.cc`, `write.cc`). `W` is the state of the world outside of the program.
Drivers other than Fern's are any functions on it.
-/

namespace Fern

/-- `OpenMode` (`language/io/core/open_mode.h`). -/
inductive OpenMode
  | overwrite
  | read
  | update
  deriving DecidableEq

/-- The messages of the `IOError`s. -/
inductive IOMessage
  | noSuchDriver (format : Str)
  | cannotBeRead
  | cannotBeWritten
  | cannotBeCreated
  | doesNotExist
  | doesNotContainData (path : Str)
  | doesNotContainFeature (path : Str)
  | doesNotContainAttribute (path : Str)
  | other
  deriving DecidableEq

/-- `IOError`: the name of the dataset and the message. -/
structure IOErr where
  name : Str
  message : IOMessage
  deriving DecidableEq

/-- What is written and read: constants, or fields, whose values are not modelled. -/
inductive AttributeValue
  | number (n : Number)
  | text (s : Str)
  | field (i : Nat)
  deriving DecidableEq

/-- `Dataset` (`language/io/core/dataset.h`), the functions that the operations call. -/
structure OpenDataset (W : Type) where
  containsFeature : Str → W → IOResult IOErr Bool
  containsAttribute : Str → W → IOResult IOErr Bool
  readFeature : Str → W → IOResult IOErr AttributeValue
  readAttribute : Str → W → IOResult IOErr AttributeValue
  writeAttribute : AttributeValue → Str → W → IOResult IOErr W
  /-- `expression_type`; the type itself is not modelled. -/
  expressionType : Str → W → IOResult IOErr Unit

/-- `Driver` (`language/io/core/driver.h`). -/
structure Driver (W : Type) where
  name : Str
  canOpen : Str → OpenMode → W → Bool × W
  openIt : Str → OpenMode → W → IOResult IOErr (OpenDataset W) × W

/-- The name of Fern's driver. -/
def fernName : Str := ['F', 'e', 'r', 'n']

variable {W : Type}

/-- `drivers_to_try` (`language/io/drivers.cc:20-55`). `drivers`: the map of registered drivers, its entries in
the order of the keys. -/
def driversToTry (drivers : List (Str × Driver W)) (name format : Str) : IOResult IOErr (List (Driver W)) :=
  if drivers = [] then .fails
  else if format ≠ [] then
    match drivers.lookup format with
    | none => .error ⟨name, .noSuchDriver format⟩
    | some d => .ok [d]
  else
    .ok ((drivers.lookup fernName).toList ++
      (drivers.map Prod.snd).filter fun d => decide (d.name ≠ fernName))

/-- The loop of `open_dataset` and the test after it (`language/io/drivers.cc:65-78`). -/
def openLoop (name : Str) (mode : OpenMode) : List (Driver W) → W → IOResult IOErr (OpenDataset W) × W
  | [], w => (.error ⟨name, if mode = .read then .cannotBeRead else .cannotBeWritten⟩, w)
  | d :: ds, w =>
    if (d.canOpen name mode w).1 then d.openIt name mode (d.canOpen name mode w).2
    else openLoop name mode ds (d.canOpen name mode w).2

/-- `open_dataset` (`language/io/drivers.cc:58-85`). -/
def openDataset (drivers : List (Str × Driver W)) (name : Str) (mode : OpenMode) (format : Str) (w : W) :
    IOResult IOErr (OpenDataset W) × W :=
  match driversToTry drivers name format with
  | .ok ds => openLoop name mode ds w
  | .error e => (.error e, w)
  | .fails => (.fails, w)

/-- The loop of `dataset_exists` (`language/io/drivers.cc:93-100`). -/
def existsLoop (name : Str) (mode : OpenMode) : List (Driver W) → W → Bool × W
  | [], w => (false, w)
  | d :: ds, w =>
    if (d.canOpen name mode w).1 then (true, (d.canOpen name mode w).2)
    else existsLoop name mode ds (d.canOpen name mode w).2

/-- `dataset_exists` (`language/io/drivers.cc:88-103`). -/
def datasetExists (drivers : List (Str × Driver W)) (name : Str) (mode : OpenMode) (format : Str) (w : W) :
    IOResult IOErr Bool × W :=
  match driversToTry drivers name format with
  | .ok ds => (.ok (existsLoop name mode ds w).1, (existsLoop name mode ds w).2)
  | .error e => (.error e, w)
  | .fails => (.fails, w)

/-- `read` (`language/operation/std/read.cc:21-60`). -/
def readData (drivers : List (Str × Driver W)) (name : Str) (w : W) : IOResult IOErr AttributeValue × W :=
  match dataName name with
  | none => (.fails, w)
  | some (database, path) =>
    match openDataset drivers database .read [] w with
    | (.error e, w) => (.error e, w)
    | (.fails, w) => (.fails, w)
    | (.ok dataset, w) =>
      ((dataset.containsFeature path w).andThen fun b =>
        if b then dataset.readFeature path w
        else (dataset.containsAttribute path w).andThen fun b =>
          if b then dataset.readAttribute path w
          else .error ⟨database, .doesNotContainData path⟩, w)

/-- `write` (`language/operation/std/write.cc:20-56`). -/
def writeData (drivers : List (Str × Driver W)) (value : AttributeValue) (name format : Str) (w : W) :
    IOResult IOErr Unit × W :=
  match dataName name with
  | none => (.fails, w)
  | some (database, path) =>
    match datasetExists drivers database .update format w with
    | (.error e, w) => (.error e, w)
    | (.fails, w) => (.fails, w)
    | (.ok b, w) =>
      match openDataset drivers database (if !b then .overwrite else .update) format w with
      | (.error e, w) => (.error e, w)
      | (.fails, w) => (.fails, w)
      | (.ok dataset, w) =>
        match dataset.writeAttribute value path w with
        | .ok w => (.ok (), w)
        | .error e => (.error e, w)
        | .fails => (.fails, w)

/-! ### Fern's own format -/

/-- A file. `contents`: none if it is not an HDF5 file. -/
structure DiskFile where
  contents : Option Hdf5
  readable : Bool
  writable : Bool

/-- The files, and where files can be created. -/
structure Disk where
  files : Str → Option DiskFile
  creatable : Str → Bool

namespace Disk

/-- The disk with another file. -/
def set (w : Disk) (name : Str) (f : DiskFile) : Disk :=
  { w with files := fun n => if n = name then some f else w.files n }

end Disk

/-- `open_file_for_overwrite` (`language/io/fern/utils.cc:18-32`): `H5Fcreate` with `H5F_ACC_TRUNC` makes an
existing file empty, whatever was in it. -/
def openForOverwrite (name : Str) (w : Disk) : IOResult IOErr Unit × Disk :=
  match w.files name with
  | some f =>
    if f.writable then (.ok (), w.set name ⟨some .empty, f.readable, true⟩)
    else (.error ⟨name, .cannotBeCreated⟩, w)
  | none =>
    if w.creatable name then (.ok (), w.set name ⟨some .empty, true, true⟩)
    else (.error ⟨name, .cannotBeCreated⟩, w)

/-- `open_file_for_update` (`language/io/fern/utils.cc:35-54`). -/
def openForUpdate (name : Str) (w : Disk) : IOResult IOErr Unit :=
  match w.files name with
  | none => .error ⟨name, .doesNotExist⟩
  | some f =>
    if f.contents.isSome && f.readable && f.writable then .ok () else .error ⟨name, .cannotBeWritten⟩

/-- `open_file_for_read` (`language/io/fern/utils.cc:57-76`). -/
def openForRead (name : Str) (w : Disk) : IOResult IOErr Unit :=
  match w.files name with
  | none => .error ⟨name, .doesNotExist⟩
  | some f => if f.contents.isSome && f.readable then .ok () else .error ⟨name, .cannotBeRead⟩

/-- `open_file` (`language/io/fern/utils.cc:79-101`). -/
def openFile (name : Str) (mode : OpenMode) (w : Disk) : IOResult IOErr Unit × Disk :=
  match mode with
  | .overwrite => openForOverwrite name w
  | .update => (openForUpdate name w, w)
  | .read => (openForRead name w, w)

/-- A result that may be a failed assertion. -/
def ofAssert {α : Type} : Option α → IOResult IOErr α
  | none => .fails
  | some a => .ok a

/-- What is done with the contents of a file, given the components of a path. -/
def withContents {α : Type} (file path : Str) (w : Disk) (k : Hdf5 → List Str → IOResult IOErr α) :
    IOResult IOErr α :=
  match (w.files file).bind DiskFile.contents, pathNames path with
  | some f, some p => k f p
  | _, _ => .fails

/-- `FernDataset` (`language/io/fern/fern_dataset.cc`): `contains_feature` (204-226), `contains_attribute`
(245-252), `read_feature` (501-515, which is not implemented), `read_attribute` (570-602),
`write_attribute` (643-749, for constant numbers only), `expression_type` (318-408). -/
def fernDataset (convert : Number → Number → Number) (name file : Str) (mode : OpenMode) : OpenDataset Disk where
  containsFeature path w := withContents file path w fun f p => ofAssert (f.containsFeature p)
  containsAttribute path w := withContents file path w fun f p => ofAssert (f.containsAttribute p)
  readFeature path w := withContents file path w fun f p =>
    (ofAssert (f.isGroup p)).andThen fun b =>
      if b then .fails else .error ⟨name, .doesNotContainFeature path⟩
  readAttribute path w := withContents file path w fun f p =>
    match f.readAttribute p with
    | .ok n => .ok (.number n)
    | .error _ => .error ⟨name, .doesNotContainAttribute path⟩
    | .fails => .fails
  writeAttribute value path w :=
    match value, w.files file with
    | .number n, some ⟨_, r, wr⟩ =>
      if mode = .read then .fails
      else withContents file path w fun f p =>
        (ofAssert (f.writeNumber convert p n)).andThen fun f => .ok (w.set file ⟨some f, r, wr⟩)
    | _, _ => .fails
  expressionType path w := withContents file path w fun f p =>
    match f.readAttribute p with
    | .ok _ => .ok ()
    | .error _ => .error ⟨name, .doesNotContainAttribute path⟩
    | .fails => .fails

/-- `FernDriver` (`language/io/fern/fern_driver.cc:21-110`): whether a file can be opened is found out by
opening it. The constructor of the dataset parses the name a second time
(`language/io/fern/fern_dataset.cc:28-38`). -/
def fernDriver (convert : Number → Number → Number) : Driver Disk where
  name := fernName
  canOpen name mode w :=
    match openFile name mode w with
    | (.ok _, w) => (true, w)
    | (_, w) => (false, w)
  openIt name mode w :=
    match dataName name with
    | none => (.fails, w)
    | some (file, _) =>
      match openFile file mode w with
      | (.ok _, w) => (.ok (fernDataset convert name file mode), w)
      | (.error e, w) => (.error e, w)
      | (.fails, w) => (.fails, w)

end Fern
