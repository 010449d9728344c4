import Verif.Model.Strings

/-!
# Clients of libraries

Objects whose lifetime is the time during which a library can be used: `language/io/io_client.{h,cc}`,
`language/io/gdal/gdal_client.cc`, `language/io/fern/{fern_client,hdf5_client}.cc`, `language/io/ogr/ogr_client.cc`,
`language/python/client.cc` and `io/gdal/gdal_client.cc`. A failing assertion is `none`.

The libraries are represented by what can be seen of them through the functions that are called: GDAL by the drivers in
its manager, HDF5, OGR and Python by whether they are initialised.
-/

namespace Fern.Clients

/-- The classes. `gdal` is `fern::language::GDALClient`, `fileGdal` is `fern::io::gdal::GDALClient`; `io` is `IOClient`;
an interpreter has a parser, which is a `python`. -/
inductive Kind
  | hdf5
  | fern
  | gdal
  | io
  | fileGdal
  | ogr
  | python
  deriving DecidableEq

/-- An object is created or destroyed. All objects of one class are alike. -/
inductive Event
  | create (k : Kind)
  | destroy (k : Kind)
  deriving DecidableEq

/-- What the version of GDAL determines: the names of the drivers that come with it, and the drivers that are known to
have bugs: `PDF` in version 1.11.1 (`language/io/gdal/gdal_client.cc:23-32`). -/
structure Library where
  available : List Str
  buggy : List Str

/-- The global variables of these classes, the map of drivers, and the libraries. A driver of GDAL is an object with a
name; objects are told apart by numbers. In the map of drivers, `none` is the driver for Fern's own format. -/
structure World where
  hdf5Count : Nat
  fernCount : Nat
  gdalCount : Nat
  fileGdalCount : Nat
  pythonCount : Nat
  skipped : List Str
  drivers : List (Str × Option Nat)
  registered : List (Str × Nat)
  nextObject : Nat
  hdf5Open : Bool
  ogrRegistered : Bool
  pythonInitialised : Bool
  deriving DecidableEq

/-- Static initialisation. -/
def World.initial : World :=
  ⟨0, 0, 0, 0, 0, [], [], [], 0, false, false, false⟩

/-- Whether `drivers` has an entry for the name. -/
def hasDriver (d : List (Str × Option Nat)) (n : Str) : Bool := (d.lookup n).isSome

/-- `drivers.erase(name)` -/
def eraseName (d : List (Str × Option Nat)) (n : Str) : List (Str × Option Nat) := d.filter fun x => x.1 != n

/-- `GDALAllRegister`, of GDAL: a driver is registered unless one with its name is. -/
def allRegister (available : List Str) (w : World) : World :=
  available.foldl (fun w n =>
    if (w.registered.lookup n).isSome then w
    else { w with registered := w.registered ++ [(n, w.nextObject)], nextObject := w.nextObject + 1 }) w

/-- The loop of `register_all_drivers` (`language/io/gdal/gdal_client.cc:80-94`). -/
def insertDrivers : List (Str × Nat) → List (Str × Option Nat) → Option (List (Str × Option Nat))
  | [], d => some d
  | (n, o) :: l, d => if hasDriver d n then none else insertDrivers l (d ++ [(n, some o)])

/-- `erase_driver` (`language/io/gdal/gdal_client.cc:35-50`), with the driver of that name; it is destroyed. `none` also
if there is no driver of that name: a null pointer is used. -/
def eraseDriver (w : World) (n : Str) : Option World :=
  if hasDriver w.drivers n && (w.registered.lookup n).isSome then
    some { w with drivers := eraseName w.drivers n, registered := w.registered.filter fun x => x.1 != n }
  else none

/-- `deregister_all_drivers` (`language/io/gdal/gdal_client.cc:97-110`): the drivers of the manager one by one. -/
def deregisterAll : List (Str × Nat) → List (Str × Option Nat) → Option (List (Str × Option Nat))
  | [], d => some d
  | (n, _) :: l, d => if hasDriver d n then deregisterAll l (eraseName d n) else none

/-- `HDF5Client::HDF5Client` (`language/io/fern/hdf5_client.cc:20-31`). -/
def createHdf5 (w : World) : World :=
  let w := { w with hdf5Count := w.hdf5Count + 1 }
  if w.hdf5Count = 1 then { w with hdf5Open := true } else w

/-- `HDF5Client::~HDF5Client` (`language/io/fern/hdf5_client.cc:34-47`). -/
def destroyHdf5 (w : World) : Option World :=
  if w.hdf5Count = 0 then none
  else
    let w := { w with hdf5Count := w.hdf5Count - 1 }
    some (if w.hdf5Count = 0 then { w with hdf5Open := false } else w)

/-- The name of the driver for Fern's format (`language/io/fern/fern_client.cc:19`). -/
def fernName : Str := "Fern".toList

/-- `FernClient::FernClient` and `register_driver` (`language/io/fern/fern_client.cc:22-29`, `43-48`). -/
def createFern (w : World) : Option World :=
  let w := { w with fernCount := w.fernCount + 1 }
  if w.fernCount = 1 then
    if hasDriver w.drivers fernName then none
    else some { w with drivers := w.drivers ++ [(fernName, none)] }
  else some w

/-- `FernClient::~FernClient` and `deregister_driver` (`language/io/fern/fern_client.cc:32-40`, `51-55`). -/
def destroyFern (w : World) : Option World :=
  if w.fernCount = 0 then none
  else
    let w := { w with fernCount := w.fernCount - 1 }
    if w.fernCount = 0 then
      if hasDriver w.drivers fernName then some { w with drivers := eraseName w.drivers fernName } else none
    else some w

/-- `GDALClient::GDALClient` of `fern::language` (`language/io/gdal/gdal_client.cc:113-134`, `80-94`, `23-32`,
`53-62`). -/
def createGdal (L : Library) (w : World) : Option World :=
  let w := { w with gdalCount := w.gdalCount + 1 }
  if w.gdalCount = 1 then
    let w := allRegister L.available w
    (insertDrivers w.registered w.drivers).bind fun d =>
    let w := { w with drivers := d }
    let w := { w with skipped := w.skipped ++ L.buggy.filter fun n => (w.registered.lookup n).isSome }
    w.skipped.foldlM eraseDriver w
  else some w

/-- `GDALClient::~GDALClient` of `fern::language` (`language/io/gdal/gdal_client.cc:137-146`). -/
def destroyGdal (w : World) : Option World :=
  if w.gdalCount = 0 then none
  else
    let w := { w with gdalCount := w.gdalCount - 1 }
    if w.gdalCount = 0 then
      (deregisterAll w.registered w.drivers).map fun d => { w with drivers := d, registered := [], skipped := [] }
    else some w

/-- `GDALClient::GDALClient` of `fern::io::gdal` (`io/gdal/gdal_client.cc:31-40`, `60-63`). -/
def createFileGdal (L : Library) (w : World) : World :=
  let w := { w with fileGdalCount := w.fileGdalCount + 1 }
  if w.fileGdalCount = 1 then allRegister L.available w else w

/-- `GDALClient::~GDALClient` of `fern::io::gdal` (`io/gdal/gdal_client.cc:49-57`, `66-80`). -/
def destroyFileGdal (w : World) : Option World :=
  if w.fileGdalCount = 0 then none
  else
    let w := { w with fileGdalCount := w.fileGdalCount - 1 }
    some (if w.fileGdalCount = 0 then { w with registered := [] } else w)

/-- `Client::Client` (`language/python/client.cc:26-30`). `Py_Initialize` does nothing if Python is initialised. The
counter is an `unsigned short`. -/
def createPython (w : World) : World :=
  { w with pythonInitialised := true, pythonCount := (w.pythonCount + 1) % 65536 }

/-- `Client::~Client` (`language/python/client.cc:36-45`). -/
def destroyPython (w : World) : Option World :=
  if w.pythonInitialised then
    if w.pythonCount = 0 then none
    else some { w with pythonInitialised := false, pythonCount := w.pythonCount - 1 }
  else some w

/-- What an event does. The bases of `IOClient` are constructed in order and destructed in reverse
(`language/io/io_client.h:24-28`, `language/io/io_client.cc:15-27`). `OGRClient`: `language/io/ogr/ogr_client.cc:16-26`. -/
def step (L : Library) (w : World) : Event → Option World
  | .create .hdf5 => some (createHdf5 w)
  | .destroy .hdf5 => destroyHdf5 w
  | .create .fern => createFern w
  | .destroy .fern => destroyFern w
  | .create .gdal => createGdal L w
  | .destroy .gdal => destroyGdal w
  | .create .io => (createFern (createHdf5 w)).bind (createGdal L)
  | .destroy .io => (destroyGdal w).bind fun w => (destroyFern w).bind destroyHdf5
  | .create .fileGdal => some (createFileGdal L w)
  | .destroy .fileGdal => destroyFileGdal w
  | .create .ogr => some { w with ogrRegistered := true }
  | .destroy .ogr => some { w with ogrRegistered := false }
  | .create .python => some (createPython w)
  | .destroy .python => destroyPython w

/-- A history. -/
def run (L : Library) (w : World) (l : List Event) : Option World := l.foldlM (step L) w

end Fern.Clients
