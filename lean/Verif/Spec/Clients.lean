import Verif.Model.Clients

/-!
# What clients are for

As long as there is an object of a class, its library can be used; not longer.
-/

namespace Fern.Clients.Spec

open Fern.Clients

/-- The number of objects of a class there are after a history. -/
def live (k : Kind) (l : List Event) : Nat := l.count (.create k) - l.count (.destroy k)

/-- Only what has been created is destroyed, once. -/
def WellFormed (l : List Event) : Prop := ∀ p, p <+: l → ∀ k, p.count (.destroy k) ≤ p.count (.create k)

/-- The number of objects that need HDF5, Fern's driver, and the drivers of GDAL in the map of drivers. -/
def hdf5Users (l : List Event) : Nat := live .hdf5 l + live .io l
@[inherit_doc hdf5Users] def fernUsers (l : List Event) : Nat := live .fern l + live .io l
@[inherit_doc hdf5Users] def gdalUsers (l : List Event) : Nat := live .gdal l + live .io l

/-- The two classes for GDAL are not used at the same time. -/
def Apart (l : List Event) : Prop := ∀ p, p <+: l → gdalUsers p = 0 ∨ live .fileGdal p = 0

/-- There is never more than one object of the class. -/
def Single (k : Kind) (l : List Event) : Prop := ∀ p, p <+: l → live k p ≤ 1

/-- The drivers of GDAL have different names, none of them is that of Fern's own. -/
structure Library.Fine (L : Library) : Prop where
  names : L.available.Nodup
  buggy : L.buggy.Nodup
  other : fernName ∉ L.available

/-- Everything can be used that there is a client for, and nothing else. -/
structure Provided (L : Library) (l : List Event) (w : World) : Prop where
  hdf5 : w.hdf5Open = true ↔ 0 < hdf5Users l
  /-- Fern's driver can be found. -/
  fern : w.drivers.lookup fernName = some none ↔ 0 < fernUsers l
  /-- The drivers of GDAL that can be found: all without known bugs. -/
  gdal : ∀ n, (∃ o, w.drivers.lookup n = some (some o)) ↔ 0 < gdalUsers l ∧ n ∈ L.available ∧ n ∉ L.buggy
  /-- No other driver can be found. -/
  others : ∀ n, n ≠ fernName → w.drivers.lookup n ≠ some none
  /-- The driver objects exist. -/
  objects : ∀ n o, w.drivers.lookup n = some (some o) → (n, o) ∈ w.registered
  /-- What GDAL itself knows. -/
  manager : ∀ n, (∃ o, (n, o) ∈ w.registered) ↔
    n ∈ L.available ∧ (0 < live .fileGdal l ∨ (0 < gdalUsers l ∧ n ∉ L.buggy))
  ogr : w.ogrRegistered = true ↔ 0 < live .ogr l
  python : w.pythonInitialised = true ↔ 0 < live .python l

end Fern.Clients.Spec
