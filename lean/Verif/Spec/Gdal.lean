import Verif.Model.Gdal

/-!
# What reading and writing of GDAL rasters should do
-/

namespace Fern.Gdal.Spec

open Fern Fern.Domains Fern.Features Fern.Gdal

/-- A field with square cells of size `cell`: the box, the shape and the numbers of elements agree. -/
structure Gridded (box : Box) (a : FieldArray) (cell : Rat) : Prop where
  rows : 0 < a.rows
  cols : 0 < a.cols
  positive : 0 < cell
  width : box.east - box.west = a.cols * cell
  height : box.north - box.south = a.rows * cell
  values : a.array.values.length = a.rows * a.cols
  mask : a.array.mask.length = a.rows * a.cols

/-- The path of the attribute of a raster called `s`. -/
def attributePath (s : Str) : Path := ⟨true, [s, s], false⟩

/-- GDAL's coordinates of a position in the raster, counted in columns and rows. -/
def position (t : Transform) (column row : Rat) : Rat × Rat :=
  (t.t0 + column * t.t1 + row * t.t2, t.t3 + column * t.t4 + row * t.t5)

/-- The position lies within the box or on its border. -/
def Box.contains (b : Box) (p : Rat × Rat) : Prop :=
  b.west ≤ p.1 ∧ p.1 ≤ b.east ∧ b.south ≤ p.2 ∧ p.2 ≤ b.north

/-- The element in this row and column of a raster that has `cols` columns. -/
def at' {α : Type} (cols : Nat) (l : List α) (r c : Nat) : Option α := l[r * cols + c]?

end Fern.Gdal.Spec
