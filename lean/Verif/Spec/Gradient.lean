import Verif.Spec.LocalOps
import Verif.Model.Gradient
/-
What a gradient is, in terms of the valid neighbours of a cell.
-/
namespace Fern.Spec

open Fern

variable {V R : Type}

/-- The valid value at a position, which need not be inside the raster. -/
noncomputable def validValue (a : GradientArgs V) (x y : Int) : Option V :=
  open Classical in
  if 0 ≤ x ∧ x < a.rows ∧ 0 ≤ y ∧ y < a.cols ∧
      ¬NoDataAt a.noData a.value (x.toNat * a.cols + y.toNat) then
    a.value[x.toNat * a.cols + y.toNat]?
  else none

/-- The array and the mask have the raster's size. -/
structure RasterOk (a : GradientArgs V) : Prop where
  value : a.value.length = a.rows * a.cols
  policy : PolicyFor a.noData (a.rows * a.cols)

/-- The result of a cell, given the valid values at the cell before it, at the cell itself, and at
the cell after it. -/
structure GradientCell (ops : GradientOps V R) (outp : OutPolicy R) (prev center next : Option V)
    (d d' : Cell R) : Prop where
  noData : center = none → Marked outp d d'
  both : ∀ p c n, prev = some p → center = some c → next = some n → d' = ⟨ops.far p n, d.masked⟩
  prevOnly : ∀ p c, prev = some p → center = some c → next = none → d' = ⟨ops.near p c, d.masked⟩
  nextOnly : ∀ c n, prev = none → center = some c → next = some n → d' = ⟨ops.near c n, d.masked⟩
  alone : ∀ c, prev = none → center = some c → next = none → d' = ⟨ops.zero, d.masked⟩

end Fern.Spec
