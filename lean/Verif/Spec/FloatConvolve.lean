import Verif.Spec.Convolve
import Verif.Spec.FloatRaster

/-!
# What convolutions are, without rounding, and how far from this they may be
-/

namespace Fern.FloatConvolve.Spec

open Fern Fern.Domains Fern.Spec Fern.Casts.Spec Fern.FloatArith Fern.FloatArith.Spec

/-- The values of the valid cells are numbers of a type. -/
def Values (t : FltTy) (inp : InPolicy Flt) (value : List Flt) : Prop :=
  ∀ i v, value[i]? = some v → ¬ NoDataAt inp value i → ∃ q, v = .fin q ∧ Represents t.num q

/-- The values of the valid cells are multiples of a power of two. -/
def Multiples (e : Int) (inp : InPolicy Flt) (value : List Flt) : Prop :=
  ∀ i v, value[i]? = some v → ¬ NoDataAt inp value i → ∃ k : Int, v = .fin (k * 2 ^ e)

/-- The weighted sum. -/
def weightedSum (l : List (Rat × Rat)) : Rat := (l.map fun xw => xw.1 * xw.2).sum

/-- The sum of the magnitudes of the weighted values. -/
def magnitudes (l : List (Rat × Rat)) : Rat := (l.map fun xw => |xw.1 * xw.2|).sum

/-- The sum of the weights. -/
def weights (l : List (Rat × Rat)) : Rat := (l.map fun xw => xw.2).sum

/-- The sum of the magnitudes of the weights. -/
def weightMagnitudes (l : List (Rat × Rat)) : Rat := (l.map fun xw => |xw.2|).sum

/-- The error of `n` products whose magnitudes have sum `m`, rounded to type `p`. -/
def productError (p : FltTy) (n : Nat) (m : Rat) : Rat := unit p * m + n * tiny p

/-- The error of a sum of `n` numbers of type `double`, whose magnitudes have sum `m`. -/
def additionError (n : Nat) (m : Rat) : Rat := ((1 + 1 / 2 ^ 53) ^ n - 1) * m

/-- The error of the sum of `n` products. -/
def convolutionError (p : FltTy) (n : Nat) (m : Rat) : Rat := productError p n m + additionError n (m + productError p n m)

/-- `val` is `s / w`, rounded to `double` and then to type `r`; dividing by zero gives an infinite value, or NaN. -/
def Divided (r : FltTy) (s w : Rat) (val : Flt) : Prop :=
  (w ≠ 0 → ∃ d, Rounded .double (s / w) d ∧ FloatRaster.Spec.Operand r d val) ∧
  (w = 0 → 0 < s → val = .inf) ∧ (w = 0 → s < 0 → val = .negInf) ∧ (w = 0 → s = 0 → val = .nan)

/-- What becomes of a cell, if the sum is `s` and the sum of the weights is `w`: if the range is checked and the sum is too
large for type `r`, it is marked, otherwise the sum, or the quotient, is stored. -/
def Stored (outp : OutPolicy Flt) (r : FltTy) (checkRange divide : Bool) (s w : Rat) (c c' : Cell Flt) : Prop :=
  (checkRange = true ∧ TooLarge r s → Marked outp c c') ∧
  (¬ (checkRange = true ∧ TooLarge r s) →
    c'.masked = c.masked ∧ (divide = false → Rounded r s c'.val) ∧ (divide = true → Divided r s w c'.val))

/-- The focal cell is a no-data cell that is kept. -/
def KeptAt {W : Type} (keep : Bool) (a : ConvolveArgs Flt W) (i j : Nat) : Prop :=
  keep = true ∧ NoDataAt a.noData a.source (i * a.cols + j)

/-- The values and weights that count for a focal cell: those of the valid cells in the image below kernel cells with a weight
that is not zero. -/
noncomputable def counted {W : Type} (number' : W → Rat) (a : ConvolveArgs Flt W) (i j : Nat) : List (Rat × Rat) :=
  ((neighbourhood a i j).map fun vw => (number vw.1, number' vw.2)).filter fun xw => decide (xw.2 ≠ 0)

/-- A boolean as weight. -/
def oneIf (b : Bool) : Rat := if b then 1 else 0

end Fern.FloatConvolve.Spec
