import Verif.Model.IntUnary
import Verif.Spec.Domains
import Verif.Spec.IntRaster
namespace Fern.IntUnary.Spec

open IntTy Fern.Spec
open _root_.Fern.IntRaster (Checks)

/-- What a unary operation on numbers should be: where it is undefined, and what may become of the
element of the result for a valid value otherwise. -/
structure Meaning where
  undefined : Int → Prop
  cell : Int → Cell Int → Cell Int → Prop

/-- The absolute value: undefined if a type of 32 or 64 bits, signed, cannot represent it. If a smaller
type cannot represent it the value itself is stored; that is reported unless the caller has chosen to
discard range errors. -/
def absolute (k : Checks) (t : IntTy) (outp : OutPolicy Int) : Meaning where
  undefined v := (t = i32 ∨ t = i64) ∧ ¬ Fits t |v|
  cell v c c' :=
    (Fits t |v| → c' = ⟨|v|, c.masked⟩) ∧
    (¬ Fits t |v| → if k.range then Marked outp ⟨v, c.masked⟩ c' else c' = ⟨v, c.masked⟩)

/-- The factorial: undefined if the type cannot represent it, and for negative values if the caller has
chosen to discard domain errors. -/
def factorial (k : Checks) (t : IntTy) (outp : OutPolicy Int) : Meaning where
  undefined v := (v < 0 ∧ k.domain = false) ∨ ∃ n : Nat, v = n ∧ ¬ Fits t n.factorial
  cell v c c' :=
    (v < 0 → Marked outp c c') ∧ ∀ n : Nat, v = n → c' = ⟨n.factorial, c.masked⟩

/-- The element of the result at position `i`. -/
def RasterCell (m : Meaning) (inp : InPolicy Int) (outp : OutPolicy Int) (value : List Int) (i : Nat)
    (c c' : Cell Int) : Prop :=
  (NoDataAt inp value i → Marked outp c c') ∧
  (¬ NoDataAt inp value i → ∃ v, value[i]? = some v ∧ m.cell v c c')

/-- There is a valid value for which the operation is undefined. -/
def Bad (m : Meaning) (inp : InPolicy Int) (value : List Int) : Prop :=
  ∃ i v, value[i]? = some v ∧ ¬ NoDataAt inp value i ∧ m.undefined v

/-- `std::tgamma` of integers, also of negative ones. -/
structure Gamma (gamma : Int → Domains.Flt) : Prop extends Domains.Spec.Accurate gamma where
  negative : ∀ a < 0, gamma a = .nan

/-- Scalars. -/
def Does0d (m : Meaning) (inp : InPolicy Int) (outp : OutPolicy Int)
    (apply : Int → Cell Int → Option (Cell Int)) (v : Int) : Prop :=
  ∀ c, (apply v c = none ↔ ¬ NoDataAt inp [v] 0 ∧ m.undefined v) ∧
    ∀ c', apply v c = some c' → RasterCell m inp outp [v] 0 c c'

end Fern.IntUnary.Spec
