import Verif.Model.Outcomes
import Verif.Model.PySlope

/-!
# Convolution of rasters of floating point numbers

`algorithm/convolution/detail/convolve.h`, for rasters of `float` or `double` and kernels of `float`, `double`, `int32_t` or
`bool`. These are the types for which there is a type for sums (`algorithm/core/accumulation_traits.h:19-54`). Each operation
is rounded by itself: there are no fused multiplications and additions. Sums of weights of type `int64_t` and `uint64_t` don't
overflow: a kernel of less than 2^32 weights is assumed.
-/

namespace Fern.FloatConvolve

open Fern Fern.Domains Fern.Casts Fern.FloatArith

/-- The weights of a kernel: their type, a weight as a number, and sums of weights, which are converted to `double` when the
sum of the values is divided by them (`accumulate_type<W>`, `algorithm/core/accumulation_traits.h:19-54`). -/
structure Weights (W C : Type) where
  type : NumTy
  value : W → Flt
  none : C
  count : C → W → C
  total : C → Flt

/-- Weights of type `int32_t`, sums of which are of type `int64_t`. -/
def intWeights : Weights Int Int where
  type := .int .i32
  value := fun w => .fin w
  none := 0
  count := fun s w => s + w
  total := fun s => FltTy.double.round s

/-- Weights of type `float` or `double`, sums of which are of type `double`. -/
def fltWeights (t : FltTy) : Weights Flt Flt where
  type := t.num
  value := id
  none := .fin 0
  count := plus .double
  total := id

/-- The type of the product of a value and a weight: the usual arithmetic conversions. -/
def productType (v : FltTy) : NumTy → FltTy
  | .f64 => .double
  | _ => v

/-- `value * weight` (`algorithm/convolution/detail/convolve.h:66-68`) -/
def product {W C : Type} (k : Weights W C) (v : FltTy) (x : Flt) (w : W) : Flt :=
  times (productType v k.type) ((castTo v.num (productType v k.type).num x).getD .nan)
    ((castTo k.type (productType v k.type).num (k.value w)).getD .nan)

/-- `value / count` (`algorithm/convolution/divide_by_weights.h:41-49`). Sums of weights that are zero are not negative zeros,
so that dividing by them gives an infinite value with the sign of the dividend. -/
def quotient (s w : Flt) : Flt :=
  match over .double s w with
  | some q => q
  | Option.none =>
    match s with
    | .fin x => infinite x
    | s => s

/-- A sum as value of the type of the destination. -/
def store (r : FltTy) (s : Flt) : Flt := (castTo .f64 r.num s).getD .nan

/-- Convolution with a kernel of numbers (`algorithm/convolution/detail/convolve.h:32-70, 241-271`). `checkRange`:
`convolve::OutOfRangePolicy` or `DiscardRangeErrors`: the sum of values is checked, as value of the destination, and not what
is stored. `divide`: `DivideByWeights` or `DontDivideByWeights`. -/
def weightedOps {W C : Type} (k : Weights W C) (v r : FltTy) (checkRange divide : Bool) : ConvolveOps Flt W (Flt × C) Flt where
  zero := (.fin 0, k.none)
  add := fun x w s => (plus .double s.1 (product k v x w), k.count s.2 w)
  nonZero := fun w => !Flt.eq (k.value w) (.fin 0)
  within := fun s => !checkRange || (store r s.1).isFinite
  normalize := fun s => store r (if divide then quotient s.1 (k.total s.2) else s.1)

/-- The same for kernels of booleans (`algorithm/convolution/detail/convolve.h:73-98, 241-271`). -/
def booleanOps (r : FltTy) (checkRange divide : Bool) : ConvolveOps Flt Bool (Flt × Nat) Flt where
  zero := (.fin 0, 0)
  add := fun x w s => if w then (plus .double s.1 x, s.2 + 1) else s
  nonZero := fun w => w
  within := fun s => !checkRange || (store r s.1).isFinite
  normalize := fun s => store r (if divide then quotient s.1 (FltTy.double.round (s.2 : Rat)) else s.1)

/-- `convolution::convolve` for kernels of booleans (`algorithm/convolution/detail/convolve.h:1686-1870, 1876-2073`). -/
def convolveBooleanRun {V A R : Type} (m : Execution) (ops : ConvolveOps V Bool A R) (a : ConvolveArgs V Bool)
    (pol : ConvolvePolicy V) (outp : OutPolicy R) (dest : Nat × Nat) (res : List (Cell R)) : Outcomes (List (Cell R)) :=
  match m with
  | .sequential => .one (convolveSequential ops a pol outp (innerPartBool ops a pol outp) res)
  | .parallel t => ParResult (convolveTasks ops a pol outp (innerPartBool ops a pol outp) t dest) res

end Fern.FloatConvolve
