import Verif.Model.PyFloat
import Verif.Model.Slope

/-!
# Slope in the Python extension

`fern.algorithm.slope` (`python/algorithm/space/focal/slope.cc`, `__init__.py.in`). Masked cells contain the reserved value,
in the temporary rasters too: `mask(raster)` is the raster itself
(`python/feature/detail/argument_customization_point/masked_raster.h:18-24`) and the policies for temporaries are
`DetectNoData` and `MarkNoData` (`python/feature/detail/argument_traits/masked_raster.h:19-32`).

`std::pow` and `std::sqrt` are arguments.
-/

namespace Fern.PyFloat

open Fern.Domains Fern.Casts Fern.FloatArith
open Fern.PyOps (Out)

section
variable {F : Type}

/-- The convolution of the values with one of the kernels (`algorithm/space/focal/detail/slope.h:102-109, 136-143`). Rasters
are not initialised by `clone` (`python/feature/detail/data_customization_point/masked_raster.h:133-142`): `garbage`. -/
def slopeConvolve (n : NumOps F) (isNo : F → Bool) (no : F) (m : Execution) (kernel : List F) (vs : Nat × Nat)
    (value : List F) (garbage : List (Cell F)) : Outcomes (List (Cell F)) :=
  let a : ConvolveArgs F F := ⟨vs.1, vs.2, value, .detect isNo, 1, kernel⟩
  convolveRun m (n.accOps) a (focalAveragePolicy n.averageOps a true) (.markValue no) vs garbage

/-- `slope` (`algorithm/space/focal/detail/slope.h:60-208`) with the policies of the Python extension. -/
def slopeCells (n : NumOps F) (isNo : F → Bool) (no : F) (pow : F → F → F) (sqrt : F → F) (m : Execution)
    (vs : Nat × Nat) (value : List F) (width height : F) (garbageX garbageY result : List (Cell F)) :
    Outcomes (List (Cell F)) :=
  let outp : OutPolicy F := .markValue no
  Outcomes.andThen (slopeConvolve n isNo no m (slopeKernelX n) vs value garbageX) fun x1 =>
  Outcomes.andThen (ownRun m (ownBinaryActs n.divOp (.ownValue isNo) (.number false) outp .own
    (.scalar width)) vs x1) fun x2 =>
  Outcomes.andThen (slopeConvolve n isNo no m (slopeKernelY n) vs value garbageY) fun y1 =>
  Outcomes.andThen (ownRun m (ownBinaryActs n.divOp (.ownValue isNo) (.number false) outp .own
    (.scalar height)) vs y1) fun y2 =>
  Outcomes.andThen (ownRun m (ownBinaryActs (powOp n pow) (.ownValue isNo) (.number false) outp .own
    (.scalar (n.ofInt 2))) vs x2) fun x3 =>
  Outcomes.andThen (ownRun m (ownBinaryActs (powOp n pow) (.ownValue isNo) (.number false) outp .own
    (.scalar (n.ofInt 2))) vs y2) fun y3 =>
  Outcomes.andThen (binaryRun m n.addOp (.detect isNo) (.detect isNo) outp vs (x3.map Cell.val) vs
    (y3.map Cell.val) vs result) fun r1 =>
  ownRun m (ownUnaryActs (totalOp sqrt) (.ownValue isNo) outp .own) vs r1

/-- The same, sequentially. -/
def slopeSequential (n : NumOps F) (isNo : F → Bool) (no : F) (pow : F → F → F) (sqrt : F → F)
    (vs : Nat × Nat) (value : List F) (width height : F) (garbageX garbageY result : List (Cell F)) :
    Option (List (Cell F)) := do
  let outp : OutPolicy F := .markValue no
  let convolve := fun (kernel : List F) (garbage : List (Cell F)) =>
    let a : ConvolveArgs F F := ⟨vs.1, vs.2, value, .detect isNo, 1, kernel⟩
    let pol := focalAveragePolicy n.averageOps a true
    convolveSequential (n.accOps) a pol outp (innerPart (n.accOps) a pol outp) garbage
  let own := fun (op : LocalOp (F × F) F) (x : F) (cells : List (Cell F)) =>
    ownSeq2d (ownBinaryActs op (.ownValue isNo) (.number false) outp .own (.scalar x)) vs.1 vs.2 vs.2 cells
  let x1 ← convolve (slopeKernelX n) garbageX
  let x2 ← own n.divOp width x1
  let y1 ← convolve (slopeKernelY n) garbageY
  let y2 ← own n.divOp height y1
  let x3 ← own (powOp n pow) (n.ofInt 2) x2
  let y3 ← own (powOp n pow) (n.ofInt 2) y2
  let r1 ← binary2d2d n.addOp (.detect isNo) (.detect isNo) outp vs (x3.map Cell.val) vs (y3.map Cell.val) vs result
  ownSeq2d (ownUnaryActs (totalOp sqrt) (.ownValue isNo) outp .own) vs.1 vs.2 vs.2 r1

end

/-- The arithmetic of `float` or `double`. Sums are of type `double` (`algorithm/core/accumulation_traits.h:36-54`). The divisor is not zero where `div` is used. -/
def arithmetic (t : FltTy) : NumOps Flt where
  ofInt i := t.round i
  add := plus t
  sub := minus t
  mul := times t
  div a b := (over t a b).getD .nan
  finite := Flt.isFinite
  isZero v := Flt.eq v (.fin 0)
  accAdd := plus .double
  accDiv a b := (over .double a b).getD .nan
  narrow v := (castTo .f64 t.num v).getD .nan

/-- `static_cast<Float>(8 * cell_size)` (`algorithm/space/focal/detail/slope.h:122-123, 156-157`). -/
def eightTimes (t : FltTy) (cellSize : Rat) : Flt :=
  (castTo .f64 t.num (times .double (.fin 8) (.fin cellSize))).getD .nan

/-- `slope<T>` (`python/algorithm/space/focal/slope.cc:24-46`): the possible results. -/
def slopeOf (t : FltTy) (pow : Flt → Flt → Flt) (sqrt : Flt → Flt) (m : Execution)
    (garbageX garbageY garbage : Nat → Flt) (dem : Raster) (o : Out Raster) : Prop :=
  ∃ cells, slopeCells (arithmetic t) (isNoData t.num) (noData t.num) pow sqrt m (dem.rows, dem.cols) dem.values
      (eightTimes t dem.cellSizes.1) (eightTimes t dem.cellSizes.2) (uninitialised garbageX dem.rows dem.cols)
      (uninitialised garbageY dem.rows dem.cols) (uninitialised garbage dem.rows dem.cols) cells ∧
    o = finish cells t.num dem.rows dem.cols dem.origin dem.cellSizes

/-- `slope` (`python/algorithm/space/focal/slope.cc:51-70`, `python/core/switch_on_value_type.h:120-129`): floating point
types only. -/
def slope (pow : Flt → Flt → Flt) (sqrt : Flt → Flt) (m : Execution) (garbageX garbageY garbage : Nat → Flt)
    (dem : Raster) (o : Out Raster) : Prop :=
  match dem.type with
  | .f32 => slopeOf .single pow sqrt m garbageX garbageY garbage dem o
  | .f64 => slopeOf .double pow sqrt m garbageX garbageY garbage dem o
  | _ => o = .assertion

end Fern.PyFloat
