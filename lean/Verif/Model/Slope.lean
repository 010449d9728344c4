import Verif.Model.Outcomes
import Verif.Model.Vector
import Verif.Model.FocalAverage
/-
`space::slope` (`algorithm/space/focal/detail/slope.h`) of a `fern::MaskedRaster`.
-/
namespace Fern

variable {F : Type}

/-- The averages of `ReplaceNoDataByFocalAverage` and `ReplaceOutOfImageByFocalAverage`
(`replace_no_data_by_focal_average.h:59, 92`, `replace_out_of_image_by_focal_average.h:165, 274`): sums are of the type of the
accumulations. -/
def NumOps.averageOps (n : NumOps F) : AverageOps F :=
  ⟨n.ofInt 0, n.accAdd, fun s k => n.narrow (n.accDiv s (n.ofInt k))⟩

/-- `{{1, 0, -1}, {2, 0, -2}, {1, 0, -1}}` (`detail/slope.h:81-85`). -/
def slopeKernelX (n : NumOps F) : List F := [1, 0, -1, 2, 0, -2, 1, 0, -1].map n.ofInt

/-- `{{-1, -2, -1}, {0, 0, 0}, {1, 2, 1}}` (`detail/slope.h:88-92`). -/
def slopeKernelY (n : NumOps F) : List F := [-1, -2, -1, 0, 0, 0, 1, 2, 1].map n.ofInt

/-- `algebra::pow(.., Float(2), ..)` with `DiscardDomainErrors` and `pow::OutOfRangePolicy`
(`detail/slope.h:166-170`, `algorithm/algebra/elementary/pow.h:75-95`); `pow`: `std::pow`. -/
def powOp (n : NumOps F) (pow : F → F → F) : LocalOp (F × F) F :=
  ⟨fun _ => true, fun a => pow a.1 a.2, fun _ r => n.finite r⟩

/-- The convolution of the values with one of the kernels (`detail/slope.h:102-109, 136-143`), into a
new raster. -/
def slopeConvolve (n : NumOps F) (m : Execution) (kernel : List F) (vs : Nat × Nat) (value : List F)
    (inp : InPolicy F) (mark : Bool) : Outcomes (List (Cell F)) :=
  let a : ConvolveArgs F F := ⟨vs.1, vs.2, value, inp, 1, kernel⟩
  convolveRun m (n.accOps) a (focalAveragePolicy n.averageOps a true)
    (markPolicy F mark) vs (freshCells (n.ofInt 0) (vs.1 * vs.2))

/-- `slope` (`algorithm/space/focal/detail/slope.h:60-208`). `width`, `height`: `8 * cell_size(value, 0)`
and `8 * cell_size(value, 1)`; `pow`, `sqrt`: `std::pow` and `std::sqrt`. -/
def slope (n : NumOps F) (pow : F → F → F) (sqrt : F → F) (m : Execution) (vs : Nat × Nat)
    (value : List F) (inp : InPolicy F) (mark : Bool) (width height : F) (rs : Nat × Nat)
    (result : List (Cell F)) : Outcomes (List (Cell F)) :=
  Outcomes.andThen (.one (assert' (vs.1 == rs.1))) fun _ =>
  Outcomes.andThen (.one (assert' (vs.2 == rs.2))) fun _ =>
  let outp := markPolicy F mark
  Outcomes.andThen (slopeConvolve n m (slopeKernelX n) vs value inp mark) fun x1 =>
  Outcomes.andThen (ownRun m (ownBinaryActs n.divOp .ownMask (.number false) outp .own
    (.scalar width)) vs x1) fun x2 =>
  Outcomes.andThen (slopeConvolve n m (slopeKernelY n) vs value inp mark) fun y1 =>
  Outcomes.andThen (ownRun m (ownBinaryActs n.divOp .ownMask (.number false) outp .own
    (.scalar height)) vs y1) fun y2 =>
  Outcomes.andThen (ownRun m (ownBinaryActs (powOp n pow) .ownMask (.number false) outp .own
    (.scalar (n.ofInt 2))) vs x2) fun x3 =>
  Outcomes.andThen (ownRun m (ownBinaryActs (powOp n pow) .ownMask (.number false) outp .own
    (.scalar (n.ofInt 2))) vs y2) fun y3 =>
  Outcomes.andThen (binaryRun m n.addOp (cellMaskPolicy x3) (cellMaskPolicy y3) outp vs
    (x3.map Cell.val) vs (y3.map Cell.val) rs result) fun r1 =>
  ownRun m (ownUnaryActs (totalOp sqrt) .ownMask outp .own) rs r1

end Fern
