import Verif.Model.Outcomes
/-
`algebra::laplacian` (`algorithm/algebra/vector/detail/laplacian.h`) and `algebra::lax`
(`algorithm/algebra/vector/detail/lax.h`) of a `fern::MaskedRaster`.

`inp`: the input no-data policy of the raster. `mark`: the output no-data policy is
`MarkNoDataByValue` on the mask of the result, or else `DontMarkNoData`.
-/
namespace Fern

variable {F : Type}

/-- `{{2, 3, 2}, {3, 0, 3}, {2, 3, 2}}` (`detail/laplacian.h:88-92`, `detail/lax.h:72-76`). -/
def vectorKernel (n : NumOps F) : List F := [2, 3, 2, 3, 0, 3, 2, 3, 2].map n.ofInt

/-- The arguments of a convolution of a raster with that kernel. -/
def vectorArgs (n : NumOps F) (rows cols : Nat) (source : List F) (noData : InPolicy F) :
    ConvolveArgs F F :=
  ⟨rows, cols, source, noData, 1, vectorKernel n⟩

/-- The output no-data policy. -/
def markPolicy (R : Type) (mark : Bool) : OutPolicy R := if mark then .markMask else .dontMark

/-- `laplacian` (`algorithm/algebra/vector/detail/laplacian.h:66-198`). `vs`, `rs`: extents of value
and result; `area`: `cell_area(value)`.

The policy that the second convolution is given marks no-data in the mask of the *result*, not of
the sum of weights it calculates: it runs on cells made of the elements of `sum_of_weights` and of
the result's mask. `atMost20`: `.. <= 20.0` in the assertion at line 135, of the largest value. -/
def laplacian (n : NumOps F) (atMost20 : F → Bool) (m : Execution) (vs : Nat × Nat) (value : List F)
    (inp : InPolicy F) (mark : Bool) (area : F) (rs : Nat × Nat) (result : List (Cell F)) :
    Outcomes (List (Cell F)) :=
  Outcomes.andThen (.one (assert' (vs.1 == rs.1))) fun _ =>
  Outcomes.andThen (.one (assert' (vs.2 == rs.2))) fun _ =>
  let size := vs.1 * vs.2
  let outp := markPolicy F mark
  Outcomes.andThen (convolveRun m (n.convOps true false) (vectorArgs n vs.1 vs.2 value inp)
    (skipPolicy F true) outp rs result) fun r1 =>
  Outcomes.andThen (definedRun m inp value vs (freshCells 0 size)) fun def_ =>
  Outcomes.andThen (unaryRun m (totalOp n.ofInt) .skip .dontMark vs (def_.map Cell.val) vs
    (freshCells (n.ofInt 0) size)) fun floats =>
  Outcomes.andThen (convolveRun m (n.convOps false false)
    (vectorArgs n vs.1 vs.2 (floats.map Cell.val) (inp.boundTo value)) (skipPolicy F true) outp vs
    (r1.map fun c => ⟨n.ofInt 0, c.masked⟩)) fun sow =>
  let r2 := List.zipWith (fun c s => (⟨c.val, s.masked⟩ : Cell F)) r1 sow
  Outcomes.andThen (.one (assert' (sow.all fun c => atMost20 c.val))) fun _ =>
  Outcomes.andThen (binaryRun m n.mulOp .skip inp outp vs (sow.map Cell.val) vs value rs
    (freshCells (n.ofInt 0) size)) fun mv =>
  Outcomes.andThen (ownRun m (ownBinaryActs n.subOp .ownMask
    (.bound (cellMaskPolicy mv) (mv.map Cell.val)) outp .own (.array (mv.map Cell.val))) rs r2) fun r3 =>
  ownRun m (ownBinaryActs n.divOp .ownMask (.number false) outp .own (.scalar area)) rs r3

/-- `lax` (`algorithm/algebra/vector/detail/lax.h:54-148`). The policy for `multiplied_values` marks
no-data in the mask of the *result*; `oneMinus`: `1.0 - fraction`. -/
def lax (n : NumOps F) (m : Execution) (vs : Nat × Nat) (value : List F) (inp : InPolicy F)
    (mark : Bool) (fraction oneMinus : F) (rs : Nat × Nat) (result : List (Cell F)) :
    Outcomes (List (Cell F)) :=
  Outcomes.andThen (.one (assert' (vs.1 == rs.1))) fun _ =>
  Outcomes.andThen (.one (assert' (vs.2 == rs.2))) fun _ =>
  let outp := markPolicy F mark
  Outcomes.andThen (convolveRun m (n.convOps true true) (vectorArgs n vs.1 vs.2 value inp)
    (skipPolicy F true) outp rs result) fun r1 =>
  Outcomes.andThen (ownRun m (ownBinaryActs n.mulOp (.number false) (.bound inp value) outp
    (.scalar fraction) .own) rs r1) fun r2 =>
  Outcomes.andThen (binary0d2dRun m n.mulOp .skip inp outp oneMinus vs value rs
    (r2.map fun c => ⟨n.ofInt 0, c.masked⟩)) fun mv =>
  let r3 := List.zipWith (fun c s => (⟨c.val, s.masked⟩ : Cell F)) r2 mv
  ownRun m (ownBinaryActs n.addOp (.number false) (.bound inp value) outp
    (.array (mv.map Cell.val)) .own) rs r3

end Fern
