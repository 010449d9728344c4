import Verif.Model.LocalOps
import Verif.Model.InPlace
import Verif.Model.Boole
import Verif.Model.Convolve
/-
Algorithms that are written in terms of other algorithms. Each of those runs sequentially or in
parallel, depending on the execution policy that is passed on; in parallel it has a set of possible
outcomes. The algorithm waits for each of them before it starts the next.
-/
namespace Fern

/-- The execution policy: `SequentialExecutionPolicy` or `ParallelExecutionPolicy` with a number of
threads (`algorithm/policy/execution_policy.h`, `parallel_execution_policy.h`). -/
inductive Execution where
  | sequential
  | parallel (nrThreads : Nat)

/-- The set of possible outcomes; `none`: undefined behaviour or a failing assertion. -/
abbrev Outcomes (α : Type) := Option α → Prop

/-- One outcome. -/
def Outcomes.one {α : Type} (o : Option α) : Outcomes α := fun o' => o' = o

/-- First one step, then the next. -/
def Outcomes.andThen {α β : Type} (m : Outcomes α) (f : α → Outcomes β) : Outcomes β := fun o =>
  (m none ∧ o = none) ∨ ∃ a, m (some a) ∧ f a o

section
variable {V V1 V2 W A R γ : Type}

/-- `convolution::convolve` (`algorithm/convolution/detail/convolve.h:1876-2073`) for weighted
kernels. -/
def convolveRun (m : Execution) (ops : ConvolveOps V W A R) (a : ConvolveArgs V W)
    (pol : ConvolvePolicy V) (outp : OutPolicy R) (dest : Nat × Nat) (res : List (Cell R)) :
    Outcomes (List (Cell R)) :=
  match m with
  | .sequential => .one (convolveSequential ops a pol outp (innerPart ops a pol outp) res)
  | .parallel t => ParResult (convolveTasks ops a pol outp (innerPart ops a pol outp) t dest) res

/-- A unary operation, 2D. -/
def unaryRun (m : Execution) (op : LocalOp V R) (inp : InPolicy V) (outp : OutPolicy R)
    (vs : Nat × Nat) (value : List V) (rs : Nat × Nat) (res : List (Cell R)) :
    Outcomes (List (Cell R)) :=
  match m with
  | .sequential => .one (unary2d op inp outp vs value rs res)
  | .parallel t => ParResult (unary2dTasks op inp outp t vs value rs) res

/-- A binary operation, 2D/2D. -/
def binaryRun (m : Execution) (op : LocalOp (V1 × V2) R) (in1 : InPolicy V1) (in2 : InPolicy V2)
    (outp : OutPolicy R) (vs1 : Nat × Nat) (value1 : List V1) (vs2 : Nat × Nat) (value2 : List V2)
    (rs : Nat × Nat) (res : List (Cell R)) : Outcomes (List (Cell R)) :=
  match m with
  | .sequential => .one (binary2d2d op in1 in2 outp vs1 value1 vs2 value2 rs res)
  | .parallel t => ParResult (binary2d2dTasks t op in1 in2 outp vs1 value1 vs2 value2 rs) res

/-- A binary operation, 0D/2D. -/
def binary0d2dRun (m : Execution) (op : LocalOp (V1 × V2) R) (in1 : InPolicy V1) (in2 : InPolicy V2)
    (outp : OutPolicy R) (value1 : V1) (vs2 : Nat × Nat) (value2 : List V2)
    (rs : Nat × Nat) (res : List (Cell R)) : Outcomes (List (Cell R)) :=
  match m with
  | .sequential => .one (binary0d2d op in1 in2 outp value1 vs2 value2 rs res)
  | .parallel t => ParResult (binary0d2dTasks t op in1 in2 outp value1 vs2 value2 rs) res

/-- `algebra::defined`, 2D. -/
def definedRun (m : Execution) (inp : InPolicy V) (value : List V) (rs : Nat × Nat)
    (res : List (Cell Int)) : Outcomes (List (Cell Int)) :=
  match m with
  | .sequential => .one (defined2d inp value rs res)
  | .parallel t => Defined2dPar t inp value rs res

/-- An operation that writes into one of its arguments, 2D. -/
def ownRun (m : Execution) (acts : List γ → Nat → Option (List (γ → γ))) (rs : Nat × Nat)
    (res : List γ) : Outcomes (List γ) :=
  match m with
  | .sequential => .one (ownSeq2d acts rs.1 rs.2 rs.2 res)
  | .parallel t => OwnParResult acts (blocks2d t rs.1 rs.2 rs.2) res

/-- A new raster: `clone<T>(raster)`, which doesn't copy the values or the mask
(`feature/core/data_customization_point/masked_raster.h:147-155`), or `Array<T, 2>(extents)`. The
elements are `T()`, nothing is masked. -/
def freshCells (zero : R) (n : Nat) : List (Cell R) := List.replicate n ⟨zero, false⟩

/-- `no_data` according to the policy, which is bound to `values`, whatever array it is used with. -/
def InPolicy.boundTo (p : InPolicy V) (values : List V) : InPolicy V :=
  match p with
  | .detect isNd => .byMask (values.map fun v => if isNd v then 1 else 0) 1
  | p => p

/-- `DetectNoDataByValue` bound to the mask of a raster (`InputNoDataPolicyT`,
`algorithm/core/argument_traits/masked_raster.h:26-30`). -/
def cellMaskPolicy (cells : List (Cell R)) : InPolicy R :=
  .byMask (cells.map fun c => if c.masked then 1 else 0) 1

end

/-- The arithmetic of a floating point type. `ofInt`: integral constants; `finite`:
`std::isfinite`; `isZero`: comparison with 0. `accAdd`, `accDiv`: addition and division of the type in which sums of values are
accumulated; `narrow`: conversion from this type (`algorithm/core/accumulation_traits.h`). -/
structure NumOps (F : Type) where
  ofInt : Int → F
  add : F → F → F
  sub : F → F → F
  mul : F → F → F
  div : F → F → F
  finite : F → Bool
  isZero : F → Bool
  accAdd : F → F → F := add
  accDiv : F → F → F := div
  narrow : F → F := id

namespace NumOps
variable {F : Type} (n : NumOps F)

/-- `algebra::add` (`algorithm/algebra/elementary/detail/add.h:161-182`). -/
def addOp : LocalOp (F × F) F := ⟨fun _ => true, fun a => n.add a.1 a.2, fun _ r => n.finite r⟩

/-- `algebra::subtract` (`algorithm/algebra/elementary/detail/subtract.h:167-188`). -/
def subOp : LocalOp (F × F) F := ⟨fun _ => true, fun a => n.sub a.1 a.2, fun _ r => n.finite r⟩

/-- `algebra::multiply` (`algorithm/algebra/elementary/detail/multiply.h:198-220`). -/
def mulOp : LocalOp (F × F) F := ⟨fun _ => true, fun a => n.mul a.1 a.2, fun _ r => n.finite r⟩

/-- `algebra::divide` (`algorithm/algebra/elementary/divide.h:70-76`, `detail/divide.h:160-182`). -/
def divOp : LocalOp (F × F) F :=
  ⟨fun a => !n.isZero a.2, fun a => n.div a.1 a.2, fun _ r => n.finite r⟩

/-- Convolution with a kernel of numbers (`algorithm/convolution/detail/convolve.h:32-75`), if sums are of the type of the
values: `double`.
`checkRange`: `convolve::OutOfRangePolicy` or `DiscardRangeErrors`; `divide`: `DivideByWeights` or
`DontDivideByWeights`. -/
def convOps (checkRange divide : Bool) : ConvolveOps F F (F × F) F where
  zero := (n.ofInt 0, n.ofInt 0)
  add := fun v w s => (n.add s.1 (n.mul v w), n.add s.2 w)
  nonZero := fun w => !n.isZero w
  within := fun s => !checkRange || n.finite s.1
  normalize := fun s => if divide then n.div s.1 s.2 else s.1

/-- Convolution with a kernel of the same type as the values, without dividing by the weights: products are of the type of the
values, sums are of the type of the accumulations (`algorithm/core/accumulation_traits.h:36-54`,
`algorithm/convolution/detail/convolve.h:32-75, 133-141, 265-271`). The sum is converted when it is checked and when it is
stored. -/
def accOps : ConvolveOps F F (F × F) F where
  zero := (n.ofInt 0, n.ofInt 0)
  add := fun v w s => (n.accAdd s.1 (n.mul v w), n.accAdd s.2 w)
  nonZero := fun w => !n.isZero w
  within := fun s => n.finite (n.narrow s.1)
  normalize := fun s => n.narrow s.1

end NumOps

end Fern
