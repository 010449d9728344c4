import Verif.Model.Convolve
import Verif.Spec.LocalOps
/-
What a convolution has to establish: for each cell, which neighbours count, in which order they are
added, and what is stored. Only the types of the model are used here.
-/
namespace Fern.Spec

variable {V W A R : Type}

/-- The cells of the kernel, row by row. -/
def kernelCells (radius : Nat) : List (Nat × Nat) :=
  (List.range (2 * radius + 1)).flatMap (fun p =>
    (List.range (2 * radius + 1)).map (fun q => (p, q)))

/-- Kernel cell `(p, q)` is above a cell of the image when the kernel is centred at `(i, j)`. -/
def InImage (rows cols radius i j : Nat) (pq : Nat × Nat) : Prop :=
  radius ≤ i + pq.1 ∧ i + pq.1 < rows + radius ∧ radius ≤ j + pq.2 ∧ j + pq.2 < cols + radius

instance (rows cols radius i j : Nat) (pq : Nat × Nat) :
    Decidable (InImage rows cols radius i j pq) := by
  unfold InImage; infer_instance

/-- The position in the source of the cell below kernel cell `(p, q)`. -/
def below (cols radius i j : Nat) (pq : Nat × Nat) : Nat :=
  (i + pq.1 - radius) * cols + (j + pq.2 - radius)

/-- The position of kernel cell `(p, q)` in the list of weights. -/
def weightAt (radius : Nat) (pq : Nat × Nat) : Nat := pq.1 * (2 * radius + 1) + pq.2

/-- The value (if any) and weight of a cell that is in the image: no-data cells count with the value
`alt` has for them, valid cells count if their weight is not zero. -/
noncomputable def imageTerm (ops : ConvolveOps V W A R) (a : ConvolveArgs V W)
    (alt : Nat → Nat → Option V) (i j : Nat) (pq : Nat × Nat) : Option (V × W) :=
  open Classical in
  if NoDataAt a.noData a.source (below a.cols a.radius i j pq) then
    (alt (i + pq.1 - a.radius) (j + pq.2 - a.radius)).bind (fun v =>
      (a.weights[weightAt a.radius pq]?).map (fun w => (v, w)))
  else
    (a.source[below a.cols a.radius i j pq]?).bind (fun v =>
      (a.weights[weightAt a.radius pq]?).bind (fun w => if ops.nonZero w then some (v, w) else none))

/-- The value (if any) and weight of a kernel cell that is outside of the image. `out`: the value
given to positions outside of the image. -/
def outsideTerm (a : ConvolveArgs V W) (out : Int → Int → Option V) (i j : Nat) (pq : Nat × Nat) :
    Option (V × W) :=
  (out ((i : Int) + pq.1 - a.radius) ((j : Int) + pq.2 - a.radius)).bind (fun v =>
    (a.weights[weightAt a.radius pq]?).map (fun w => (v, w)))

/-- All values that count for focal cell `(i, j)`, with their weights: first those outside of the
image, then those in the image. -/
noncomputable def terms (ops : ConvolveOps V W A R) (a : ConvolveArgs V W)
    (alt : Nat → Nat → Option V) (out : Int → Int → Option V) (i j : Nat) : List (V × W) :=
  ((kernelCells a.radius).filter (fun pq =>
    !decide (InImage a.rows a.cols a.radius i j pq))).filterMap (outsideTerm a out i j) ++
  ((kernelCells a.radius).filter (fun pq =>
    decide (InImage a.rows a.cols a.radius i j pq))).filterMap (imageTerm ops a alt i j)

/-- The sums over the values that count. -/
def sums (ops : ConvolveOps V W A R) (l : List (V × W)) : A :=
  l.foldl (fun s vw => ops.add vw.1 vw.2 s) ops.zero

/-- What has to be done with the destination cell, given the values that count. -/
structure ConvolvedCell (ops : ConvolveOps V W A R) (outp : OutPolicy R) (keep : Prop)
    (l : List (V × W)) (c c' : Cell R) : Prop where
  kept : keep → Marked outp c c'
  nothing : ¬ keep → l = [] → Marked outp c c'
  outOfRange : ¬ keep → ops.within (sums ops l) = false → Marked outp c c'
  ok : ¬ keep → l ≠ [] → ops.within (sums ops l) = true →
    c' = ⟨ops.normalize (sums ops l), c.masked⟩

/-- The border region of cell `(i, j)`, for an image that is at least twice the radius high and wide;
`none`: the kernel does not reach outside of the image. -/
def sideAt (rows cols radius i j : Nat) : Option Side :=
  if i < radius then
    if j < radius then some .northWest
    else if j + radius < cols then some .north
    else some .northEast
  else if i + radius < rows then
    if j < radius then some .west
    else if j + radius < cols then none
    else some .east
  else
    if j < radius then some .southWest
    else if j + radius < cols then some .south
    else some .southEast

/-- The overlap of the image and the kernel centred at `(i, j)`: rows `i - radius .. i + radius` of
the image as far as they exist, and which rows of the kernel these are; idem for columns. -/
def windowAt (rows cols radius i j : Nat) : Window where
  frs := i - radius
  fcs := j - radius
  frk := radius - i
  fck := radius - j
  nrk := min rows (i + radius + 1) - (i - radius)
  nck := min cols (j + radius + 1) - (j - radius)

/-- Focal cell `(i, j)` is a no-data cell that has to be kept. -/
def Kept (a : ConvolveArgs V W) (pol : ConvolvePolicy V) (i j : Nat) : Prop :=
  pol.keepNoData = true ∧ NoDataAt a.noData a.source (i * a.cols + j)

/-- The policies behave, for the cells of this image, like the functions `alt` (values for no-data
cells below the kernel at a focal cell that is not kept) and `out` (values for positions outside of the image). -/
structure PolicyIs (a : ConvolveArgs V W) (pol : ConvolvePolicy V) (alt : Nat → Nat → Option V)
    (out : Int → Int → Option V) : Prop where
  alternative : ∀ i < a.rows, ∀ j < a.cols, ¬ Kept a pol i j → ∀ pq ∈ kernelCells a.radius,
    InImage a.rows a.cols a.radius i j pq →
    NoDataAt a.noData a.source (below a.cols a.radius i j pq) →
    pol.alternative (i + pq.1 - a.radius) (j + pq.2 - a.radius) =
      some (alt (i + pq.1 - a.radius) (j + pq.2 - a.radius))
  outOfImage : ∀ i < a.rows, ∀ j < a.cols, ∀ side, sideAt a.rows a.cols a.radius i j = some side →
    ∀ pq ∈ kernelCells a.radius, ¬ InImage a.rows a.cols a.radius i j pq →
    pol.outOfImage side pq.1 pq.2 (windowAt a.rows a.cols a.radius i j) =
      some (out ((i : Int) + pq.1 - a.radius) ((j : Int) + pq.2 - a.radius))

/-- The arguments belong together: the lists are as long as the extents say, the kernel fits twice
its radius in the image. -/
structure ArgsOk (a : ConvolveArgs V W) : Prop where
  source : a.source.length = a.rows * a.cols
  noData : PolicyFor a.noData (a.rows * a.cols)
  weights : a.weights.length = (2 * a.radius + 1) * (2 * a.radius + 1)
  rows : 2 * a.radius ≤ a.rows
  cols : 2 * a.radius ≤ a.cols

/-- The neighbourhood of cell `(i, j)`: values and weights of the cells below the kernel that exist
and are valid, row by row. -/
noncomputable def neighbourhood (a : ConvolveArgs V W) (i j : Nat) : List (V × W) :=
  (kernelCells a.radius).filterMap (fun pq =>
    open Classical in
    if InImage a.rows a.cols a.radius i j pq ∧
        ¬ NoDataAt a.noData a.source (below a.cols a.radius i j pq) then
      (a.source[below a.cols a.radius i j pq]?).bind (fun v =>
        (a.weights[weightAt a.radius pq]?).map (fun w => (v, w)))
    else none)

end Fern.Spec
