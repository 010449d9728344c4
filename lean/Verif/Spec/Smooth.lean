import Verif.Spec.Convolve
import Mathlib.Data.Rat.Defs
/-
What one expects of weighted means of neighbourhoods.
-/
namespace Fern.Spec

variable {V W : Type}

/-- Around cell `(i, j)` of one image and cell `(i', j')` of another image everything looks the same: the kernel, which
cells exist, which of these are no-data, and their values. -/
structure Alike (a b : ConvolveArgs V W) (i j i' j' : Nat) : Prop where
  radius : b.radius = a.radius
  weights : b.weights = a.weights
  inImage : ∀ pq ∈ kernelCells a.radius,
    (InImage b.rows b.cols a.radius i' j' pq ↔ InImage a.rows a.cols a.radius i j pq)
  noData : ∀ pq ∈ kernelCells a.radius, InImage a.rows a.cols a.radius i j pq →
    (NoDataAt b.noData b.source (below b.cols a.radius i' j' pq) ↔
      NoDataAt a.noData a.source (below a.cols a.radius i j pq))
  values : ∀ pq ∈ kernelCells a.radius, InImage a.rows a.cols a.radius i j pq →
    b.source[below b.cols a.radius i' j' pq]? = a.source[below a.cols a.radius i j pq]?

/-- Cell `(i, j)` gets a value: it is not a no-data cell that has to be kept, and there is a valid neighbour with a
weight that is not zero. -/
def GetsValue (a : ConvolveArgs V ℚ) (keep : Bool) (i j : Nat) : Prop :=
  ¬ (keep = true ∧ NoDataAt a.noData a.source (i * a.cols + j)) ∧ ∃ vw ∈ neighbourhood a i j, vw.2 ≠ 0

/-- The sum of the weights of the valid neighbours. -/
noncomputable def allWeights (a : ConvolveArgs V ℚ) (i j : Nat) : ℚ := ((neighbourhood a i j).map fun vw => vw.2).sum

/-- The second image has the values of the first one in other places: what is in cell `cell i j` of the first one is in
cell `(i, j)` of the second one, and the same for the kernel. -/
structure Moved (a b : ConvolveArgs V W) (cell : Nat → Nat → Nat × Nat) (kernelCell : Nat × Nat → Nat × Nat) :
    Prop where
  radius : b.radius = a.radius
  inside : ∀ i < b.rows, ∀ j < b.cols, (cell i j).1 < a.rows ∧ (cell i j).2 < a.cols
  values : ∀ i < b.rows, ∀ j < b.cols, b.source[i * b.cols + j]? = a.source[(cell i j).1 * a.cols + (cell i j).2]?
  noData : ∀ i < b.rows, ∀ j < b.cols, (NoDataAt b.noData b.source (i * b.cols + j) ↔
    NoDataAt a.noData a.source ((cell i j).1 * a.cols + (cell i j).2))
  weights : ∀ pq ∈ kernelCells a.radius,
    b.weights[weightAt a.radius pq]? = a.weights[weightAt a.radius (kernelCell pq)]?

/-- The second image and kernel are the first ones, reflected in a vertical line. -/
def MirroredLeftRight (a b : ConvolveArgs V W) : Prop :=
  b.rows = a.rows ∧ b.cols = a.cols ∧ Moved a b (fun i j => (i, a.cols - 1 - j)) (fun pq => (pq.1, 2 * a.radius - pq.2))

/-- The second image and kernel are the first ones, reflected in a horizontal line. -/
def MirroredUpDown (a b : ConvolveArgs V W) : Prop :=
  b.rows = a.rows ∧ b.cols = a.cols ∧ Moved a b (fun i j => (a.rows - 1 - i, j)) (fun pq => (2 * a.radius - pq.1, pq.2))

/-- The second image and kernel are the first ones with rows and columns exchanged. -/
def Transposed (a b : ConvolveArgs V W) : Prop :=
  b.rows = a.cols ∧ b.cols = a.rows ∧ Moved a b (fun i j => (j, i)) (fun pq => (pq.2, pq.1))

end Fern.Spec
