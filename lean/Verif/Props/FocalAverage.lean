import Verif.Lemmas.FocalAverage
import Verif.Props.Convolve
/-
Property C71: missing values are replaced by the average of the cells around them.
-/
namespace Fern

open Spec

variable {V W A R : Type}

/-- **C71**, positions outside of the image. In images that are larger than twice the radius, all
eight functions for positions outside of the image give the average of the valid cells of the image
around the position, and none if there are none. Nothing outside of the image is read. -/
theorem C71_out_of_image (avg : AverageOps V) {a : ConvolveArgs V W} (ha : ArgsOk a)
    (hr : 2 * a.radius + 1 ≤ a.rows) (hc : 2 * a.radius + 1 ≤ a.cols) {i j : Nat} (hi : i < a.rows)
    (hj : j < a.cols) {side : Side} (hs : sideAt a.rows a.cols a.radius i j = some side)
    {pq : Nat × Nat} (hpq : pq ∈ kernelCells a.radius)
    (hout : ¬ InImage a.rows a.cols a.radius i j pq) :
    outOfImageAverage avg a side pq.1 pq.2 (windowAt a.rows a.cols a.radius i j) =
      some (focalAverage avg a ((i : Int) + pq.1 - a.radius) ((j : Int) + pq.2 - a.radius)) := by
  rw [mem_kernelCells] at hpq
  obtain ⟨b, hb, hok⟩ := focalBox_ok hi hj hr hc hs hpq.1 hpq.2 hout
  unfold outOfImageAverage
  rw [hb]
  cases b with
  | none =>
    unfold focalAverage
    rw [around_empty hok]
    rfl
  | some b =>
    obtain ⟨h1, h2, h3, h4, h5, h6⟩ := hok
    show (averageLoop avg a (fun _ _ => false) b).bind _ = _
    rw [averageLoop_eq avg ha.source ha.noData h1 h2 h3 h4 h5 h6 (by simp)]
    show some _ = _
    rw [averageOf_eq]
    rfl

/-- **C71**, no-data cells: a no-data cell gets the average of the valid cells around it. -/
theorem C71_no_data (avg : AverageOps V) {a : ConvolveArgs V W} (ha : ArgsOk a) {x y : Nat}
    (hx : x < a.rows) (hy : y < a.cols) (hnd : NoDataAt a.noData a.source (x * a.cols + y))
    (hne : around a x y ≠ []) :
    noDataAverage avg a x y = some (focalAverage avg a x y) := by
  rw [noDataAverage_eq avg ha.source ha.noData hx hy hnd, if_neg hne]

/-- **C71**: a no-data cell without any valid cell around it makes an assertion fail. -/
theorem C71_isolated_no_data (avg : AverageOps V) {a : ConvolveArgs V W} (ha : ArgsOk a) {x y : Nat}
    (hx : x < a.rows) (hy : y < a.cols) (hnd : NoDataAt a.noData a.source (x * a.cols + y))
    (hne : around a x y = []) : noDataAverage avg a x y = none := by
  rw [noDataAverage_eq avg ha.source ha.noData hx hy hnd, if_pos hne]

/-- Each no-data cell that is below the kernel at a focal cell that is not kept, has a valid cell
around it. -/
def NoneIsolated (a : ConvolveArgs V W) (pol : ConvolvePolicy V) : Prop :=
  ∀ i < a.rows, ∀ j < a.cols, ¬ Kept a pol i j → ∀ pq ∈ kernelCells a.radius,
    InImage a.rows a.cols a.radius i j pq →
    NoDataAt a.noData a.source (below a.cols a.radius i j pq) →
    around a ((i + pq.1 - a.radius : Nat) : Int) ((j + pq.2 - a.radius : Nat) : Int) ≠ []

theorem focalAverage_policy (avg : AverageOps V) {a : ConvolveArgs V W} (ha : ArgsOk a) (keep : Bool)
    (hr : 2 * a.radius + 1 ≤ a.rows) (hc : 2 * a.radius + 1 ≤ a.cols)
    (hno : NoneIsolated a (focalAveragePolicy avg a keep)) :
    PolicyIs a (focalAveragePolicy avg a keep) (fun x y => focalAverage avg a x y)
      (focalAverage avg a) where
  alternative := by
    intro i hi j hj hk pq hpq hin hnd
    have h1 := hno i hi j hj hk pq hpq hin hnd
    unfold InImage at hin
    exact C71_no_data avg ha (by omega) (by omega) hnd h1
  outOfImage := by
    intro i hi j hj side hs pq hpq hout
    exact C71_out_of_image avg ha hr hc hi hj hs hpq hout

/-- **C71**: convolution with both policies, in images larger than twice the radius: each cell is the
normalised sum over all kernel cells, in which missing values count as the average around them. -/
theorem C71_convolve (ops : ConvolveOps V W A R) (avg : AverageOps V) {a : ConvolveArgs V W}
    (keep : Bool) (outp : OutPolicy R) (ha : ArgsOk a) (hr : 2 * a.radius + 1 ≤ a.rows)
    (hc : 2 * a.radius + 1 ≤ a.cols) (hno : NoneIsolated a (focalAveragePolicy avg a keep))
    {res : List (Cell R)} (hres : res.length = a.rows * a.cols) :
    Convolves ops a (focalAveragePolicy avg a keep) outp
      (innerPart ops a (focalAveragePolicy avg a keep) outp)
      (terms ops a (fun x y => focalAverage avg a x y) (focalAverage avg a)) res :=
  C53_policies outp ha (focalAverage_policy avg ha keep hr hc hno) hres

theorem around_mem {a : ConvolveArgs V W} (ha : ArgsOk a) {x y : Int} {p q : Nat} (hp : p < a.rows)
    (hq : q < a.cols) (hnear : Near x y (p, q))
    (hnd : ¬ NoDataAt a.noData a.source (p * a.cols + q)) : around a x y ≠ [] := by
  intro h
  unfold around at h
  rw [List.filterMap_eq_nil_iff] at h
  have := h (p, q) (mem_imageCells.2 ⟨hp, hq⟩)
  obtain ⟨v, hv⟩ := source_get ha hp hq
  simp [hnear, hnd, hv] at this

/-- **C71**: with a kernel of radius 1 (or 0) and no-data focal cells that are kept, no no-data cell
is isolated: the focal cell is around it. -/
theorem C71_radius_one (avg : AverageOps V) {a : ConvolveArgs V W} (ha : ArgsOk a)
    (hradius : a.radius ≤ 1) : NoneIsolated a (focalAveragePolicy avg a true) := by
  intro i hi j hj hk pq hpq hin _
  rw [mem_kernelCells] at hpq
  unfold InImage at hin
  refine around_mem ha hi hj ?_ (fun h => hk ⟨rfl, h⟩)
  unfold Near
  omega

/-! Non-trivial cases. -/

/-- Integer averages, rounded down. -/
def intAverage : AverageOps Int := ⟨0, fun s v => s + v, fun s n => s / n⟩

example : ArgsOk convolveExample ∧ 2 * convolveExample.radius + 1 ≤ convolveExample.rows ∧
    2 * convolveExample.radius + 1 ≤ convolveExample.cols ∧ convolveExample.radius ≤ 1 :=
  ⟨⟨rfl, trivial, rfl, by decide, by decide⟩, by decide, by decide, by decide⟩

/-- A kernel of radius 2 can reach a no-data cell that is surrounded by no-data cells: an assertion
fails. -/
theorem C71_isolated :
    let a : ConvolveArgs Int Int := ⟨5, 5, List.replicate 24 0 ++ [1], .detect (fun v => v == 0), 2,
      List.replicate 25 1⟩
    convolveSequential sumOps a (focalAveragePolicy intAverage a true) .markMask
      (innerPart sumOps a (focalAveragePolicy intAverage a true) .markMask)
      (List.replicate 25 ⟨0, false⟩) = none := by
  decide +kernel

/-- In an image of two rows the values outside of the image are taken from cells that don't exist. -/
theorem C71_two_rows :
    let a : ConvolveArgs Int Int := ⟨2, 3, [1, 2, 3, 4, 5, 6], .skip, 1, List.replicate 9 1⟩
    ArgsOk a ∧
    convolveSequential sumOps a (focalAveragePolicy intAverage a true) .markMask
      (innerPart sumOps a (focalAveragePolicy intAverage a true) .markMask)
      (List.replicate 6 ⟨0, false⟩) = none := by
  refine ⟨⟨rfl, trivial, rfl, by decide, by decide⟩, by decide +kernel⟩

/-- In an image of two columns the values outside of the image are not those of the cells around the
position: north of the second column of the first row lies the average of the cells 1 and 2, which
is 1, but the cell of the next row, 30, is included. -/
theorem C71_two_columns :
    let a : ConvolveArgs Int Int := ⟨3, 2, [1, 2, 30, 4, 5, 6], .skip, 1, List.replicate 9 1⟩
    ArgsOk a ∧
    outOfImageAverage intAverage a .northWest 0 2 (windowAt 3 2 1 0 0) = some (some 11) ∧
    focalAverage intAverage a (-1) 1 = some 1 := by
  refine ⟨⟨rfl, trivial, rfl, by decide, by decide⟩, by decide +kernel, ?_⟩
  simp [focalAverage, averageOf, around, imageCells, List.range_succ, Near, NoDataAt, intAverage]

end Fern
