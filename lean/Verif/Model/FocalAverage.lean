import Verif.Model.Convolve
/-
Model of the convolution policies that replace missing values by an average of the surrounding cells
(`algorithm/convolution/replace_no_data_by_focal_average.h`,
`algorithm/convolution/replace_out_of_image_by_focal_average.h`).
-/
namespace Fern

/-- The arithmetic of an average: `AccumulationTraits<Value>::zero`, `+=` and the division by the
number of values. -/
structure AverageOps (V : Type) where
  zero : V
  add : V → V → V
  divide : V → Nat → V

/-- The rows and columns (first, last) of the source cells that are averaged. -/
structure FocalBox where
  firstRow : Nat
  lastRow : Nat
  firstCol : Nat
  lastCol : Nat
deriving DecidableEq, Repr

section
variable {V W : Type}

/-- The loops over the cells to average. The index is computed at the begin of each row and then
incremented (`replace_out_of_image_by_focal_average.h:182-204` and the other loops of that file,
`replace_no_data_by_focal_average.h:66-83`). `skip`: a cell that is left out. -/
def averageLoop (avg : AverageOps V) (a : ConvolveArgs V W) (skip : Nat → Nat → Bool) (b : FocalBox) :
    Option (V × Nat) :=
  forIn' (List.range (b.lastRow + 1 - b.firstRow)) (fun dr s =>
    forIn' (List.range (b.lastCol + 1 - b.firstCol)) (fun dc s =>
      if skip (b.firstRow + dr) (b.firstCol + dc) then some s
      else do
        let index := linearIndex a.cols (b.firstRow + dr) b.firstCol + dc
        if ← a.noData.isNoData a.source index then some s
        else
          let v ← a.source[index]?
          some (avg.add s.1 v, s.2 + 1)) s) (avg.zero, 0)

/-- `ReplaceNoDataByFocalAverage::value` (`replace_no_data_by_focal_average.h:48-96`). Fails if there
is nothing to average. -/
def noDataAverage (avg : AverageOps V) (a : ConvolveArgs V W) (row col : Nat) :
    Option (Option V) := do
  let firstRow := if row > 0 then row - 1 else row
  let firstCol := if col > 0 then col - 1 else col
  let lastRow := if row < usub a.rows 1 then row + 1 else row
  let lastCol := if col < usub a.cols 1 then col + 1 else col
  let s ← averageLoop avg a (fun r c => r == row && c == col) ⟨firstRow, lastRow, firstCol, lastCol⟩
  assert' (decide (s.2 > 0))
  some (some (avg.divide s.1 s.2))

/-! The cells to average for kernel cell `(kr, kc)`, which is outside of the image; `some none` if
there are none. The constant `radius` in the code is 1. -/

/-- `value_north_west` (`replace_out_of_image_by_focal_average.h:147-277`). -/
def boxNorthWest (kr kc : Nat) (w : Window) : Option (Option FocalBox) :=
  if kr < w.frk then
    if kc < w.fck then
      some (if w.frk - kr ≤ 1 ∧ w.fck - kc ≤ 1 then
        some ⟨w.frs, 1 - (w.frk - kr), w.fcs, 1 - (w.fck - kc)⟩ else none)
    else
      some (if w.frk - kr ≤ 1 then
        some ⟨w.frs, 1 - (w.frk - kr),
          if kc - w.fck ≥ 1 then kc - w.fck - 1 else 0, kc - w.fck + 1⟩ else none)
  else do
    assert' (decide (kc < w.fck))
    some (if w.fck - kc ≤ 1 then
      some ⟨if kr - w.frk ≥ 1 then kr - w.frk - 1 else 0, kr - w.frk + 1,
        w.fcs, 1 - (w.fck - kc)⟩ else none)

/-- `value_north_east` (`replace_out_of_image_by_focal_average.h:280-417`). -/
def boxNorthEast (cols : Nat) (kr kc : Nat) (w : Window) : Option (Option FocalBox) :=
  let lastColKernel := usub (w.fck + w.nck) 1
  let lastColSource := usub cols 1
  if kr < w.frk then
    if kc > lastColKernel then
      some (if w.frk - kr ≤ 1 ∧ kc - lastColKernel ≤ 1 then
        some ⟨w.frs, 1 - (w.frk - kr), lastColSource + (kc - lastColKernel - 1), lastColSource⟩
        else none)
    else
      some (if w.frk - kr ≤ 1 then
        some ⟨w.frs, 1 - (w.frk - kr), usub (w.fcs + kc) 1, min (w.fcs + kc + 1) lastColSource⟩
        else none)
  else do
    assert' (decide (kc > lastColKernel))
    some (if kc - lastColKernel ≤ 1 then
      some ⟨if kr - w.frk ≥ 1 then kr - w.frk - 1 else 0, kr - w.frk + 1,
        lastColSource + (kc - lastColKernel - 1), lastColSource⟩ else none)

/-- `value_south_west` (`replace_out_of_image_by_focal_average.h:420-558`). -/
def boxSouthWest (rows : Nat) (kr kc : Nat) (w : Window) : Option (Option FocalBox) :=
  let lastRowKernel := usub (w.frk + w.nrk) 1
  let lastRowSource := usub rows 1
  if kr > lastRowKernel then
    if kc < w.fck then
      some (if kr - lastRowKernel ≤ 1 ∧ w.fck - kc ≤ 1 then
        some ⟨lastRowSource + (kr - lastRowKernel - 1), lastRowSource, w.fcs, 1 - (w.fck - kc)⟩
        else none)
    else
      some (if kr - lastRowKernel ≤ 1 then
        some ⟨lastRowSource + (kr - lastRowKernel - 1), lastRowSource,
          if kc - w.fck ≥ 1 then kc - w.fck - 1 else 0, kc - w.fck + 1⟩ else none)
  else do
    assert' (decide (kc < w.fck))
    some (if w.fck - kc ≤ 1 then
      some ⟨usub (w.frs + kr) 1, min (w.frs + kr + 1) lastRowSource, w.fcs, 1 - (w.fck - kc)⟩
      else none)

/-- `value_south_east` (`replace_out_of_image_by_focal_average.h:561-701`). -/
def boxSouthEast (rows cols : Nat) (kr kc : Nat) (w : Window) : Option (Option FocalBox) :=
  let lastRowKernel := usub (w.frk + w.nrk) 1
  let lastRowSource := usub rows 1
  let lastColKernel := usub (w.fck + w.nck) 1
  let lastColSource := usub cols 1
  if kr > lastRowKernel then
    if kc > lastColKernel then
      some (if kr - lastRowKernel ≤ 1 ∧ kc - lastColKernel ≤ 1 then
        some ⟨lastRowSource + (kr - lastRowKernel - 1), lastRowSource,
          lastColSource + (kc - lastColKernel - 1), lastColSource⟩ else none)
    else
      some (if kr - lastRowKernel ≤ 1 then
        some ⟨lastRowSource + (kr - lastRowKernel - 1), lastRowSource,
          usub (w.fcs + kc) 1, min (w.fcs + kc + 1) lastColSource⟩ else none)
  else do
    assert' (decide (kc > lastColKernel))
    some (if kc - lastColKernel ≤ 1 then
      some ⟨usub (w.frs + kr) 1, min (w.frs + kr + 1) lastRowSource,
        lastColSource + (kc - lastColKernel - 1), lastColSource⟩ else none)

/-- `value_north` (`replace_out_of_image_by_focal_average.h:704-767`). -/
def boxNorth (cols : Nat) (kr kc : Nat) (w : Window) : Option (Option FocalBox) := do
  let lastColSource := usub cols 1
  assert' (decide (kr < w.frk))
  some (if w.frk - kr ≤ 1 then
    some ⟨w.frs, 1 - (w.frk - kr), if 1 > w.fcs + kc then 0 else w.fcs + kc - 1,
      min (w.fcs + kc + 1) lastColSource⟩ else none)

/-- `value_west` (`replace_out_of_image_by_focal_average.h:770-831`). -/
def boxWest (rows : Nat) (kr kc : Nat) (w : Window) : Option (Option FocalBox) := do
  let lastRowSource := usub rows 1
  assert' (decide (kc < w.fck))
  some (if w.fck - kc ≤ 1 then
    some ⟨if 1 > w.frs + kr then 0 else w.frs + kr - 1, min (w.frs + kr + 1) lastRowSource,
      w.fcs, 1 - (w.fck - kc)⟩ else none)

/-- `value_east` (`replace_out_of_image_by_focal_average.h:834-898`). -/
def boxEast (rows cols : Nat) (kr kc : Nat) (w : Window) : Option (Option FocalBox) := do
  let lastRowSource := usub rows 1
  let lastColKernel := usub (w.fck + w.nck) 1
  let lastColSource := usub cols 1
  assert' (decide (kc > lastColKernel))
  some (if kc - lastColKernel ≤ 1 then
    some ⟨if 1 > w.frs + kr then 0 else w.frs + kr - 1, min (w.frs + kr + 1) lastRowSource,
      lastColSource + (kc - lastColKernel - 1), lastColSource⟩ else none)

/-- `value_south` (`replace_out_of_image_by_focal_average.h:901-966`). -/
def boxSouth (rows cols : Nat) (kr kc : Nat) (w : Window) : Option (Option FocalBox) := do
  let lastRowKernel := usub (w.frk + w.nrk) 1
  let lastRowSource := usub rows 1
  let lastColSource := usub cols 1
  assert' (decide (kr > lastRowKernel))
  some (if kr - lastRowKernel ≤ 1 then
    some ⟨lastRowSource + (kr - lastRowKernel - 1), lastRowSource,
      if 1 > w.fcs + kc then 0 else w.fcs + kc - 1, min (w.fcs + kc + 1) lastColSource⟩ else none)

/-- The function that is called for each region (`convolve.h:198-203` and the corresponding lines of
the other border regions). -/
def focalBox (rows cols : Nat) : Side → Nat → Nat → Window → Option (Option FocalBox)
  | .northWest => boxNorthWest
  | .northEast => boxNorthEast cols
  | .southWest => boxSouthWest rows
  | .southEast => boxSouthEast rows cols
  | .north => boxNorth cols
  | .west => boxWest rows
  | .east => boxEast rows cols
  | .south => boxSouth rows cols

/-- `ReplaceOutOfImageByFocalAverage::value_<side>`: all of them end alike
(`replace_out_of_image_by_focal_average.h:272-276`). -/
def outOfImageAverage (avg : AverageOps V) (a : ConvolveArgs V W) (side : Side) (kr kc : Nat)
    (w : Window) : Option (Option V) := do
  match ← focalBox a.rows a.cols side kr kc w with
  | none => some none
  | some box =>
    let s ← averageLoop avg a (fun _ _ => false) box
    some (if s.2 > 0 then some (avg.divide s.1 s.2) else none)

/-- Both policies together, as in `slope` (`algorithm/space/focal/detail/slope.h:103-110`). -/
def focalAveragePolicy (avg : AverageOps V) (a : ConvolveArgs V W) (keepNoData : Bool) :
    ConvolvePolicy V where
  alternative := noDataAverage avg a
  outOfImage := outOfImageAverage avg a
  keepNoData := keepNoData

end

end Fern
