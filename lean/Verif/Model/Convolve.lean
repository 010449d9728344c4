import Verif.Model.Loop
import Verif.Model.Policy
import Verif.Model.LocalOps
/-
Model of `algorithm/convolution/detail/convolve.h` and of the kernel it uses
(`algorithm/convolution/neighborhood/{kernel,square}{,_traits}.h`).

The accumulated sums (of weighted values, of weights) are of an abstract type `A`, so the theorems
hold for floating point sums, in the order in which the code adds. The source and destination images
are assumed not to overlap.
-/
namespace Fern

/-- The arithmetic of a convolution.
* `zero`: both sums are zero (`convolve.h:179-180`)
* `add v w`: `HandleValue::apply` (`convolve.h:52-99`): adds `v * w` and `w` (weighted kernels), or
  `v` and 1 if `w` (boolean kernels)
* `nonZero`: `kernel_weight != 0` (`convolve.h:246-247`, and the same in the other regions)
* `within`: `OutOfRangePolicy::within_range` of the sum of values (`convolve.h:32-47`, `265`)
* `normalize`: the `NormalizePolicy` (`divide_by_weights.h:37-42`, `dont_divide_by_weights.h:37-42`). -/
structure ConvolveOps (V W A R : Type) where
  zero : A
  add : V → W → A → A
  nonZero : W → Bool
  within : A → Bool
  normalize : A → R

/-- Source image (row-major), its no-data policy, and the kernel: radius and weights (row-major, of a
square with sides `2 * radius + 1`, `neighborhood/kernel.h:79-84`, `kernel_traits.h:46-66`). -/
structure ConvolveArgs (V W : Type) where
  rows : Nat
  cols : Nat
  source : List V
  noData : InPolicy V
  radius : Nat
  weights : List W

/-- The eight border regions. -/
inductive Side where
  | northWest | northEast | southWest | southEast | north | west | east | south
deriving DecidableEq, Repr

/-- The part of source and kernel that overlap: first row and column in the source, first row and
column in the kernel, number of rows and columns (`first_row_source` .. `nr_cols_kernel`). -/
structure Window where
  frs : Nat
  fcs : Nat
  frk : Nat
  fck : Nat
  nrk : Nat
  nck : Nat
deriving DecidableEq, Repr

/-- The policies for values that are missing.
* `alternative row col`: `AlternativeForNoDataPolicy::value` for a no-data source cell
* `outOfImage side kr kc w`: `OutOfImagePolicy::value_<side>` for kernel cell `(kr, kc)`
* `keepNoData`: `NoDataFocusElementPolicy::keep_no_data`.
The outer `Option` is for undefined behaviour and failing assertions. -/
structure ConvolvePolicy (V : Type) where
  alternative : Nat → Nat → Option (Option V)
  outOfImage : Side → Nat → Nat → Window → Option (Option V)
  keepNoData : Bool

/-- `SkipNoData` and `SkipOutOfImage` (`convolution/skip_no_data.h:42-57`,
`convolution/skip_out_of_image.h:150-325`): no values are invented. -/
def skipPolicy (V : Type) (keepNoData : Bool) : ConvolvePolicy V where
  alternative := fun _ _ => some none
  outOfImage := fun _ _ _ _ => some none
  keepNoData := keepNoData

section
variable {V W A R : Type}

/-- `size(kernel, 0)`, `size(kernel, 1)` (`kernel_traits.h:43-50`, `kernel.h:79-84`). -/
def ConvolveArgs.kernelSize (a : ConvolveArgs V W) : Nat := 2 * a.radius + 1

/-- The test that selects the kernel cells outside of the image, per region
(`convolve.h:195-196`, `374-375`, `553-554`, `736-737`, `916`, `1095`, `1276`, `1456`; the assertions at
`913`, `1092`, `1273`, `1453` say that an unsigned number is not below 0). -/
def Side.outside : Side → Window → Nat → Nat → Bool
  | .northWest, w, kr, kc => decide (kr < w.frk) || decide (kc < w.fck)
  | .northEast, w, kr, kc => decide (kr < w.frk) || decide (kc ≥ w.nck)
  | .southWest, w, kr, kc => decide (kr ≥ w.nrk) || decide (kc < w.fck)
  | .southEast, w, kr, kc => decide (kr ≥ w.nrk) || decide (kc ≥ w.nck)
  | .north, w, kr, _ => decide (kr < w.frk)
  | .west, w, _, kc => decide (kc < w.fck)
  | .east, w, _, kc => decide (kc ≥ w.nck)
  | .south, w, kr, _ => decide (kr ≥ w.nrk)

/-- Loop over the kernel cells outside of the image (`convolve.h:183-218` and the corresponding lines
of the other border regions). State: sums and `value_seen`. `++kernel_index` is written as an
addition. -/
def outOfImagePass (ops : ConvolveOps V W A R) (a : ConvolveArgs V W) (pol : ConvolvePolicy V)
    (side : Side) (w : Window) (s : A × Bool) : Option (A × Bool) :=
  forIn' (List.range a.kernelSize) (fun kr s =>
    forIn' (List.range a.kernelSize) (fun kc s =>
      if side.outside w kr kc then do
        match ← pol.outOfImage side kr kc w with
        | some v =>
          let weight ← a.weights[linearIndex a.kernelSize kr 0 + kc]?
          some (ops.add v weight s.1, true)
        | none => some s
      else some s) s) s

/-- Loop over the cells that are in the image and in the kernel (`convolve.h:220-258` and the
corresponding lines of all other regions except for the inner part with boolean weights). -/
def imagePass (ops : ConvolveOps V W A R) (a : ConvolveArgs V W) (pol : ConvolvePolicy V)
    (w : Window) (s : A × Bool) : Option (A × Bool) :=
  forIn' (List.range w.nrk) (fun row s =>
    forIn' (List.range w.nck) (fun col s => do
      let sourceIndex := linearIndex a.cols (w.frs + row) w.fcs + col
      let kernelIndex := linearIndex a.kernelSize (w.frk + row) w.fck + col
      if ← a.noData.isNoData a.source sourceIndex then
        match ← pol.alternative (w.frs + row) (w.fcs + col) with
        | some v =>
          let weight ← a.weights[kernelIndex]?
          some (ops.add v weight s.1, true)
        | none => some s
      else
        let weight ← a.weights[kernelIndex]?
        if ops.nonZero weight then
          let v ← a.source[sourceIndex]?
          some (ops.add v weight s.1, true)
        else some s) s) s

/-- Storing the result (`convolve.h:265-271` and the corresponding lines of the other regions). -/
def convolveFinish (ops : ConvolveOps V W A R) (outp : OutPolicy R) (s : A × Bool) :
    List (Cell R → Cell R) :=
  if !s.2 || !ops.within s.1 then [outp.mark] else [storeAct (ops.normalize s.1)]

/-- `NoDataFocusElementPolicy::keep_no_data && is_no_data(index_)` (`convolve.h:164-165` and the
corresponding lines of the other regions). -/
def keptNoData (a : ConvolveArgs V W) (pol : ConvolvePolicy V) (index : Nat) : Option Bool :=
  if pol.keepNoData then a.noData.isNoData a.source index else some false

/-- The sums after the cells outside of the image were handled; the inner part (`none`) has no such
cells. -/
def outsideSums (ops : ConvolveOps V W A R) (a : ConvolveArgs V W) (pol : ConvolvePolicy V)
    (side : Option Side) (w : Window) : Option (A × Bool) :=
  match side with
  | some side => outOfImagePass ops a pol side w (ops.zero, false)
  | none => some (ops.zero, false)

/-- What is done for one focal cell (`convolve.h:164-272` and the corresponding lines of the other
regions). `side`: `none` in the inner part, which has no pass over cells outside of the image. -/
def convolveCell (ops : ConvolveOps V W A R) (a : ConvolveArgs V W) (pol : ConvolvePolicy V)
    (outp : OutPolicy R) (side : Option Side) (w : Window) (index : Nat) :
    Option (List (Cell R → Cell R)) := do
  if ← keptNoData a pol index then
    some [outp.mark]
  else
    let s ← outsideSums ops a pol side w
    let s ← imagePass ops a pol w s
    some (convolveFinish ops outp s)

/-- The cell's actions on the element at `index`. -/
def convolveActs (ops : ConvolveOps V W A R) (a : ConvolveArgs V W) (pol : ConvolvePolicy V)
    (outp : OutPolicy R) (side : Option Side) (w : Window) (index : Nat) :
    Option (List (Act (Cell R))) :=
  (convolveCell ops a pol outp side w index).map (fun fs => fs.map (Act.mk index))

/-- A loop that runs `count` times, counting from `i`, with variables `s` that are updated at the end
of each iteration. -/
def carryLoop {σ β : Type} (next : σ → σ) (body : Nat → σ → Option (List β)) :
    Nat → Nat → σ → Option (List β)
  | 0, _, _ => some []
  | k + 1, i, s => do
    let l ← body i s
    let l' ← carryLoop next body k (i + 1) (next s)
    some (l ++ l')

/-- `for(size_t i = first; i < end; ++i)`. -/
def carryFor {σ β : Type} (first last : Nat) (s : σ) (next : σ → σ)
    (body : Nat → σ → Option (List β)) : Option (List β) :=
  carryLoop next body (last - first) first s

/-- Subtraction of `size_t` values: wraps around. -/
def usub (a b : Nat) : Nat := if b ≤ a then a - b else a + 2 ^ 64 - b

section
variable (ops : ConvolveOps V W A R) (a : ConvolveArgs V W) (pol : ConvolvePolicy V)
  (outp : OutPolicy R)

/-- `NorthWestCorner::apply` (`convolve.h:116-286`). -/
def northWestCorner : Option (List (Act (Cell R))) :=
  carryFor 0 a.radius (a.radius, a.radius + 1) (fun (frk, nrk) => (frk - 1, nrk + 1))
    (fun row (frk, nrk) =>
      carryFor 0 a.radius (linearIndex a.cols row 0, a.radius, a.radius + 1)
        (fun (index, fck, nck) => (index + 1, fck - 1, nck + 1))
        (fun _ (index, fck, nck) =>
          convolveActs ops a pol outp (some .northWest) ⟨0, 0, frk, fck, nrk, nck⟩ index))

/-- `NorthEastCorner::apply` (`convolve.h:303-465`). -/
def northEastCorner : Option (List (Act (Cell R))) :=
  carryFor 0 a.radius (a.radius, a.radius + 1) (fun (frk, nrk) => (frk - 1, nrk + 1))
    (fun row (frk, nrk) =>
      carryFor (usub a.cols a.radius) a.cols
        (linearIndex a.cols row (usub a.cols a.radius),
          usub (usub a.cols a.radius) a.radius, 2 * a.radius)
        (fun (index, fcs, nck) => (index + 1, fcs + 1, nck - 1))
        (fun _ (index, fcs, nck) =>
          convolveActs ops a pol outp (some .northEast) ⟨0, fcs, frk, 0, nrk, nck⟩ index))

/-- `SouthWestCorner::apply` (`convolve.h:482-645`). -/
def southWestCorner : Option (List (Act (Cell R))) :=
  carryFor (usub a.rows a.radius) a.rows
    (usub (usub a.rows a.radius) a.radius, 2 * a.radius)
    (fun (frs, nrk) => (frs + 1, nrk - 1))
    (fun row (frs, nrk) =>
      carryFor 0 a.radius (linearIndex a.cols row 0, a.radius, a.radius + 1)
        (fun (index, fck, nck) => (index + 1, fck - 1, nck + 1))
        (fun _ (index, fck, nck) =>
          convolveActs ops a pol outp (some .southWest) ⟨frs, 0, 0, fck, nrk, nck⟩ index))

/-- `SouthEastCorner::apply` (`convolve.h:662-827`). -/
def southEastCorner : Option (List (Act (Cell R))) :=
  carryFor (usub a.rows a.radius) a.rows
    (usub (usub a.rows a.radius) a.radius, 2 * a.radius)
    (fun (frs, nrk) => (frs + 1, nrk - 1))
    (fun row (frs, nrk) =>
      carryFor (usub a.cols a.radius) a.cols
        (linearIndex a.cols row (usub a.cols a.radius),
          usub (usub a.cols a.radius) a.radius, 2 * a.radius)
        (fun (index, fcs, nck) => (index + 1, fcs + 1, nck - 1))
        (fun _ (index, fcs, nck) =>
          convolveActs ops a pol outp (some .southEast) ⟨frs, fcs, 0, 0, nrk, nck⟩ index))

/-- `NorthSide::apply` (`convolve.h:844-1003`). -/
def northSide : Option (List (Act (Cell R))) :=
  carryFor 0 a.radius (a.radius, a.radius + 1) (fun (frk, nrk) => (frk - 1, nrk + 1))
    (fun row (frk, nrk) =>
      carryFor a.radius (usub a.cols a.radius) (linearIndex a.cols row a.radius, 0)
        (fun (index, fcs) => (index + 1, fcs + 1))
        (fun _ (index, fcs) =>
          convolveActs ops a pol outp (some .north) ⟨0, fcs, frk, 0, nrk, a.kernelSize⟩ index))

/-- `WestSide::apply` (`convolve.h:1021-1183`). -/
def westSide : Option (List (Act (Cell R))) :=
  carryFor a.radius (usub a.rows a.radius) 0 (fun frs => frs + 1)
    (fun row frs =>
      carryFor 0 a.radius (linearIndex a.cols row 0, a.radius, a.radius + 1)
        (fun (index, fck, nck) => (index + 1, fck - 1, nck + 1))
        (fun _ (index, fck, nck) =>
          convolveActs ops a pol outp (some .west) ⟨frs, 0, 0, fck, a.kernelSize, nck⟩ index))

/-- `EastSide::apply` (`convolve.h:1200-1365`). -/
def eastSide : Option (List (Act (Cell R))) :=
  carryFor a.radius (usub a.rows a.radius) 0 (fun frs => frs + 1)
    (fun row frs =>
      carryFor (usub a.cols a.radius) a.cols
        (linearIndex a.cols row (usub a.cols a.radius),
          usub (usub a.cols a.radius) a.radius, 2 * a.radius)
        (fun (index, fcs, nck) => (index + 1, fcs + 1, nck - 1))
        (fun _ (index, fcs, nck) =>
          convolveActs ops a pol outp (some .east) ⟨frs, fcs, 0, 0, a.kernelSize, nck⟩ index))

/-- `SouthSide::apply` (`convolve.h:1382-1545`). -/
def southSide : Option (List (Act (Cell R))) :=
  carryFor (usub a.rows a.radius) a.rows
    (usub (usub a.rows a.radius) a.radius, 2 * a.radius)
    (fun (frs, nrk) => (frs + 1, nrk - 1))
    (fun row (frs, nrk) =>
      carryFor a.radius (usub a.cols a.radius) (linearIndex a.cols row a.radius, 0)
        (fun (index, fcs) => (index + 1, fcs + 1))
        (fun _ (index, fcs) =>
          convolveActs ops a pol outp (some .south) ⟨frs, fcs, 0, 0, nrk, a.kernelSize⟩ index))

/-- `InnerPart<true, ..>::apply` (`convolve.h:1568-1683`), for a block of the inner part. -/
def innerPart (r : IndexRanges2) : Option (List (Act (Cell R))) :=
  carryFor r.rows.b r.rows.e (usub r.rows.b a.radius) (fun frs => frs + 1)
    (fun row frs =>
      carryFor r.cols.b r.cols.e (linearIndex a.cols row r.cols.b, usub r.cols.b a.radius)
        (fun (index, fcs) => (index + 1, fcs + 1))
        (fun _ (index, fcs) =>
          convolveActs ops a pol outp none ⟨frs, fcs, 0, 0, a.kernelSize, a.kernelSize⟩ index))

end

section
variable (ops : ConvolveOps V Bool A R) (a : ConvolveArgs V Bool) (pol : ConvolvePolicy V)
  (outp : OutPolicy R)

/-- The kernel cells that are switched on, with their offset from the first source cell below the
kernel (`convolve.h:1745-1762`). -/
def kernelOffsets : Option (List (Nat × Nat × Nat)) :=
  carryFor 0 a.kernelSize () id (fun r () =>
    carryFor 0 a.kernelSize () id (fun c () => do
      let on ← a.weights[linearIndex a.kernelSize r c]?
      some (if on then [(r, c, r * a.cols + c)] else [])))

/-- Loop over the kernel cells that are switched on (`convolve.h:1790-1821`). -/
def offsetsPass (offsets : List (Nat × Nat × Nat)) (frs fcs : Nat) (s : A × Bool) :
    Option (A × Bool) :=
  forIn' offsets (fun o s => do
    let sourceIndex := linearIndex a.cols frs fcs + o.2.2
    if ← a.noData.isNoData a.source sourceIndex then
      match ← pol.alternative (frs + o.1) (fcs + o.2.1) with
      | some v => some (ops.add v true s.1, true)
      | none => some s
    else
      let v ← a.source[sourceIndex]?
      some (ops.add v true s.1, true)) s

/-- One focal cell of the inner part, boolean weights (`convolve.h:1781-1835`). -/
def innerCellBool (offsets : List (Nat × Nat × Nat)) (frs fcs index : Nat) :
    Option (List (Cell R → Cell R)) := do
  if ← keptNoData a pol index then
    some [outp.mark]
  else
    let s ← offsetsPass ops a pol offsets frs fcs (ops.zero, false)
    some (convolveFinish ops outp s)

/-- `InnerPart<false, ..>::apply` (`convolve.h:1700-1845`), for a block of the inner part. -/
def innerPartBool (r : IndexRanges2) : Option (List (Act (Cell R))) := do
  let offsets ← kernelOffsets a
  carryFor r.rows.b r.rows.e (usub r.rows.b a.radius) (fun frs => frs + 1)
    (fun row frs =>
      carryFor r.cols.b r.cols.e (linearIndex a.cols row r.cols.b, usub r.cols.b a.radius)
        (fun (index, fcs) => (index + 1, fcs + 1))
        (fun _ (index, fcs) =>
          (innerCellBool ops a pol outp offsets frs fcs index).map
            (fun fs => fs.map (Act.mk index))))

end

section
variable (ops : ConvolveOps V W A R) (a : ConvolveArgs V W) (pol : ConvolvePolicy V)
  (outp : OutPolicy R) (inner : IndexRanges2 → Option (List (Act (Cell R))))

/-- The border regions, in the order in which they are handled (`convolve.h:1898-1939`). -/
def borderRegions : List (Option (List (Act (Cell R)))) :=
  [northWestCorner ops a pol outp, northEastCorner ops a pol outp,
   southWestCorner ops a pol outp, southEastCorner ops a pol outp,
   northSide ops a pol outp, westSide ops a pol outp,
   eastSide ops a pol outp, southSide ops a pol outp]

/-- Sequential convolution (`convolve.h:1876-1955`): all regions one after the other. `inner`:
`innerPart` or `innerPartBool`, depending on the kernel (`KernelTraits::weigh_values`). The
constructor of the ranges asserts that they don't end before they begin. -/
def convolveSequential (res : List (Cell R)) : Option (List (Cell R)) := do
  let rowRange ← IndexRange.make a.radius (usub a.rows a.radius)
  let colRange ← IndexRange.make a.radius (usub a.cols a.radius)
  let regions ← (borderRegions ops a pol outp ++ [inner ⟨rowRange, colRange⟩]).mapM id
  runActs regions.flatten res

/-- The tasks of parallel convolution (`convolve.h:1999-2073`): a task per border region and a task
per block of the inner part. `none` also for the assertions on the extents (`convolve.h:2045-2048`);
`dest`: the extents of the destination. -/
def convolveTasks (nrThreads : Nat) (dest : Nat × Nat) : Option (List (List (Act (Cell R)))) := do
  assert' (dest.1 == a.rows)
  assert' (dest.2 == a.cols)
  assert' (decide (2 * a.radius ≤ a.rows))
  assert' (decide (2 * a.radius ≤ a.cols))
  let ranges ← indexRanges2 nrThreads (a.rows - 2 * a.radius) (a.cols - 2 * a.radius)
  (borderRegions ops a pol outp ++ ranges.map (fun r =>
    inner ⟨⟨r.rows.b + a.radius, r.rows.e + a.radius⟩,
      ⟨r.cols.b + a.radius, r.cols.e + a.radius⟩⟩)).mapM id

end

end

end Fern
