import Verif.Model.Convolve
/-
`gradient_x` and `gradient_y` of a raster: `algorithm/algebra/vector/detail/gradient.h`.

The rasters' extents are `rows` × `cols`. As in `Model/Convolve.lean` a pass over (a part of) the
raster is the list of actions it performs on the result's elements, loops carry the indices that
the code increments, and subtraction of `size_t`s is `usub`.
-/
namespace Fern

/-- `gradient(value1, value2, distance)` (`algorithm/algebra/vector/detail/gradient.h:22-31`) for the
two distances that are passed to it: `near` with `distance1`, the cell size, and `far` with
`distance2`, twice the cell size (47-48, 198-199). `zero` is the value stored for cells without
neighbours. -/
structure GradientOps (V R : Type) where
  near : V → V → R
  far : V → V → R
  zero : R

/-- The raster with values, and its no-data policy. -/
structure GradientArgs (V : Type) where
  rows : Nat
  cols : Nat
  value : List V
  noData : InPolicy V

section Cells

variable {V R : Type} (ops : GradientOps V R) (a : GradientArgs V) (outp : OutPolicy R)

/-- Body of the loops over the left and the top border
(`algorithm/algebra/vector/detail/gradient.h:63-82, 215-235`). `inside`: the condition of the
assertion. -/
def gradientFirst (inside : Bool) (center next : Nat) : Option (List (Cell R → Cell R)) := do
  if ← a.noData.isNoData a.value center then some [outp.mark]
  else
    assert' inside
    if !(← a.noData.isNoData a.value next) then
      some [storeAct (ops.near (← a.value[center]?) (← a.value[next]?))]
    else some [storeAct ops.zero]

/-- Body of the loops over the right and the bottom border
(`algorithm/algebra/vector/detail/gradient.h:100-117, 253-270`). -/
def gradientLast (inside : Bool) (prev center : Nat) : Option (List (Cell R → Cell R)) := do
  if ← a.noData.isNoData a.value center then some [outp.mark]
  else
    assert' inside
    if !(← a.noData.isNoData a.value prev) then
      some [storeAct (ops.near (← a.value[prev]?) (← a.value[center]?))]
    else some [storeAct ops.zero]

/-- Body of the loops over the inner part
(`algorithm/algebra/vector/detail/gradient.h:141-176, 293-328`). -/
def gradientMiddle (insidePrev insideNext : Bool) (prev center next : Nat) :
    Option (List (Cell R → Cell R)) := do
  if ← a.noData.isNoData a.value center then some [outp.mark]
  else
    assert' insidePrev
    assert' insideNext
    if !(← a.noData.isNoData a.value prev) then
      if !(← a.noData.isNoData a.value next) then
        some [storeAct (ops.far (← a.value[prev]?) (← a.value[next]?))]
      else some [storeAct (ops.near (← a.value[prev]?) (← a.value[center]?))]
    else if !(← a.noData.isNoData a.value next) then
      some [storeAct (ops.near (← a.value[center]?) (← a.value[next]?))]
    else some [storeAct ops.zero]

/-- The actions of one element as actions on the result. -/
def actsAt (center : Nat) (acts : Option (List (Cell R → Cell R))) :
    Option (List (Act (Cell R))) :=
  acts.map (fun fs => fs.map (Act.mk center))

end Cells

section Passes

variable {V R : Type} (ops : GradientOps V R) (a : GradientArgs V) (outp : OutPolicy R)

/-- The pass over the left border (`algorithm/algebra/vector/detail/gradient.h:52-85`). Carried:
`index_center` and `index_right`. -/
def gradientLeft (r : IndexRanges2) : Option (List (Act (Cell R))) :=
  carryFor r.rows.b r.rows.e () id (fun i () =>
    carryFor r.cols.b 1 (linearIndex a.cols i r.cols.b, linearIndex a.cols i r.cols.b + 1)
      (fun s => (s.1 + 1, s.2 + 1))
      (fun j s => actsAt s.1 (gradientFirst ops a outp (j + 1 < a.cols) s.1 s.2)))

/-- The pass over the right border (`algorithm/algebra/vector/detail/gradient.h:88-122`). Carried:
`index_center` and `index_left`. -/
def gradientRight (r : IndexRanges2) : Option (List (Act (Cell R))) :=
  carryFor r.rows.b r.rows.e () id (fun i () => do
    let center := linearIndex a.cols i (usub a.cols 1)
    assert' (decide (center > 0))
    carryFor (usub a.cols 1) r.cols.e (center, usub center 1)
      (fun s => (s.1 + 1, s.2 + 1))
      (fun j s => actsAt s.1 (gradientLast ops a outp (j > 0) s.2 s.1)))

/-- The pass over the columns in between (`algorithm/algebra/vector/detail/gradient.h:125-181`).
Carried: `index_left`, `index_center` and `index_right`. -/
def gradientCenterX (r : IndexRanges2) : Option (List (Act (Cell R))) :=
  carryFor r.rows.b r.rows.e () id (fun i () =>
    carryFor (max 1 r.cols.b) (min (usub a.cols 1) r.cols.e)
      (usub (linearIndex a.cols i (max 1 r.cols.b)) 1, linearIndex a.cols i (max 1 r.cols.b),
        linearIndex a.cols i (max 1 r.cols.b) + 1)
      (fun s => (s.1 + 1, s.2.1 + 1, s.2.2 + 1))
      (fun j s => actsAt s.2.1
        (gradientMiddle ops a outp (j > 0) (j + 1 < a.cols) s.1 s.2.1 s.2.2)))

/-- `gradient_x_2d` (`algorithm/algebra/vector/detail/gradient.h:34-182`). -/
def gradientXBlock (r : IndexRanges2) : Option (List (Act (Cell R))) := do
  some ((← gradientLeft ops a outp r) ++ (← gradientRight ops a outp r) ++
    (← gradientCenterX ops a outp r))

/-- The pass over the top border (`algorithm/algebra/vector/detail/gradient.h:203-238`). Carried:
`index_center` and `index_bottom`. -/
def gradientTop (r : IndexRanges2) : Option (List (Act (Cell R))) :=
  carryFor r.rows.b 1 () id (fun i () =>
    carryFor r.cols.b r.cols.e
      (linearIndex a.cols i r.cols.b, linearIndex a.cols (i + 1) r.cols.b)
      (fun s => (s.1 + 1, s.2 + 1))
      (fun _ s => actsAt s.1 (gradientFirst ops a outp (i + 1 < a.rows) s.1 s.2)))

/-- The pass over the bottom border (`algorithm/algebra/vector/detail/gradient.h:241-275`). Carried:
`index_center` and `index_top`. -/
def gradientBottom (r : IndexRanges2) : Option (List (Act (Cell R))) :=
  carryFor (usub a.rows 1) r.rows.e () id (fun i () =>
    carryFor r.cols.b r.cols.e
      (linearIndex a.cols i r.cols.b, linearIndex a.cols (usub i 1) r.cols.b)
      (fun s => (s.1 + 1, s.2 + 1))
      (fun _ s => actsAt s.1 (gradientLast ops a outp (i > 0) s.2 s.1)))

/-- The pass over the rows in between (`algorithm/algebra/vector/detail/gradient.h:278-334`).
Carried: `index_top`, `index_center` and `index_bottom`. -/
def gradientCenterY (r : IndexRanges2) : Option (List (Act (Cell R))) :=
  carryFor (max 1 r.rows.b) (min (usub a.rows 1) r.rows.e) () id (fun i () =>
    carryFor r.cols.b r.cols.e
      (linearIndex a.cols (usub i 1) r.cols.b, linearIndex a.cols i r.cols.b,
        linearIndex a.cols (i + 1) r.cols.b)
      (fun s => (s.1 + 1, s.2.1 + 1, s.2.2 + 1))
      (fun _ s => actsAt s.2.1
        (gradientMiddle ops a outp (i > 0) (i + 1 < a.rows) s.1 s.2.1 s.2.2)))

/-- `gradient_y_2d` (`algorithm/algebra/vector/detail/gradient.h:185-335`). -/
def gradientYBlock (r : IndexRanges2) : Option (List (Act (Cell R))) := do
  some ((← gradientTop ops a outp r) ++ (← gradientBottom ops a outp r) ++
    (← gradientCenterY ops a outp r))

end Passes

section Dispatch

variable {V R : Type} (ops : GradientOps V R) (a : GradientArgs V) (outp : OutPolicy R)

/-- `GradientXByArgumentCategory`, sequential
(`algorithm/algebra/vector/detail/gradient.h:364-384`). `rs`: extents of the result. -/
def gradientX (rs : Nat × Nat) (result : List (Cell R)) : Option (List (Cell R)) := do
  assert' (a.rows == rs.1)
  assert' (a.cols == rs.2)
  runActs (← gradientXBlock ops a outp ⟨⟨0, rs.1⟩, ⟨0, rs.2⟩⟩) result

/-- `GradientXByArgumentCategory`, parallel: the tasks
(`algorithm/algebra/vector/detail/gradient.h:387-435`). -/
def gradientXTasks (nrThreads : Nat) (rs : Nat × Nat) : Option (List (List (Act (Cell R)))) := do
  assert' (a.rows == rs.1)
  assert' (a.cols == rs.2)
  (← indexRanges2 nrThreads rs.1 rs.2).mapM (gradientXBlock ops a outp)

/-- `GradientYByArgumentCategory`, sequential
(`algorithm/algebra/vector/detail/gradient.h:450-482`). -/
def gradientY (rs : Nat × Nat) (result : List (Cell R)) : Option (List (Cell R)) := do
  assert' (a.rows == rs.1)
  assert' (a.cols == rs.2)
  runActs (← gradientYBlock ops a outp ⟨⟨0, rs.1⟩, ⟨0, rs.2⟩⟩) result

/-- `GradientYByArgumentCategory`, parallel: the tasks
(`algorithm/algebra/vector/detail/gradient.h:485-533`). -/
def gradientYTasks (nrThreads : Nat) (rs : Nat × Nat) : Option (List (List (Act (Cell R)))) := do
  assert' (a.rows == rs.1)
  assert' (a.cols == rs.2)
  (← indexRanges2 nrThreads rs.1 rs.2).mapM (gradientYBlock ops a outp)

end Dispatch

end Fern
