import Verif.Model.Copy
/-
`offset` (`algorithm/core/detail/offset.h`). The offset's type is a signed integer type of `w` bits.
(For types narrower than `int` the calls of `std::max` at lines 39 and 88 do not compile, so `w` is
32 or 64 in practice.) Sizes and indices are natural numbers: `size_t` is assumed to be large enough
for the number of elements in an array.
-/
namespace Fern

variable {V : Type}

/-- `static_cast<Offset>(nr_elements)`: modulo `2^w`. -/
def castOffset (w n : Nat) : Int := Int.bmod n (2 ^ w)

/-- `-x` and `std::abs(x)` of a signed integer: undefined for the smallest value. -/
def negSigned (w : Nat) (x : Int) : Option Int := if x = -(2 ^ (w - 1) : Int) then none else some (-x)

@[inherit_doc negSigned]
def absSigned (w : Nat) (x : Int) : Option Nat :=
  if x = -(2 ^ (w - 1) : Int) then none else some x.natAbs

/-- Conversion of a sum to an index. Negative numbers become numbers close to `2^64`, for which
there is no element. -/
def toIndex (x : Int) : Option Nat := if 0 ≤ x then some x.toNat else none

/-- `range_to_copy` (`algorithm/core/detail/offset.h:25-73`). Returns range and updated offset. -/
def rangeToCopy (w : Nat) (r : IndexRange) (n : Nat) (o : Int) : Option (IndexRange × Int) := do
  if o ≤ 0 then
    let o' := max o (← negSigned w (castOffset w n))
    let first := max (← absSigned w o') r.b
    let last := r.e
    let first := min first last
    assert' (decide (r.b ≤ first))
    assert' (decide (first ≤ r.e))
    assert' (decide (r.b ≤ last))
    assert' (decide (last ≤ r.e))
    let range ← IndexRange.make first last
    some (range, o')
  else
    let o' := min o (castOffset w n)
    let first := r.b
    let a ← absSigned w o'
    -- `nr_elements - |offset|` does not wrap: `|castOffset w n| ≤ n`
    assert' (decide (a ≤ n))
    let last := min r.e (n - a)
    let last := max first last
    assert' (decide (r.b ≤ first))
    assert' (decide (first < r.e))
    assert' (decide (r.b ≤ last))
    assert' (decide (last ≤ r.e))
    let range ← IndexRange.make first last
    some (range, o')

/-- `range_to_initialize` (`algorithm/core/detail/offset.h:78-99`). -/
def rangeToInitialize (w n : Nat) (o : Int) : Option IndexRange := do
  if o ≤ 0 then
    let o' := max o (← negSigned w (castOffset w n))
    IndexRange.make (← toIndex (n + o')) n
  else
    let o' := min o (castOffset w n)
    IndexRange.make 0 (← toIndex o')

/-- `copy_1d` (`algorithm/core/detail/offset.h:108-131`): the actions on the result. -/
def offsetCopy1d (w : Nat) (inp : InPolicy V) (outp : OutPolicy V) (value : List V) (o : Int)
    (r : IndexRange) : Option (List (Act (Cell V))) := do
  let (range, o') ← rangeToCopy w r value.length o
  range.indices.mapM (fun i => do
    let f ← copyAct inp outp value i
    some ⟨← toIndex (i + o'), f⟩)

/-- What happens to elements without source element: `mark_as_no_data`
(`algorithm/core/detail/offset.h:148`, `:243`, `:254`) or storing the fill value (`:166`, `:285`,
`:296`). -/
def offsetInitAct (outp : OutPolicy V) : Option V → Cell V → Cell V
  | none => outp.mark
  | some fill => storeAct fill

/-- `mark_no_data_1d`, `fill_value_1d` (`algorithm/core/detail/offset.h:138-168`). `n`: size of the
value, resp. of the result. -/
def offsetInit1d (w : Nat) (outp : OutPolicy V) (fill : Option V) (n : Nat) (o : Int) :
    Option (List (Act (Cell V))) := do
  let range ← rangeToInitialize w n o
  some (range.indices.map (fun i => ⟨i, offsetInitAct outp fill⟩))

/-- Sequential 1D `offset` without (`fill = none`) and with fill value
(`algorithm/core/detail/offset.h:334-365`, `834-880`). -/
def offset1dSeq (w : Nat) (inp : InPolicy V) (outp : OutPolicy V) (value : List V) (o : Int)
    (fill : Option V) (result : List (Cell V)) : Option (List (Cell V)) := do
  if value.length = 0 then some result
  else
    let c ← offsetCopy1d w inp outp value o ⟨0, value.length⟩
    let i ← offsetInit1d w outp fill (if fill.isSome then result.length else value.length) o
    runActs i (← runActs c result)

/-- Parallel 1D `offset`: the tasks (`algorithm/core/detail/offset.h:386-464`, `834-880`). -/
def offset1dTasks (t w : Nat) (inp : InPolicy V) (outp : OutPolicy V) (value : List V) (o : Int)
    (fill : Option V) (result : List (Cell V)) : Option (List (List (Act (Cell V)))) := do
  if value.length = 0 then some []
  else
    let ranges ← indexRanges t value.length
    let copies ← ranges.mapM (offsetCopy1d w inp outp value o)
    let i ← offsetInit1d w outp fill (if fill.isSome then result.length else value.length) o
    some (copies ++ [i])

/-- `copy_2d` (`algorithm/core/detail/offset.h:177-215`): the actions on the result. The indices
which are incremented in the inner loop are given by their start value and the number of
increments. -/
def offsetCopy2d (w : Nat) (inp : InPolicy V) (outp : OutPolicy V) (n1 n2 : Nat) (value : List V)
    (o1 o2 : Int) (r : IndexRanges2) : Option (List (Act (Cell V))) := do
  let (range1, o1') ← rangeToCopy w r.rows n1 o1
  let (range2, o2') ← rangeToCopy w r.cols n2 o2
  let rows ← range1.indices.mapM (fun i =>
    (List.range (range2.e - range2.b)).mapM (fun k => do
      let f ← copyAct inp outp value (linearIndex n2 i range2.b + k)
      some (Act.mk (← toIndex ((i + o1') * n2 + (range2.b + o2') + k)) f)))
  some rows.flatten

/-- `mark_no_data_2d`, `fill_value_2d` (`algorithm/core/detail/offset.h:222-300`): first whole rows,
then columns of all rows. -/
def offsetInit2d (w : Nat) (outp : OutPolicy V) (fill : Option V) (n1 n2 : Nat) (o1 o2 : Int) :
    Option (List (Act (Cell V))) := do
  let range1 ← rangeToInitialize w n1 o1
  let range2 ← rangeToInitialize w n2 o2
  let cells := cells2d n2 ⟨range1, ⟨0, n2⟩⟩ ++ cells2d n2 ⟨⟨0, n1⟩, range2⟩
  some (cells.map (fun i => ⟨i, offsetInitAct outp fill⟩))

/-- Sequential 2D `offset` (`algorithm/core/detail/offset.h:583-618`, `834-880`). `fill_value_2d`
uses the extents of the result, `mark_no_data_2d` those of the value; they are taken to be equal
here. -/
def offset2dSeq (w : Nat) (inp : InPolicy V) (outp : OutPolicy V) (n1 n2 : Nat) (value : List V)
    (o1 o2 : Int) (fill : Option V) (result : List (Cell V)) : Option (List (Cell V)) := do
  if n1 * n2 = 0 then some result
  else
    let c ← offsetCopy2d w inp outp n1 n2 value o1 o2 ⟨⟨0, n1⟩, ⟨0, n2⟩⟩
    let i ← offsetInit2d w outp fill n1 n2 o1 o2
    runActs i (← runActs c result)

/-- Parallel 2D `offset`: the tasks (`algorithm/core/detail/offset.h:639-721`, `834-880`). -/
def offset2dTasks (t w : Nat) (inp : InPolicy V) (outp : OutPolicy V) (n1 n2 : Nat)
    (value : List V) (o1 o2 : Int) (fill : Option V) : Option (List (List (Act (Cell V)))) := do
  if n1 * n2 = 0 then some []
  else
    let ranges ← indexRanges2 t n1 n2
    let copies ← ranges.mapM (offsetCopy2d w inp outp n1 n2 value o1 o2)
    let i ← offsetInit2d w outp fill n1 n2 o1 o2
    some (copies ++ [i])

end Fern
