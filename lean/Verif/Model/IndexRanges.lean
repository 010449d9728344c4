/-
Model of `algorithm/core/index_range.{h,cc}` and `algorithm/core/index_ranges.{h,cc}`.
-/
namespace Fern

/-- `IndexRange` (`algorithm/core/index_range.h:29-57`): half-open range of indices. -/
structure IndexRange where
  b : Nat
  e : Nat
deriving DecidableEq, Repr

/-- The two-argument constructor (`algorithm/core/index_range.cc:35-44`): asserts `begin <= end`. -/
def IndexRange.make (b e : Nat) : Option IndexRange :=
  if b ≤ e then some ⟨b, e⟩ else none

/-- `IndexRange::empty` (`algorithm/core/index_range.cc:53-56`). -/
def IndexRange.empty (r : IndexRange) : Bool := r.b == r.e

/-- `IndexRange::size` (`algorithm/core/index_range.cc:63-66`); `_end >= _begin` by construction. -/
def IndexRange.size (r : IndexRange) : Nat := r.e - r.b

/-- The indices visited by `for(i = r.begin(); i < r.end(); ++i)`. -/
def IndexRange.indices (r : IndexRange) : List Nat := List.range' r.b (r.e - r.b)

/-- The loop over the full blocks (`algorithm/core/index_ranges.cc:36-41`, and `80-86` for rows).
`ranges` was allocated with `nr_blocks` elements of which element `i` is assigned in iteration `i`;
simplified to appending. -/
def blockLoop (blockSize : Nat) : Nat → Nat → List IndexRange → Nat × List IndexRange
  | 0, offset, ranges => (offset, ranges)
  | k + 1, offset, ranges =>
    blockLoop blockSize k (offset + blockSize) (ranges ++ [⟨offset, offset + blockSize⟩])

/-- `index_ranges(nr_threads, size)` (`algorithm/core/index_ranges.cc:26-51`).
`none`: the assertion `nr_threads != 0` (or division by zero). -/
def indexRanges (nrThreads size : Nat) : Option (List IndexRange) :=
  if nrThreads = 0 then none
  else
    let blockSize := size / nrThreads
    let nrBlocks := if 0 < blockSize then size / blockSize else 0
    let (offset, ranges) := blockLoop blockSize nrBlocks 0 []
    let remainder := size - nrBlocks * blockSize
    if 0 < remainder then some (ranges ++ [⟨offset, offset + remainder⟩]) else some ranges

/-- `IndexRanges<2>`: a range of rows and a range of columns. -/
structure IndexRanges2 where
  rows : IndexRange
  cols : IndexRange
deriving DecidableEq, Repr

/-- `IndexRanges<2>::empty` (`algorithm/core/index_ranges.h:187-191`). -/
def IndexRanges2.empty (r : IndexRanges2) : Bool := r.rows.empty || r.cols.empty

/-- `IndexRanges<2>::size` (`algorithm/core/index_ranges.h:196-206`). -/
def IndexRanges2.size (r : IndexRanges2) : Nat := 1 * r.rows.size * r.cols.size

/-- The loop over the full row bands (`algorithm/core/index_ranges.cc:80-86`). -/
def blockLoop2 (blockHeight blockWidth : Nat) :
    Nat → Nat → List IndexRanges2 → Nat × List IndexRanges2
  | 0, offset, ranges => (offset, ranges)
  | k + 1, offset, ranges =>
    blockLoop2 blockHeight blockWidth k (offset + blockHeight)
      (ranges ++ [⟨⟨offset, offset + blockHeight⟩, ⟨0, blockWidth⟩⟩])

/-- `index_ranges(nr_threads, size1, size2)` (`algorithm/core/index_ranges.cc:66-98`). -/
def indexRanges2 (nrThreads size1 size2 : Nat) : Option (List IndexRanges2) :=
  if nrThreads = 0 then none
  else
    let blockWidth := size2
    let blockHeight := size1 / nrThreads
    let nrBlocks := if 0 < blockHeight then size1 / blockHeight else 0
    let (rowOffset, ranges) := blockLoop2 blockHeight blockWidth nrBlocks 0 []
    let remainder := size1 - nrBlocks * blockHeight
    if 0 < remainder then
      some (ranges ++ [⟨⟨rowOffset, rowOffset + remainder⟩, ⟨0, blockWidth⟩⟩])
    else some ranges

end Fern
