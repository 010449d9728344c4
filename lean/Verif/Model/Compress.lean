import Verif.Model.LocalOps
/-
`compress` and `decompress` (`algorithm/core/detail/compress.h`, `decompress.h`). Value and result
have the same value type here. The `Count` type is taken to be wide enough.
-/
namespace Fern

variable {V : Type}

/-- The loop of `compress_1d` and `compress_2d` (`algorithm/core/detail/compress.h:42-48, 73-87`)
over the elements in `idxs`: the stores in the result that it performs, and the final
`target_index`. The argument is not changed by any task, so these do not depend on the state. -/
def compressLoop (inp : InPolicy V) (value : List V) : List Nat → Nat → Option (List (Act V) × Nat)
  | [], target => some ([], target)
  | i :: is, target => do
    if !(← inp.isNoData value i) then
      let v ← value[i]?
      let (acts, target') ← compressLoop inp value is (target + 1)
      some (⟨target, fun _ => v⟩ :: acts, target')
    else compressLoop inp value is target

/-- A block to compress: the position in the result where its values are written, its elements in
the order in which they are visited, and its size. -/
structure CompressBlock where
  initial : Nat
  idxs : List Nat
  size : Nat

/-- The block of `compress_1d` (`algorithm/core/detail/compress.h:40-50`). -/
def compressBlock1d (r : IndexRange) : CompressBlock := ⟨r.b, r.indices, r.size⟩

/-- The block of `compress_2d` (`algorithm/core/detail/compress.h:67-89`). -/
def compressBlock2d (nrCols : Nat) (r : IndexRanges2) : CompressBlock :=
  ⟨r.rows.b * nrCols + r.cols.b, cells2d nrCols r, r.size⟩

/-- `compress_1d`, `compress_2d`: the stores of the task and its count
(`algorithm/core/detail/compress.h:33-52, 59-89`). -/
def compressTask (inp : InPolicy V) (value : List V) (b : CompressBlock) :
    Option (List (Act V) × Nat) := do
  let (acts, target) ← compressLoop inp value b.idxs b.initial
  some (acts, target - b.initial)

/-- Sequential `compress` of one block (`algorithm/core/detail/compress.h:164-175, 247-259`). -/
def compressSeq (inp : InPolicy V) (value : List V) (b : CompressBlock) (result : List V) :
    Option (List V × Nat) := do
  let (acts, count) ← compressTask inp value b
  let result ← runActs acts result
  some (result, count)

/-- Sequential `compress(1d)` (`algorithm/core/detail/compress.h:164-175`,
assertion in `algorithm/core/compress.h:54`). -/
def compress1d (inp : InPolicy V) (value : List V) (result : List V) : Option (List V × Nat) := do
  assert' (result.length == value.length)
  compressSeq inp value (compressBlock1d ⟨0, value.length⟩) result

/-- Sequential `compress(2d)` (`algorithm/core/detail/compress.h:247-259`,
assertion in `algorithm/core/compress.h:54`). -/
def compress2d (inp : InPolicy V) (vs : Nat × Nat) (value : List V) (result : List V) :
    Option (List V × Nat) := do
  assert' (result.length == value.length)
  compressSeq inp value (compressBlock2d vs.2 ⟨⟨0, vs.1⟩, ⟨0, vs.2⟩⟩) result

/-- `copy_1d` with source and destination being the same array, with `SkipNoData` and
`DontMarkNoData` (`algorithm/core/detail/copy.h:41-53`): element by element, each reading the current
contents. Arguments: number of elements, source index, destination index. -/
def copyInPlace : Nat → Nat → Nat → List V → Option (List V)
  | 0, _, _, s => some s
  | k + 1, src, dst, s => do
    let v ← s[src]?
    copyInPlace k (src + 1) (dst + 1) (← modifyAt dst (fun _ => v) s)

/-- The loop of `copy_regional_results_to_front` (`algorithm/core/detail/compress.h:112-129`). The
`copy` function asserts that the two sizes are the same, which they are. -/
def copyRegional : List (CompressBlock × Nat) → Nat → Nat → List V → Option (List V × Nat)
  | [], _, target, s => some (s, target)
  | (b, count) :: rest, source, target, s => do
    assert' (count ≤ b.size)
    copyRegional rest (source + b.size) (target + count) (← copyInPlace b.size source target s)

/-- Parallel `compress` of blocks (`algorithm/core/detail/compress.h:207-226, 290-310`): `o` is a
possible outcome. -/
def CompressPar (inp : InPolicy V) (value : List V) (blocks : Option (List CompressBlock))
    (result : List V) (o : Option (List V × Nat)) : Prop :=
  match blocks.bind (fun bs => (bs.mapM (compressTask inp value)).map (fun ts => (bs, ts))) with
  | none => o = none
  | some (bs, ts) => ∃ r, ParResult (some (ts.map Prod.fst)) result r ∧
      o = r.bind (fun s => copyRegional (bs.zip (ts.map Prod.snd)) 0 0 s)

/-- Parallel `compress(1d)` (`algorithm/core/detail/compress.h:195-227`). The blocks divide the
*result*'s index range (line 206). -/
def Compress1dPar (t : Nat) (inp : InPolicy V) (value : List V) (result : List V)
    (o : Option (List V × Nat)) : Prop :=
  CompressPar inp value (do
    assert' (result.length == value.length)
    assert' (value.length ≤ result.length)
    (indexRanges t result.length).map (List.map compressBlock1d)) result o

/-- Parallel `compress(2d)` (`algorithm/core/detail/compress.h:279-311`). -/
def Compress2dPar (t : Nat) (inp : InPolicy V) (vs : Nat × Nat) (value : List V) (result : List V)
    (o : Option (List V × Nat)) : Prop :=
  CompressPar inp value (do
    assert' (result.length == value.length)
    (indexRanges2 t vs.1 vs.2).map (List.map (compressBlock2d vs.2))) result o

/-- The loop of `decompress_1d` and `decompress_2d`
(`algorithm/core/detail/decompress.h:36-45, 67-84`): the no-data policy looks at an array with values
`pvals`. -/
def decompressLoop {P : Type} (inp : InPolicy P) (pvals : List P) (outp : OutPolicy V)
    (value : List V) : List Nat → Nat → List (Cell V) → Option (List (Cell V))
  | [], _, s => some s
  | i :: is, source, s => do
    if ← inp.isNoData pvals i then
      decompressLoop inp pvals outp value is source (← modifyAt i outp.mark s)
    else
      let v ← value[source]?
      decompressLoop inp pvals outp value is (source + 1) (← modifyAt i (storeAct v) s)

/-- `decompress(1d)`, the same for both execution policies
(`algorithm/core/detail/decompress.h:117-128, 148-160`, assertion in `algorithm/core/decompress.h:44`). -/
def decompress1d {P : Type} (inp : InPolicy P) (pvals : List P) (outp : OutPolicy V)
    (value : List V) (result : List (Cell V)) : Option (List (Cell V)) := do
  assert' (value.length ≤ result.length)
  decompressLoop inp pvals outp value (IndexRange.indices ⟨0, result.length⟩) 0 result

/-- `decompress(2d)`, the same for both execution policies
(`algorithm/core/detail/decompress.h:180-192, 212-225`, assertion in `algorithm/core/decompress.h:44`). -/
def decompress2d {P : Type} (inp : InPolicy P) (pvals : List P) (outp : OutPolicy V)
    (value : List V) (rs : Nat × Nat) (result : List (Cell V)) : Option (List (Cell V)) := do
  assert' (value.length ≤ result.length)
  decompressLoop inp pvals outp value (cells2d rs.2 ⟨⟨0, rs.1⟩, ⟨0, rs.2⟩⟩) (0 * rs.2 + 0) result

end Fern
