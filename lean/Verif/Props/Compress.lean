import Verif.Lemmas.Decompress
/-
Properties C18, C19 and C20: compress and decompress.
-/
namespace Fern

open Spec

variable {P V : Type}

/-- C18, 1D: the valid values, in order, at the front of the result, and their number; the rest of the
result is not touched. -/
theorem C18_compress_1d (inp : InPolicy V) (value result : List V)
    (hsize : result.length = value.length) (hp : PolicyFor inp value.length) :
    compress1d inp value result =
      some (validValues inp value ++ result.drop (validValues inp value).length,
        (validValues inp value).length) := by
  simp only [compress1d, assert', hsize, BEq.rfl, if_true, Option.bind_eq_bind, Option.bind_some]
  exact compressSeq_spec inp value rfl hp _ rfl
    (by simp [compressBlock1d, IndexRange.indices, List.range_eq_range']) result (by omega)

/-- C18, 2D: as for 1D, the values in row-major order. -/
theorem C18_compress_2d (inp : InPolicy V) (n1 n2 : Nat) (value result : List V)
    (hv : value.length = n1 * n2) (hsize : result.length = value.length)
    (hp : PolicyFor inp value.length) :
    compress2d inp (n1, n2) value result =
      some (validValues inp value ++ result.drop (validValues inp value).length,
        (validValues inp value).length) := by
  simp only [compress2d, assert', hsize, BEq.rfl, if_true, Option.bind_eq_bind, Option.bind_some]
  exact compressSeq_spec inp value rfl hp _ (by simp [compressBlock2d])
    (by simp only [compressBlock2d]; rw [cells2d_all, hv]) result (by omega)

/-- C19, 1D: all schedules of all divisions give one array and one count; the count and the leading
values are those of the sequential version. -/
theorem C19_compress_1d_parallel (inp : InPolicy V) (value result : List V)
    (hsize : result.length = value.length) (hp : PolicyFor inp value.length) (t : Nat)
    (ht : 1 ≤ t) :
    ∃ out seqOut count, compress1d inp value result = some (seqOut, count) ∧
      (∀ o, Compress1dPar t inp value result o ↔ o = some (out, count)) ∧
      out.length = result.length ∧ out.take count = seqOut.take count := by
  obtain ⟨l, hl, hc⟩ := indexRanges_consecutive ht result.length
  obtain ⟨out, hpar, hlen, htake⟩ := compressPar_spec inp value hsize.symm (hsize ▸ hp)
    (goodBlocks_1d hc) result rfl
  refine ⟨out, _, _, C18_compress_1d inp value result hsize hp, fun o => ?_, hlen, ?_⟩
  · have : (do
        assert' (result.length == value.length)
        assert' (value.length ≤ result.length)
        (indexRanges t result.length).map (List.map compressBlock1d)) =
        some (l.map compressBlock1d) := by
      rw [hl]
      simp [assert', hsize]
    unfold Compress1dPar
    rw [this]
    exact hpar o
  · rw [htake, List.take_left]

/-- C19, 2D. -/
theorem C19_compress_2d_parallel (inp : InPolicy V) (n1 n2 : Nat) (value result : List V)
    (hv : value.length = n1 * n2) (hsize : result.length = value.length)
    (hp : PolicyFor inp value.length) (t : Nat) (ht : 1 ≤ t) :
    ∃ out seqOut count, compress2d inp (n1, n2) value result = some (seqOut, count) ∧
      (∀ o, Compress2dPar t inp (n1, n2) value result o ↔ o = some (out, count)) ∧
      out.length = result.length ∧ out.take count = seqOut.take count := by
  obtain ⟨l, hl, hc⟩ := indexRanges_consecutive ht n1
  have hg := goodBlocks_2d (n2 := n2) hc
  rw [Nat.zero_mul] at hg
  obtain ⟨out, hpar, hlen, htake⟩ := compressPar_spec inp value hv (hv ▸ hp) hg result (by omega)
  refine ⟨out, _, _, C18_compress_2d inp n1 n2 value result hv hsize hp, fun o => ?_, hlen, ?_⟩
  · have : (do
        assert' (result.length == value.length)
        (indexRanges2 t n1 n2).map (List.map (compressBlock2d n2))) =
        some (l.map (fun r => compressBlock2d n2 ⟨r, ⟨0, n2⟩⟩)) := by
      rw [indexRanges2_eq, hl]
      simp [assert', hsize]
    unfold Compress2dPar
    rw [this]
    exact hpar o
  · rw [htake, List.take_left]

/-- C19: moving a block to the front, from `source` to `target`, succeeds, puts the block's values
there, and changes nothing from the end of the block on, where the blocks are that still have to be
moved, nor before `target`, where the blocks are that have been moved. -/
theorem C19_move_keeps_others (size source target : Nat) (s : List V) (h1 : target ≤ source)
    (h2 : source + size ≤ s.length) :
    ∃ out, copyInPlace size source target s = some out ∧ out.length = s.length ∧
      (∀ i, i < target → out[i]? = s[i]?) ∧
      (∀ k, k < size → out[target + k]? = s[source + k]?) ∧
      (∀ i, source + size ≤ i → out[i]? = s[i]?) := by
  have hl : ((s.drop source).take size).length = size := by simp; omega
  have hf : target + ((s.drop source).take size).length ≤ s.length := by omega
  refine ⟨_, copyInPlace_eq size source target s h1 h2, splice_length hf, ?_, ?_, ?_⟩
  · intro i hi
    rw [splice_getElem? hf, if_pos hi]
  · intro k hk
    rw [splice_getElem? hf, if_neg (by omega), if_pos (by omega), List.getElem?_take,
      if_pos (by omega), List.getElem?_drop]
    congr 1
    omega
  · intro i hi
    rw [splice_getElem? hf, if_neg (by omega), if_neg (by omega)]

/-- C20: decompress, 1D. Valid elements get the values in order, the others are marked. -/
theorem C20_decompress_1d (inp : InPolicy P) (pvals : List P) (outp : OutPolicy V)
    (value : List V) (result : List (Cell V)) (hv : pvals.length = result.length)
    (hp : PolicyFor inp result.length) (hle : value.length ≤ result.length)
    (hval : rank inp pvals result.length ≤ value.length) :
    ∃ out, decompress1d inp pvals outp value result = some out ∧
      Elementwise (DecompressCell inp pvals outp value) result out := by
  obtain ⟨out, ho, he⟩ := decompressLoop_all (outp := outp) hv hp hval result rfl
  refine ⟨out, ?_, he⟩
  simp [decompress1d, assert', hle, IndexRange.indices, ← List.range_eq_range', ho]

/-- C20: decompress, 2D. -/
theorem C20_decompress_2d (inp : InPolicy P) (pvals : List P) (outp : OutPolicy V)
    (value : List V) (n1 n2 : Nat) (result : List (Cell V)) (hr : result.length = n1 * n2)
    (hv : pvals.length = result.length)
    (hp : PolicyFor inp result.length) (hle : value.length ≤ result.length)
    (hval : rank inp pvals result.length ≤ value.length) :
    ∃ out, decompress2d inp pvals outp value (n1, n2) result = some out ∧
      Elementwise (DecompressCell inp pvals outp value) result out := by
  obtain ⟨out, ho, he⟩ := decompressLoop_all (outp := outp) hv hp hval result rfl
  refine ⟨out, ?_, he⟩
  simp only [decompress2d, assert', hle, decide_true, if_true, Option.bind_eq_bind, Option.bind_some]
  rw [cells2d_all, ← hr]
  simpa using ho

/-- An element after the round trip: marked, or the original value. -/
def Restored (inp : InPolicy V) (outp : OutPolicy V) (value : List V) (i : Nat) (c c' : Cell V) :
    Prop :=
  (NoDataAt inp value i → Marked outp c c') ∧
  (¬ NoDataAt inp value i → value[i]? = some c'.val ∧ c'.masked = c.masked)

theorem restored_of_decompress {inp : InPolicy V} {outp : OutPolicy V} {value : List V}
    {res out : List (Cell V)} (hv : value.length = res.length)
    (h : Elementwise (DecompressCell inp value outp (validValues inp value)) res out) :
    Elementwise (Restored inp outp value) res out := by
  refine ⟨h.1, fun i c hc => ?_⟩
  obtain ⟨c', hc', h1, h2⟩ := h.2 i c hc
  refine ⟨c', hc', h1, fun hn => ?_⟩
  obtain ⟨v, hv', rfl⟩ := h2 hn
  have hi := (List.getElem?_eq_some_iff.mp hc).1
  have e : value[i]? = some (value[i]'(by omega)) := by simp
  rw [validValues_rank e hn] at hv'
  rw [e, hv']
  exact ⟨rfl, rfl⟩

/-- C20: decompress after compress, 1D. `count` values are left in the result of compress. -/
theorem C20_decompress_compress_1d (inp : InPolicy V) (outp : OutPolicy V) (value tmp : List V)
    (result : List (Cell V)) (htmp : tmp.length = value.length)
    (hr : result.length = value.length) (hp : PolicyFor inp value.length) :
    ∃ c count out, compress1d inp value tmp = some (c, count) ∧
      decompress1d inp value outp (c.take count) result = some out ∧
      Elementwise (Restored inp outp value) result out := by
  have hlen : (validValues inp value).length ≤ value.length := by
    have := validAt_length_le inp value (List.range value.length)
    simpa [validValues] using this
  obtain ⟨out, ho, he⟩ := C20_decompress_1d inp value outp (validValues inp value) result hr.symm
    (hr ▸ hp) (by omega) (by rw [hr, validValues_length])
  refine ⟨_, _, out, C18_compress_1d inp value tmp htmp hp, ?_, restored_of_decompress hr.symm he⟩
  rw [List.take_left, ho]

/-- C20: decompress after compress, 2D. -/
theorem C20_decompress_compress_2d (inp : InPolicy V) (outp : OutPolicy V) (n1 n2 : Nat)
    (value tmp : List V) (result : List (Cell V)) (hv : value.length = n1 * n2)
    (htmp : tmp.length = value.length)
    (hr : result.length = value.length) (hp : PolicyFor inp value.length) :
    ∃ c count out, compress2d inp (n1, n2) value tmp = some (c, count) ∧
      decompress2d inp value outp (c.take count) (n1, n2) result = some out ∧
      Elementwise (Restored inp outp value) result out := by
  have hlen : (validValues inp value).length ≤ value.length := by
    have := validAt_length_le inp value (List.range value.length)
    simpa [validValues] using this
  obtain ⟨out, ho, he⟩ := C20_decompress_2d inp value outp (validValues inp value) n1 n2 result
    (by omega) hr.symm (hr ▸ hp) (by omega) (by rw [hr, validValues_length])
  refine ⟨_, _, out, C18_compress_2d inp n1 n2 value tmp hv htmp hp, ?_,
    restored_of_decompress hr.symm he⟩
  rw [List.take_left, ho]

/-- The valid values of a decompressed array are the values that were decompressed. -/
theorem validValues_decompressed {inp : InPolicy P} {pvals : List P} {outp : OutPolicy V}
    {c : List V} {result out : List (Cell V)} (hc : c.length = rank inp pvals result.length)
    (h : Elementwise (DecompressCell inp pvals outp c) result out) {inp' : InPolicy V}
    (hpat : ∀ i < result.length, NoDataAt inp' (out.map Cell.val) i ↔ NoDataAt inp pvals i) :
    validValues inp' (out.map Cell.val) = c := by
  obtain ⟨hl, he⟩ := h
  have hrank : ∀ i ≤ result.length, rank inp' (out.map Cell.val) i = rank inp pvals i := by
    intro i hi
    unfold rank
    congr 1
    apply List.filter_congr
    intro j hj
    rw [List.mem_range] at hj
    simp [hpat j (by omega)]
  apply validValues_eq_of_rank
  · rw [hrank _ (by simp [hl]), hc]; simp [hl]
  · intro i v hi hn
    have hil : i < out.length := by simpa using (List.getElem?_eq_some_iff.mp hi).1
    rw [hpat i (by omega)] at hn
    rw [hrank i (by omega)]
    obtain ⟨c', hc', _, h2⟩ := he i (result[i]'(by omega)) (by simp)
    obtain ⟨w, hw, rfl⟩ := h2 hn
    rw [List.getElem?_map, hc'] at hi
    simp only [Option.map_some, Option.some.injEq] at hi
    rw [hw, hi]


/-- C20: compress after decompress, 1D. The no-data policy `inp'` of the decompressed array finds the
same pattern as the policy that was used for decompressing. -/
theorem C20_compress_decompress_1d (inp : InPolicy P) (pvals : List P) (outp : OutPolicy V)
    (c : List V) (result : List (Cell V)) (hv : pvals.length = result.length)
    (hp : PolicyFor inp result.length) (hc : c.length = rank inp pvals result.length)
    (hle : c.length ≤ result.length) :
    ∃ out, decompress1d inp pvals outp c result = some out ∧
      ∀ inp' : InPolicy V, PolicyFor inp' result.length →
        (∀ i < result.length, NoDataAt inp' (out.map Cell.val) i ↔ NoDataAt inp pvals i) →
        ∀ tmp : List V, tmp.length = result.length →
          compress1d inp' (out.map Cell.val) tmp = some (c ++ tmp.drop c.length, c.length) := by
  obtain ⟨out, ho, he⟩ := C20_decompress_1d inp pvals outp c result hv hp hle (by omega)
  refine ⟨out, ho, fun inp' hp' hpat tmp htmp => ?_⟩
  have hl := he.1
  rw [C18_compress_1d inp' _ tmp (by simp [hl, htmp]) (by simpa [hl] using hp'),
    validValues_decompressed hc he hpat]

/-- C20: compress after decompress, 2D. -/
theorem C20_compress_decompress_2d (inp : InPolicy P) (pvals : List P) (outp : OutPolicy V)
    (n1 n2 : Nat) (c : List V) (result : List (Cell V)) (hr : result.length = n1 * n2)
    (hv : pvals.length = result.length)
    (hp : PolicyFor inp result.length) (hc : c.length = rank inp pvals result.length)
    (hle : c.length ≤ result.length) :
    ∃ out, decompress2d inp pvals outp c (n1, n2) result = some out ∧
      ∀ inp' : InPolicy V, PolicyFor inp' result.length →
        (∀ i < result.length, NoDataAt inp' (out.map Cell.val) i ↔ NoDataAt inp pvals i) →
        ∀ tmp : List V, tmp.length = result.length →
          compress2d inp' (n1, n2) (out.map Cell.val) tmp =
            some (c ++ tmp.drop c.length, c.length) := by
  obtain ⟨out, ho, he⟩ := C20_decompress_2d inp pvals outp c n1 n2 result hr hv hp hle (by omega)
  refine ⟨out, ho, fun inp' hp' hpat tmp htmp => ?_⟩
  have hl := he.1
  rw [C18_compress_2d inp' n1 n2 _ tmp (by simp [hl, hr]) (by simp [hl, htmp])
    (by simpa [hl] using hp'), validValues_decompressed hc he hpat]

example : decompress2d (.byMask [0, 1, 0, 1] 1) [0, 0, 0, 0] .markMask [10, 30] (2, 2)
    [⟨1, false⟩, ⟨2, false⟩, ⟨3, false⟩, ⟨4, false⟩] =
    some [⟨10, false⟩, ⟨2, true⟩, ⟨30, false⟩, ⟨4, true⟩] ∧
    compress2d (.byMask [0, 1, 0, 1] 1) (2, 2) [10, 2, 30, 4] [0, 0, 0, 0] =
      some ([10, 30, 0, 0], 2) := by decide

example : compress1d (.byMask [0, 1, 0, 1] 1) [10, 20, 30, 40] [0, 0, 0, 0] =
    some ([10, 30, 0, 0], 2) := by decide

example : decompress1d (.byMask [0, 1, 0, 1] 1) [0, 0, 0, 0] .markMask [10, 30]
    [⟨1, false⟩, ⟨2, false⟩, ⟨3, false⟩, ⟨4, false⟩] =
    some [⟨10, false⟩, ⟨2, true⟩, ⟨30, false⟩, ⟨4, true⟩] := by decide

end Fern
