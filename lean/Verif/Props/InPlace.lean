import Verif.Lemmas.InPlace
import Verif.Props.LocalOps
import Verif.Model.Arith
/-
Property C73: an element-wise operation may write its result into one of its arguments.
-/
namespace Fern

open Spec

variable {V : Type}

/-- **C73**, unary, 2D: values and no-data are those from before the operation. -/
theorem C73_unary_2d (op : LocalOp V V) {p : OperandPolicy V} (outp : OutPolicy V)
    {x : Operand V} (n1 n2 : Nat) (hp : OperandPolicyOk (n1 * n2) p) (hx : OperandOk (n1 * n2) x)
    (result : List (Cell V)) (hr : result.length = n1 * n2) (ha : RangeAfterUnary op x) :
    ∃ out, ownSeq2d (ownUnaryActs op p outp x) n1 n2 n2 result = some out ∧
      Elementwise (fun i c c' => ∀ v, ValueBefore x result i v →
        LocalCell op outp (NoDataBefore p result i) v c c') result out ∧
      ∀ t, 1 ≤ t → ∀ o, OwnParResult (ownUnaryActs op p outp x) (blocks2d t n1 n2 n2) result o ↔
        o = some out := by
  have hl := ownUnaryActs_local op outp hp hx
  obtain ⟨out, h1, h2⟩ := seq2d_spec ((ownUnaryActs_ok op outp hp hx hr).imp fun i c c' h v hv =>
    localCell_aliasedUnary ha (h v hv)) result hr
  rw [← ownSeq2d_eq hl result hr] at h1
  exact ⟨out, h1, h2, fun t ht o => by rw [ownPar2d_iff hl ht result hr, h1]⟩

/-- **C73**, unary, 1D. -/
theorem C73_unary_1d (op : LocalOp V V) {p : OperandPolicy V} (outp : OutPolicy V)
    {x : Operand V} (n : Nat) (hp : OperandPolicyOk n p) (hx : OperandOk n x)
    (result : List (Cell V)) (hr : result.length = n) (ha : RangeAfterUnary op x) :
    ∃ out, ownSeq1d (ownUnaryActs op p outp x) n result = some out ∧
      Elementwise (fun i c c' => ∀ v, ValueBefore x result i v →
        LocalCell op outp (NoDataBefore p result i) v c c') result out ∧
      ∀ t, 1 ≤ t → ∀ o, OwnParResult (ownUnaryActs op p outp x) (blocks1d t n) result o ↔
        o = some out := by
  have hl := ownUnaryActs_local op outp hp hx
  obtain ⟨out, h1, h2⟩ := seq1d_spec ((ownUnaryActs_ok op outp hp hx hr).imp fun i c c' h v hv =>
    localCell_aliasedUnary ha (h v hv)) result hr
  rw [← ownSeq1d_eq hl result hr] at h1
  exact ⟨out, h1, h2, fun t ht o => by rw [ownPar1d_iff hl ht result hr, h1]⟩

/-- **C73**, binary, 2D; any of the arguments may be the result. -/
theorem C73_binary_2d (op : LocalOp (V × V) V) {p1 p2 : OperandPolicy V} (outp : OutPolicy V)
    {x1 x2 : Operand V} (n1 n2 : Nat) (hp1 : OperandPolicyOk (n1 * n2) p1)
    (hp2 : OperandPolicyOk (n1 * n2) p2) (hx1 : OperandOk (n1 * n2) x1)
    (hx2 : OperandOk (n1 * n2) x2) (result : List (Cell V)) (hr : result.length = n1 * n2)
    (ha : RangeAfter op x1 x2) :
    ∃ out, ownSeq2d (ownBinaryActs op p1 p2 outp x1 x2) n1 n2 n2 result = some out ∧
      Elementwise (fun i c c' => ∀ v1 v2, ValueBefore x1 result i v1 → ValueBefore x2 result i v2 →
        LocalCell op outp (NoDataBefore p1 result i ∨ NoDataBefore p2 result i) (v1, v2) c c')
        result out ∧
      ∀ t, 1 ≤ t → ∀ o, OwnParResult (ownBinaryActs op p1 p2 outp x1 x2) (blocks2d t n1 n2 n2)
        result o ↔ o = some out := by
  have hl := ownBinaryActs_local op outp hp1 hp2 hx1 hx2
  obtain ⟨out, h1, h2⟩ := seq2d_spec ((ownBinaryActs_ok op outp hp1 hp2 hx1 hx2 hr).imp
    fun i c c' h v1 v2 hv1 hv2 => localCell_aliased ha (h v1 v2 hv1 hv2)) result hr
  rw [← ownSeq2d_eq hl result hr] at h1
  exact ⟨out, h1, h2, fun t ht o => by rw [ownPar2d_iff hl ht result hr, h1]⟩

/-- **C73**, binary, 1D. -/
theorem C73_binary_1d (op : LocalOp (V × V) V) {p1 p2 : OperandPolicy V} (outp : OutPolicy V)
    {x1 x2 : Operand V} (n : Nat) (hp1 : OperandPolicyOk n p1)
    (hp2 : OperandPolicyOk n p2) (hx1 : OperandOk n x1)
    (hx2 : OperandOk n x2) (result : List (Cell V)) (hr : result.length = n)
    (ha : RangeAfter op x1 x2) :
    ∃ out, ownSeq1d (ownBinaryActs op p1 p2 outp x1 x2) n result = some out ∧
      Elementwise (fun i c c' => ∀ v1 v2, ValueBefore x1 result i v1 → ValueBefore x2 result i v2 →
        LocalCell op outp (NoDataBefore p1 result i ∨ NoDataBefore p2 result i) (v1, v2) c c')
        result out ∧
      ∀ t, 1 ≤ t → ∀ o, OwnParResult (ownBinaryActs op p1 p2 outp x1 x2) (blocks1d t n)
        result o ↔ o = some out := by
  have hl := ownBinaryActs_local op outp hp1 hp2 hx1 hx2
  obtain ⟨out, h1, h2⟩ := seq1d_spec ((ownBinaryActs_ok op outp hp1 hp2 hx1 hx2 hr).imp
    fun i c c' h v1 v2 hv1 hv2 => localCell_aliased ha (h v1 v2 hv1 hv2)) result hr
  rw [← ownSeq1d_eq hl result hr] at h1
  exact ⟨out, h1, h2, fun t ht o => by rw [ownPar1d_iff hl ht result hr, h1]⟩

/-- **C73**, without assumption on the range check: values and no-data are those from before the operation, but the
range check sees a result where an argument was. Binary, 2D. -/
theorem C73_binary_2d_checked_after (op : LocalOp (V × V) V) {p1 p2 : OperandPolicy V} (outp : OutPolicy V)
    {x1 x2 : Operand V} (n1 n2 : Nat) (hp1 : OperandPolicyOk (n1 * n2) p1)
    (hp2 : OperandPolicyOk (n1 * n2) p2) (hx1 : OperandOk (n1 * n2) x1)
    (hx2 : OperandOk (n1 * n2) x2) (result : List (Cell V)) (hr : result.length = n1 * n2) :
    ∃ out, ownSeq2d (ownBinaryActs op p1 p2 outp x1 x2) n1 n2 n2 result = some out ∧
      Elementwise (fun i c c' => ∀ v1 v2, ValueBefore x1 result i v1 → ValueBefore x2 result i v2 →
        InPlaceCell op x1 x2 outp (NoDataBefore p1 result i ∨ NoDataBefore p2 result i) v1 v2 c c')
        result out ∧
      ∀ t, 1 ≤ t → ∀ o, OwnParResult (ownBinaryActs op p1 p2 outp x1 x2) (blocks2d t n1 n2 n2)
        result o ↔ o = some out := by
  have hl := ownBinaryActs_local op outp hp1 hp2 hx1 hx2
  obtain ⟨out, h1, h2⟩ := seq2d_spec ((ownBinaryActs_ok op outp hp1 hp2 hx1 hx2 hr).imp
    fun i c c' h v1 v2 hv1 hv2 => inPlaceCell_aliased (h v1 v2 hv1 hv2)) result hr
  rw [← ownSeq2d_eq hl result hr] at h1
  exact ⟨out, h1, h2, fun t ht o => by rw [ownPar2d_iff hl ht result hr, h1]⟩

/-- **C73**: `f(r, v, r)` is `f(copy of r, v, r)`, no-data being detected in the mask (of the copy). -/
theorem C73_copy_left (op : LocalOp (V × V) V) {p : InPolicy V} (outp : OutPolicy V) (n1 n2 : Nat)
    (value : List V) (result : List (Cell V)) (hv : value.length = n1 * n2)
    (hr : result.length = n1 * n2) (hp : PolicyFor p (n1 * n2))
    (ha : RangeAfter op .own (.array value)) :
    ownSeq2d (ownBinaryActs op .ownMask (.bound p value) outp .own (.array value)) n1 n2 n2 result =
      binary2d2d op (.byMask (result.map fun c => if c.masked then 1 else 0) 1) p outp (n1, n2)
        (result.map Cell.val) (n1, n2) value (n1, n2) result := by
  obtain ⟨out, e1, h1, _⟩ := C73_binary_2d op (p1 := .ownMask) (p2 := .bound p value) outp
    (x1 := .own) (x2 := .array value) n1 n2 trivial ⟨hv, hp⟩ trivial hv result hr ha
  obtain ⟨out', e2, h2⟩ := C10_binary_2d2d op (.byMask (result.map fun c => if c.masked then 1 else 0) 1) p
    outp n1 n2 (result.map Cell.val) value result (by simpa using hr) hv hr (by simpa [PolicyFor] using hr) hp
  have h2' : Elementwise (fun i c c' => ∀ v1 v2, ValueBefore .own result i v1 →
      ValueBefore (.array value) result i v2 →
      LocalCell op outp (NoDataBefore .ownMask result i ∨ NoDataBefore (.bound p value) result i)
        (v1, v2) c c') result out' := by
    refine ⟨h2.1, fun i c hc => ?_⟩
    obtain ⟨c', hc', h⟩ := h2.2 i c hc
    refine ⟨c', hc', fun v1 v2 g1 g2 => localCell_congr ?_ (h v1 v2 ?_ g2)⟩
    · simp only [NoDataBefore, NoDataAt, List.getElem?_map, hc]
      cases hm : c.masked <;> simp [hm]
    · obtain ⟨d, hd, rfl⟩ := g1
      simp [hd]
  rw [e1, e2, elementwise_unique h1 h2' fun i c d e hc hd he => ?_]
  have hi : i < value.length := by
    obtain ⟨h, _⟩ := List.getElem?_eq_some_iff.1 hc
    omega
  exact localCell_unique (hd c.val value[i] ⟨c, hc, rfl⟩ (by simp [ValueBefore, hi]))
    (he c.val value[i] ⟨c, hc, rfl⟩ (by simp [ValueBefore, hi]))

/-- **C73**: `f(r, r)` is `f(copy of r, r)`, no-data being detected in the values (of the copy). -/
theorem C73_copy_unary (op : LocalOp V V) (isNd : V → Bool) (outp : OutPolicy V) (n1 n2 : Nat)
    (result : List (Cell V)) (hr : result.length = n1 * n2) (ha : RangeAfterUnary op .own) :
    ownSeq2d (ownUnaryActs op (.ownValue isNd) outp .own) n1 n2 n2 result =
      unary2d op (.detect isNd) outp (n1, n2) (result.map Cell.val) (n1, n2) result := by
  obtain ⟨out, e1, h1, _⟩ := C73_unary_2d op (p := .ownValue isNd) outp (x := .own) n1 n2 trivial trivial
    result hr ha
  obtain ⟨out', e2, h2⟩ := C09_unary_2d op (.detect isNd) outp n1 n2 (result.map Cell.val) result
    (by simpa using hr) hr trivial
  have h2' : Elementwise (fun i c c' => ∀ v, ValueBefore .own result i v →
      LocalCell op outp (NoDataBefore (.ownValue isNd) result i) v c c') result out' := by
    refine ⟨h2.1, fun i c hc => ?_⟩
    obtain ⟨c', hc', h⟩ := h2.2 i c hc
    refine ⟨c', hc', fun v g => localCell_congr ?_ (h v ?_)⟩
    · simp [NoDataBefore, NoDataAt, hc]
    · obtain ⟨d, hd, rfl⟩ := g
      simp [hd]
  rw [e1, e2, elementwise_unique h1 h2' fun i c d e hc hd he => ?_]
  exact localCell_unique (hd c.val ⟨c, hc, rfl⟩) (he c.val ⟨c, hc, rfl⟩)

/-- **C73** needs the assumption on the range check. Sums of unsigned numbers in place, `r := r + v`: the result is what
is compared with, so an overflow goes unnoticed; the same operation with a copy of `r` notices it. Products in place,
`r := r * v`: a product that fits is refused. -/
theorem C73_checked_after_false :
    ownSeq2d (ownBinaryActs (addOp .u8 .u8 .u8) .ownMask (.number false) .markMask .own (.array [100])) 1 1 1
      [⟨200, false⟩] = some [⟨44, false⟩] ∧
    binary2d2d (addOp .u8 .u8 .u8) .skip .skip .markMask (1, 1) [200] (1, 1) [100] (1, 1) [⟨200, false⟩] =
      some [⟨44, true⟩] ∧
    ownSeq2d (ownBinaryActs (mulOp .u8 .u8 .u8) .ownMask (.number false) .markMask .own (.array [2])) 1 1 1
      [⟨100, false⟩] = some [⟨200, true⟩] ∧
    binary2d2d (mulOp .u8 .u8 .u8) .skip .skip .markMask (1, 1) [100] (1, 1) [2] (1, 1) [⟨100, false⟩] =
      some [⟨200, false⟩] := by
  decide +kernel

/-- **C73**: range checks which look at the result only, like those for floating point numbers
(`std::isfinite(result)`), and no range check at all, meet the assumption. -/
theorem C73_result_only (op : LocalOp (V × V) V) (f : V → Bool) (h : ∀ a r, op.withinRange a r = f r)
    (x1 x2 : Operand V) : RangeAfter op x1 x2 := fun v1 v2 => by rw [h, h]

/-- `x / (y - 4)`, not defined for `y = 4`, without results above 100. -/
def quotientOp : LocalOp (Int × Int) Int where
  withinDomain := fun a => decide (a.2 ≠ 4)
  compute := fun a => a.1 / (a.2 - 4)
  withinRange := fun _ r => decide (r ≤ 100)

/-- `r := r / (v - 4)`: an element that is no-data already, an argument outside of the domain, a
result out of range, no-data in the other argument, and two that are fine. -/
example : ownSeq2d (ownBinaryActs quotientOp .ownMask (.bound (.detect (fun v => decide (v = -9)))
      [5, 4, 5, -9, 6, 7]) .markMask .own (.array [5, 4, 5, -9, 6, 7])) 2 3 3
    [⟨7, true⟩, ⟨8, false⟩, ⟨900, false⟩, ⟨1, false⟩, ⟨50, false⟩, ⟨60, false⟩] =
    some [⟨7, true⟩, ⟨8, true⟩, ⟨900, true⟩, ⟨1, true⟩, ⟨25, false⟩, ⟨20, false⟩] := by
  decide +kernel

example : OperandPolicyOk (2 * 3) (.bound (.detect (fun v => decide (v = (-9 : Int))))
    [5, 4, 5, -9, 6, 7]) ∧ OperandOk (2 * 3) (.array [(5 : Int), 4, 5, -9, 6, 7]) :=
  ⟨⟨rfl, trivial⟩, rfl⟩

end Fern
