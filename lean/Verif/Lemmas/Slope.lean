import Verif.Model.Slope
import Verif.Spec.Slope
import Verif.Lemmas.VectorSteps
import Verif.Props.FocalAverage
/-
The steps of the slope, cell by cell.
-/
namespace Fern

open Spec

variable {F : Type}

theorem gives_slopeConvolve (n : NumOps F) {kernel : List F} (hk : kernel.length = 9) {rows cols : Nat}
    (hrows : 3 ≤ rows) (hcols : 3 ≤ cols) {value : List F} (hv : value.length = rows * cols)
    {inp : InPolicy F} (hp : PolicyFor inp (rows * cols)) (mark : Bool) :
    ∃ out, (∀ m : Execution, m.Ok →
        Gives (slopeConvolve n m kernel (rows, cols) value inp mark) out) ∧
      out.length = rows * cols ∧
      ∀ i < rows, ∀ j < cols, ∃ c', out[i * cols + j]? = some c' ∧
        ConvolvedCell n.accOps (markPolicy F mark) (NoDataAt inp value (i * cols + j))
          (slopeTerms n n.averageOps kernel rows cols inp value i j) ⟨n.ofInt 0, false⟩ c' := by
  have ha : ArgsOk (⟨rows, cols, value, inp, 1, kernel⟩ : ConvolveArgs F F) :=
    ⟨hv, hp, hk, by show 2 * 1 ≤ rows; omega, by show 2 * 1 ≤ cols; omega⟩
  obtain ⟨out, h1, h2, h3, h4⟩ := C71_convolve n.accOps n.averageOps true
    (markPolicy F mark) ha hrows hcols (C71_radius_one n.averageOps ha (Nat.le_refl 1))
    (res := freshCells (n.ofInt 0) (rows * cols)) (by simp [freshCells])
  refine ⟨out, fun m hm => ?_, by rw [h2]; simp [freshCells], fun i hi j hj => ?_⟩
  · cases m with
    | sequential => exact Gives.one h1
    | parallel t => exact h4 t hm
  · obtain ⟨c, c', hc, hc', h⟩ := h3 i hi j hj
    have hlt : i * cols + j < rows * cols := rowMajor_lt hi hj
    have e : c = ⟨n.ofInt 0, false⟩ := by
      have hc2 : (freshCells (n.ofInt 0) (rows * cols))[i * cols + j]? = some c := hc
      simp [freshCells, List.getElem?_replicate, hlt] at hc2
      exact hc2.symm
    subst e
    exact ⟨c', hc', convolvedCell_congr (by simp [focalAveragePolicy]) h⟩

/-- What happens to one cell of the slope. `lx`, `ly`: values and weights in both directions. -/
structure SlopeSteps (n : NumOps F) (pow : F → F → F) (sqrt : F → F) (mark : Bool) (width height : F)
    (nd : Prop) (lx ly : List (F × F)) (x1 x2 x3 y1 y2 y3 c c1 c' : Cell F) : Prop where
  sumX : ConvolvedCell n.accOps (markPolicy F mark) nd lx ⟨n.ofInt 0, false⟩ x1
  sumY : ConvolvedCell n.accOps (markPolicy F mark) nd ly ⟨n.ofInt 0, false⟩ y1
  divX : LocalCell n.divOp (markPolicy F mark) (x1.masked = true) (x1.val, width) x1 x2
  divY : LocalCell n.divOp (markPolicy F mark) (y1.masked = true) (y1.val, height) y1 y2
  powX : LocalCell (powOp n pow) (markPolicy F mark) (x2.masked = true) (x2.val, n.ofInt 2) x2 x3
  powY : LocalCell (powOp n pow) (markPolicy F mark) (y2.masked = true) (y2.val, n.ofInt 2) y2 y3
  add : LocalCell n.addOp (markPolicy F mark) (x3.masked = true ∨ y3.masked = true)
    (x3.val, y3.val) c c1
  sqrt : LocalCell (totalOp sqrt) (markPolicy F mark) (c1.masked = true) c1.val c1 c'

/-- An operation of a raster and a number, writing into the raster. -/
theorem gives_own_number (op : LocalOp (F × F) F) (mark : Bool) (x : F) {rows cols : Nat}
    {r : List (Cell F)} (hr : r.length = rows * cols) (ha : RangeAfter op .own (.scalar x)) :
    ∃ out, (∀ m : Execution, m.Ok → Gives (ownRun m (ownBinaryActs op .ownMask (.number false)
        (markPolicy F mark) .own (.scalar x)) (rows, cols) r) out) ∧ out.length = rows * cols ∧
      ∀ (k : Nat) (c : Cell F), r[k]? = some c → ∃ c', out[k]? = some c' ∧
        LocalCell op (markPolicy F mark) (c.masked = true) (c.val, x) c c' := by
  obtain ⟨out, g, len, cell⟩ := gives_own_binary op (p1 := .ownMask) (p2 := .number false)
    (markPolicy F mark) (x1 := .own) (x2 := .scalar x) rows cols trivial trivial trivial trivial r hr ha
  refine ⟨out, g, len.trans hr, fun k c hc => ?_⟩
  obtain ⟨c', hc', h⟩ := cell k c hc
  refine ⟨c', hc', localCell_congr ?_ (h c.val x ⟨_, hc, rfl⟩ rfl)⟩
  simp [NoDataBefore, hc]

/-- All runs of the slope give the same raster; its cells are obtained step by step. -/
theorem slope_steps (n : NumOps F) (pow : F → F → F) (sqrt : F → F) (rows cols : Nat)
    (hrows : 3 ≤ rows) (hcols : 3 ≤ cols) (value : List F) (hv : value.length = rows * cols)
    (inp : InPolicy F) (hp : PolicyFor inp (rows * cols)) (mark : Bool) (width height : F)
    (result : List (Cell F)) (hres : result.length = rows * cols) :
    ∃ out, (∀ m : Execution, m.Ok → Gives (slope n pow sqrt m (rows, cols) value inp mark width height
        (rows, cols) result) out) ∧ out.length = rows * cols ∧
      ∀ i < rows, ∀ j < cols, ∃ x1 x2 x3 y1 y2 y3 c c1 c',
        result[i * cols + j]? = some c ∧ out[i * cols + j]? = some c' ∧
        SlopeSteps n pow sqrt mark width height (NoDataAt inp value (i * cols + j))
          (slopeTerms n n.averageOps (slopeKernelX n) rows cols inp value i j)
          (slopeTerms n n.averageOps (slopeKernelY n) rows cols inp value i j)
          x1 x2 x3 y1 y2 y3 c c1 c' := by
  obtain ⟨x1, gx1, lx1, cx1⟩ := gives_slopeConvolve n (kernel := slopeKernelX n)
    (by simp [slopeKernelX]) hrows hcols hv hp mark
  obtain ⟨x2, gx2, lx2, cx2⟩ := gives_own_number n.divOp mark width lx1 (fun _ _ => rfl)
  obtain ⟨y1, gy1, ly1, cy1⟩ := gives_slopeConvolve n (kernel := slopeKernelY n)
    (by simp [slopeKernelY]) hrows hcols hv hp mark
  obtain ⟨y2, gy2, ly2, cy2⟩ := gives_own_number n.divOp mark height ly1 (fun _ _ => rfl)
  obtain ⟨x3, gx3, lx3, cx3⟩ := gives_own_number (powOp n pow) mark (n.ofInt 2) lx2 (fun _ _ => rfl)
  obtain ⟨y3, gy3, ly3, cy3⟩ := gives_own_number (powOp n pow) mark (n.ofInt 2) ly2 (fun _ _ => rfl)
  obtain ⟨r1, g1, l1, c1⟩ := gives_binary n.addOp (cellMaskPolicy x3) (cellMaskPolicy y3)
    (markPolicy F mark) rows cols (x3.map Cell.val) (y3.map Cell.val) result (by simp [lx3])
    (by simp [ly3]) hres (by have := policyFor_cellMaskPolicy x3; rwa [lx3] at this)
    (by have := policyFor_cellMaskPolicy y3; rwa [ly3] at this)
  have l1' : r1.length = rows * cols := l1.trans hres
  obtain ⟨out, g2, l2, c2⟩ := gives_own_unary (totalOp sqrt) (p := .ownMask) (markPolicy F mark)
    (x := .own) rows cols trivial trivial r1 l1' (fun _ => rfl)
  refine ⟨out, fun m hm => ?_, l2.trans l1', fun i hi j hj => ?_⟩
  · unfold slope
    refine Gives.andThen (gives_assert (by simp)) ?_
    refine Gives.andThen (gives_assert (by simp)) ?_
    refine Gives.andThen (gx1 m hm) ?_
    refine Gives.andThen (gx2 m hm) ?_
    refine Gives.andThen (gy1 m hm) ?_
    refine Gives.andThen (gy2 m hm) ?_
    refine Gives.andThen (gx3 m hm) ?_
    refine Gives.andThen (gy3 m hm) ?_
    refine Gives.andThen (g1 m hm) ?_
    exact g2 m hm
  · have hk : i * cols + j < rows * cols := rowMajor_lt hi hj
    obtain ⟨a1, ha1, sx1⟩ := cx1 i hi j hj
    obtain ⟨a2, ha2, sx2⟩ := cx2 _ _ ha1
    obtain ⟨a3, ha3, sx3⟩ := cx3 _ _ ha2
    obtain ⟨b1, hb1, sy1⟩ := cy1 i hi j hj
    obtain ⟨b2, hb2, sy2⟩ := cy2 _ _ hb1
    obtain ⟨b3, hb3, sy3⟩ := cy3 _ _ hb2
    have hc : result[i * cols + j]? = some result[i * cols + j] :=
      List.getElem?_eq_getElem (by omega)
    obtain ⟨d1, hd1, s1⟩ := c1 _ _ hc
    obtain ⟨d2, hd2, s2⟩ := c2 _ _ hd1
    refine ⟨a1, a2, a3, b1, b2, b3, _, d1, d2, hc, hd2, sx1, sy1, sx2, sy2, sx3, sy3, ?_, ?_⟩
    · refine localCell_congr ?_ (s1 a3.val b3.val (map_val_get ha3) (map_val_get hb3))
      simp [noDataAt_cellMaskPolicy, ha3, hb3]
    · refine localCell_congr ?_ (s2 d1.val ⟨_, hd1, rfl⟩)
      simp [NoDataBefore, hd1]

end Fern
