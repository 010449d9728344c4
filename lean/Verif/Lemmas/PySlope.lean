import Verif.Model.PySlope
import Verif.Spec.PySlope
import Verif.Lemmas.PyFloat
import Verif.Props.Slope

/-! # Lemmas on slopes in the Python extension -/

namespace Fern.PyFloat

open Fern Fern.Spec
open _root_.Fern.PyFloat.Spec (Kept KeepsSlope weightedSum weightsX weightsY)

section
variable {F : Type}

theorem localCell_value {A : Type} {op : LocalOp A F} {no : F} {nd : Prop} {a : A} {c c' : Cell F}
    (h : LocalCell op (.markValue no) nd a c c') :
    (nd ∨ op.withinDomain a = false ∨ op.withinRange a (op.compute a) = false → c'.val = no) ∧
    (¬ nd → op.withinDomain a = true → op.withinRange a (op.compute a) = true → c'.val = op.compute a) := by
  constructor
  · intro hh
    by_cases hnd : nd
    · exact (h.noData hnd).1
    · cases hd : op.withinDomain a with
      | false => exact (h.outOfDomain hnd hd).1
      | true =>
        cases hr : op.withinRange a (op.compute a) with
        | false => exact (h.outOfRange hnd hd hr).1
        | true => simp [hnd, hd, hr] at hh
  · intro h1 h2 h3
    rw [h.ok h1 h2 h3]

theorem convolvedCell_value {V W A : Type} {ops : ConvolveOps V W A F} {no : F} {nd : Prop} {l : List (V × W)}
    {c c' : Cell F} (h : ConvolvedCell ops (.markValue no) nd l c c') :
    (nd ∨ l = [] ∨ ops.within (sums ops l) = false → c'.val = no) ∧
    (¬ nd → l ≠ [] → ops.within (sums ops l) = true → c'.val = ops.normalize (sums ops l)) := by
  constructor
  · intro hh
    by_cases hnd : nd
    · exact (h.kept hnd).1
    · by_cases hl : l = []
      · exact (h.nothing hnd hl).1
      · cases hr : ops.within (sums ops l) with
        | false => exact (h.outOfRange hnd hr).1
        | true => simp [hnd, hl, hr] at hh
  · intro h1 h2 h3
    rw [h.ok h1 h2 h3]

theorem gives_slopeConvolve (n : NumOps F) (isNo : F → Bool) (no : F) {kernel : List F} (hk : kernel.length = 9)
    {rows cols : Nat} (hrows : 3 ≤ rows) (hcols : 3 ≤ cols) {value : List F} (hv : value.length = rows * cols)
    {garbage : List (Cell F)} (hg : garbage.length = rows * cols) :
    ∃ out, (∀ m : Execution, m.Ok →
        Gives (slopeConvolve n isNo no m kernel (rows, cols) value garbage) out) ∧
      out.length = rows * cols ∧
      ∀ i < rows, ∀ j < cols, ∃ c c', out[i * cols + j]? = some c' ∧
        ConvolvedCell n.accOps (.markValue no) (NoDataAt (.detect isNo) value (i * cols + j))
          (slopeTerms n n.averageOps kernel rows cols (.detect isNo) value i j) c c' := by
  have ha : ArgsOk (⟨rows, cols, value, .detect isNo, 1, kernel⟩ : ConvolveArgs F F) :=
    ⟨hv, trivial, hk, by show 2 * 1 ≤ rows; omega, by show 2 * 1 ≤ cols; omega⟩
  obtain ⟨out, h1, h2, h3, h4⟩ := C71_convolve n.accOps n.averageOps true
    (.markValue no) ha hrows hcols (C71_radius_one n.averageOps ha (Nat.le_refl 1)) (res := garbage) hg
  refine ⟨out, fun m hm => ?_, by rw [h2, hg], fun i hi j hj => ?_⟩
  · cases m with
    | sequential => exact Gives.one h1
    | parallel t => exact h4 t hm
  · obtain ⟨c, c', hc, hc', h⟩ := h3 i hi j hj
    exact ⟨c, c', hc', convolvedCell_congr (by simp [focalAveragePolicy]) h⟩

theorem gives_own_number (op : LocalOp (F × F) F) (isNo : F → Bool) (no x : F) {rows cols : Nat}
    {r : List (Cell F)} (hr : r.length = rows * cols) (ha : RangeAfter op .own (.scalar x)) :
    ∃ out, (∀ m : Execution, m.Ok → Gives (ownRun m (ownBinaryActs op (.ownValue isNo) (.number false)
        (.markValue no) .own (.scalar x)) (rows, cols) r) out) ∧ out.length = rows * cols ∧
      ∀ (k : Nat) (c : Cell F), r[k]? = some c → ∃ c', out[k]? = some c' ∧
        LocalCell op (.markValue no) (isNo c.val = true) (c.val, x) c c' := by
  obtain ⟨out, g, len, cell⟩ := gives_own_binary op (p1 := .ownValue isNo) (p2 := .number false)
    (.markValue no) (x1 := .own) (x2 := .scalar x) rows cols trivial trivial trivial trivial r hr ha
  refine ⟨out, g, len.trans hr, fun k c hc => ?_⟩
  obtain ⟨c', hc', h⟩ := cell k c hc
  refine ⟨c', hc', localCell_congr ?_ (h c.val x ⟨_, hc, rfl⟩ rfl)⟩
  simp [NoDataBefore, hc]

/-- What happens to one cell. -/
structure Steps (n : NumOps F) (isNo : F → Bool) (no : F) (pow : F → F → F) (sqrt : F → F) (width height : F)
    (nd : Prop) (lx ly : List (F × F)) (out : Cell F) : Prop where
  steps : ∃ gx x1 x2 x3 gy y1 y2 y3 g r1 : Cell F,
    ConvolvedCell n.accOps (.markValue no) nd lx gx x1 ∧
    ConvolvedCell n.accOps (.markValue no) nd ly gy y1 ∧
    LocalCell n.divOp (.markValue no) (isNo x1.val = true) (x1.val, width) x1 x2 ∧
    LocalCell n.divOp (.markValue no) (isNo y1.val = true) (y1.val, height) y1 y2 ∧
    LocalCell (powOp n pow) (.markValue no) (isNo x2.val = true) (x2.val, n.ofInt 2) x2 x3 ∧
    LocalCell (powOp n pow) (.markValue no) (isNo y2.val = true) (y2.val, n.ofInt 2) y2 y3 ∧
    LocalCell n.addOp (.markValue no) (isNo x3.val = true ∨ isNo y3.val = true) (x3.val, y3.val) g r1 ∧
    LocalCell (totalOp sqrt) (.markValue no) (isNo r1.val = true) r1.val r1 out

theorem slopeCells_steps (n : NumOps F) (isNo : F → Bool) (no : F) (pow : F → F → F) (sqrt : F → F) (rows cols : Nat)
    (hrows : 3 ≤ rows) (hcols : 3 ≤ cols) (value : List F) (hv : value.length = rows * cols) (width height : F)
    (gX gY result : List (Cell F)) (hX : gX.length = rows * cols) (hY : gY.length = rows * cols)
    (hres : result.length = rows * cols) :
    ∃ out, (∀ m : Execution, m.Ok → Gives (slopeCells n isNo no pow sqrt m (rows, cols) value width height gX gY
        result) out) ∧ out.length = rows * cols ∧
      ∀ i < rows, ∀ j < cols, ∃ c', out[i * cols + j]? = some c' ∧
        Steps n isNo no pow sqrt width height (NoDataAt (.detect isNo) value (i * cols + j))
          (slopeTerms n n.averageOps (slopeKernelX n) rows cols (.detect isNo) value i j)
          (slopeTerms n n.averageOps (slopeKernelY n) rows cols (.detect isNo) value i j) c' := by
  obtain ⟨x1, gx1, lx1, cx1⟩ := gives_slopeConvolve n isNo no (kernel := slopeKernelX n)
    (by simp [slopeKernelX]) hrows hcols hv hX
  obtain ⟨x2, gx2, lx2, cx2⟩ := gives_own_number n.divOp isNo no width lx1 (fun _ _ => rfl)
  obtain ⟨y1, gy1, ly1, cy1⟩ := gives_slopeConvolve n isNo no (kernel := slopeKernelY n)
    (by simp [slopeKernelY]) hrows hcols hv hY
  obtain ⟨y2, gy2, ly2, cy2⟩ := gives_own_number n.divOp isNo no height ly1 (fun _ _ => rfl)
  obtain ⟨x3, gx3, lx3, cx3⟩ := gives_own_number (powOp n pow) isNo no (n.ofInt 2) lx2 (fun _ _ => rfl)
  obtain ⟨y3, gy3, ly3, cy3⟩ := gives_own_number (powOp n pow) isNo no (n.ofInt 2) ly2 (fun _ _ => rfl)
  obtain ⟨r1, g1, l1, c1⟩ := gives_binary n.addOp (.detect isNo) (.detect isNo)
    (.markValue no) rows cols (x3.map Cell.val) (y3.map Cell.val) result (by simp [lx3])
    (by simp [ly3]) hres trivial trivial
  have l1' : r1.length = rows * cols := l1.trans hres
  obtain ⟨out, g2, l2, c2⟩ := gives_own_unary (totalOp sqrt) (p := .ownValue isNo) (.markValue no)
    (x := .own) rows cols trivial trivial r1 l1' (fun _ => rfl)
  refine ⟨out, fun m hm => ?_, l2.trans l1', fun i hi j hj => ?_⟩
  · unfold slopeCells
    refine Gives.andThen (gx1 m hm) ?_
    refine Gives.andThen (gx2 m hm) ?_
    refine Gives.andThen (gy1 m hm) ?_
    refine Gives.andThen (gy2 m hm) ?_
    refine Gives.andThen (gx3 m hm) ?_
    refine Gives.andThen (gy3 m hm) ?_
    refine Gives.andThen (g1 m hm) ?_
    exact g2 m hm
  · have hk : i * cols + j < rows * cols := rowMajor_lt hi hj
    obtain ⟨a0, a1, ha1, sx1⟩ := cx1 i hi j hj
    obtain ⟨a2, ha2, sx2⟩ := cx2 _ _ ha1
    obtain ⟨a3, ha3, sx3⟩ := cx3 _ _ ha2
    obtain ⟨b0, b1, hb1, sy1⟩ := cy1 i hi j hj
    obtain ⟨b2, hb2, sy2⟩ := cy2 _ _ hb1
    obtain ⟨b3, hb3, sy3⟩ := cy3 _ _ hb2
    have hc : result[i * cols + j]? = some result[i * cols + j] :=
      List.getElem?_eq_getElem (by omega)
    obtain ⟨d1, hd1, s1⟩ := c1 _ _ hc
    obtain ⟨d2, hd2, s2⟩ := c2 _ _ hd1
    refine ⟨d2, hd2, ⟨a0, a1, a2, a3, b0, b1, b2, b3, result[i * cols + j]'(by omega), d1, sx1, sy1, sx2, sy2, sx3, sy3, ?_, ?_⟩⟩
    · refine localCell_congr ?_ (s1 a3.val b3.val (map_val_get ha3) (map_val_get hb3))
      simp [NoDataAt, ha3, hb3]
    · refine localCell_congr ?_ (s2 d1.val ⟨_, hd1, rfl⟩)
      simp [NoDataBefore, hd1]

/-- What the steps amount to. -/
theorem steps_value {n : NumOps F} {isNo : F → Bool} {no : F} (hno : ∀ v, isNo v = true ↔ v = no) {pow : F → F → F}
    {sqrt : F → F} {width height : F} {nd : Prop} {lx ly : List (F × F)} {out : Cell F} (hx : ¬ nd → lx ≠ [])
    (hy : ¬ nd → ly ≠ []) (h : Steps n isNo no pow sqrt width height nd lx ly out) :
    (¬ nd → KeepsSlope n no pow width height (productSum n lx) (productSum n ly) →
      out.val = slopeValue n pow sqrt width height (productSum n lx) (productSum n ly)) ∧
    (nd ∨ ¬ KeepsSlope n no pow width height (productSum n lx) (productSum n ly) → out.val = no) := by
  obtain ⟨gx, x1, x2, x3, gy, y1, y2, y3, g, r1, c1, c2, d1, d2, p1, p2, s, q⟩ := h.steps
  have w : ∀ l : List (F × F), n.accOps.within (sums n.accOps l) =
      n.finite (productSum n l) := fun l => by rw [← sums_product n]; rfl
  have z : ∀ l : List (F × F), n.accOps.normalize (sums n.accOps l) = productSum n l :=
    fun l => sums_product n l
  obtain ⟨a1, a2⟩ := convolvedCell_value c1
  obtain ⟨b1, b2⟩ := convolvedCell_value c2
  obtain ⟨e1, e2⟩ := localCell_value d1
  obtain ⟨f1, f2⟩ := localCell_value d2
  obtain ⟨g1, g2⟩ := localCell_value p1
  obtain ⟨h1, h2⟩ := localCell_value p2
  obtain ⟨i1, i2⟩ := localCell_value s
  obtain ⟨j1, j2⟩ := localCell_value q
  rw [w, z] at a2
  rw [w, z] at b2
  rw [w] at a1 b1
  simp only [hno] at e1 e2 f1 f2 g1 g2 h1 h2 i1 i2 j1 j2
  simp only [powOp, NumOps.addOp, NumOps.divOp, totalOp, Bool.not_eq_true', Bool.not_eq_false', forall_const,
    Bool.true_eq_false, reduceCtorEq, false_or, or_false, true_and] at e1 e2 f1 f2 g1 g2 h1 h2 i1 i2 j1 j2
  generalize productSum n lx = gx at *
  generalize productSum n ly = gy at *
  constructor
  · rintro hnd ⟨wz, hz, ⟨k1, k1'⟩, ⟨k2, k2'⟩, ⟨k3, k3'⟩, ⟨k4, k4'⟩, ⟨k5, k5'⟩, ⟨k6, k6'⟩, ⟨k7, k7'⟩⟩
    have v1 := a2 hnd (hx hnd) k1
    have v2 := b2 hnd (hy hnd) k2
    have v3 := e2 (by rw [v1]; exact k1') wz (by rw [v1]; exact k3)
    have v4 := f2 (by rw [v2]; exact k2') hz (by rw [v2]; exact k4)
    rw [v1] at v3
    rw [v2] at v4
    have v5 := g2 (by rw [v3]; exact k3') (by rw [v3]; exact k5)
    have v6 := h2 (by rw [v4]; exact k4') (by rw [v4]; exact k6)
    rw [v3] at v5
    rw [v4] at v6
    have v7 := i2 (by rw [v5, v6]; exact fun h => h.elim k5' k6') (by rw [v5, v6]; exact k7)
    rw [v5, v6] at v7
    rw [j2 (by rw [v7]; exact k7'), v7]
    rfl
  · intro hh
    by_contra hne
    have m1 : r1.val ≠ no := fun e => hne (j1 e)
    have m2 : ¬ (x3.val = no ∨ y3.val = no) := fun e => m1 (i1 (.inl e))
    have m3 : n.finite (n.add x3.val y3.val) = true := by
      by_contra e
      exact m1 (i1 (.inr (by simpa using e)))
    have m4 : x3.val ≠ no := fun e => m2 (.inl e)
    have m5 : y3.val ≠ no := fun e => m2 (.inr e)
    have m6 : x2.val ≠ no := fun e => m4 (g1 (.inl e))
    have m7 : y2.val ≠ no := fun e => m5 (h1 (.inl e))
    have m8 : n.finite (pow x2.val (n.ofInt 2)) = true := by
      by_contra e
      exact m4 (g1 (.inr (by simpa using e)))
    have m9 : n.finite (pow y2.val (n.ofInt 2)) = true := by
      by_contra e
      exact m5 (h1 (.inr (by simpa using e)))
    have n1 : x1.val ≠ no := fun e => m6 (e1 (.inl e))
    have n2 : y1.val ≠ no := fun e => m7 (f1 (.inl e))
    have n3 : n.isZero width = false := by
      by_contra e
      exact m6 (e1 (.inr (.inl (by simpa using e))))
    have n4 : n.isZero height = false := by
      by_contra e
      exact m7 (f1 (.inr (.inl (by simpa using e))))
    have n5 : n.finite (n.div x1.val width) = true := by
      by_contra e
      exact m6 (e1 (.inr (.inr (by simpa using e))))
    have n6 : n.finite (n.div y1.val height) = true := by
      by_contra e
      exact m7 (f1 (.inr (.inr (by simpa using e))))
    have hnd : ¬ nd := fun e => n1 (a1 (.inl e))
    have n7 : n.finite gx = true := by
      by_contra e
      exact n1 (a1 (.inr (.inr (by simpa using e))))
    have n8 : n.finite gy = true := by
      by_contra e
      exact n2 (b1 (.inr (.inr (by simpa using e))))
    have v1 := a2 hnd (hx hnd) n7
    have v2 := b2 hnd (hy hnd) n8
    have v3 := e2 n1 n3 n5
    have v4 := f2 n2 n4 n6
    have v5 := g2 m6 m8
    have v6 := h2 m7 m9
    have v7 := i2 m2 m3
    rw [v7] at m1
    rw [v5] at m1 m3 m4
    rw [v6] at m1 m3 m5
    rw [v3] at m1 m3 m4 m6 m8
    rw [v4] at m1 m3 m5 m7 m9
    rw [v1] at m1 m3 m4 m6 m8 n1 n5
    rw [v2] at m1 m3 m5 m7 m9 n2 n6
    rcases hh with hh | hh
    · exact hnd hh
    · exact hh ⟨n3, n4, ⟨n7, n1⟩, ⟨n8, n2⟩, ⟨n5, m6⟩, ⟨n6, m7⟩, ⟨m8, m4⟩, ⟨m9, m5⟩, ⟨m3, m1⟩⟩

end

end Fern.PyFloat
