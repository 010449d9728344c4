import Verif.Lemmas.Slope
import Verif.Props.Vector
/-
Property C76: the slope of a raster.
-/
namespace Fern

open Spec

variable {F : Type}

/-- The values below a kernel of radius 1 are all known if the value of the focal cell is: there is
something to sum. -/
theorem slopeTerms_ne_nil {n : NumOps F} (avg : AverageOps F) {kernel : List F}
    (hk : kernel.length = 9) {rows cols : Nat} (hrows : 3 ≤ rows) {value : List F}
    (hv : value.length = rows * cols) {inp : InPolicy F} {i j : Nat} (hi : i < rows) (hj : j < cols)
    (hnd : ¬ NoDataAt inp value (i * cols + j)) (hp : PolicyFor inp (rows * cols)) (hcols : 3 ≤ cols)
    {p : Nat} (hp0 : p = 0 ∨ p = 2) {q : Nat} (hq : q ≤ 2)
    (hw : ∀ w, kernel[weightAt 1 (p, q)]? = some w → n.isZero w = false) :
    slopeTerms n avg kernel rows cols inp value i j ≠ [] := by
  classical
  have ha : ArgsOk (⟨rows, cols, value, inp, 1, kernel⟩ : ConvolveArgs F F) :=
    ⟨hv, hp, hk, by show 2 * 1 ≤ rows; omega, by show 2 * 1 ≤ cols; omega⟩
  have hwt : ∃ w, kernel[weightAt 1 (p, q)]? = some w := by
    refine ⟨_, List.getElem?_eq_getElem ?_⟩
    rw [hk]; unfold weightAt; simp only []; omega
  obtain ⟨w, hw1⟩ := hwt
  have hmem : (p, q) ∈ kernelCells 1 := by rw [mem_kernelCells]; simp only []; omega
  have havg : ∀ x y : Int, (i : Int) - 1 ≤ x → x ≤ i + 1 → (j : Int) - 1 ≤ y → y ≤ j + 1 →
      ∃ z, focalAverage avg (⟨rows, cols, value, inp, 1, kernel⟩ : ConvolveArgs F F) x y = some z := by
    intro x y h1 h2 h3 h4
    have hne := around_mem ha (x := x) (y := y) hi hj (by unfold Near; simp only []; omega) hnd
    unfold focalAverage
    cases hl : around (⟨rows, cols, value, inp, 1, kernel⟩ : ConvolveArgs F F) x y with
    | nil => exact absurd hl hne
    | cons v l => exact ⟨_, rfl⟩
  unfold slopeTerms terms
  simp only []
  by_cases hin : InImage rows cols 1 i j (p, q)
  · intro hnil
    have h2 := (List.append_eq_nil_iff.1 hnil).2
    rw [List.filterMap_eq_nil_iff] at h2
    have h3 := h2 (p, q) (List.mem_filter.2 ⟨hmem, by simpa using hin⟩)
    unfold imageTerm at h3
    simp only [] at h3
    split_ifs at h3 with hnd'
    · unfold InImage at hin
      simp only [] at hin
      obtain ⟨z, hz⟩ := havg ((i + p - 1 : Nat) : Int) ((j + q - 1 : Nat) : Int) (by omega)
        (by omega) (by omega) (by omega)
      rw [hz, hw1] at h3
      simp at h3
    · unfold InImage at hin
      simp only [] at hin
      have hlt : below cols 1 i j (p, q) < value.length := by
        rw [hv]; unfold below; exact rowMajor_lt (by simp only []; omega) (by simp only []; omega)
      rw [List.getElem?_eq_getElem hlt, hw1] at h3
      simp [NumOps.accOps, hw w hw1] at h3
  · intro hnil
    have h2 := (List.append_eq_nil_iff.1 hnil).1
    rw [List.filterMap_eq_nil_iff] at h2
    have h3 := h2 (p, q) (List.mem_filter.2 ⟨hmem, by simpa using hin⟩)
    unfold outsideTerm at h3
    simp only [] at h3
    obtain ⟨z, hz⟩ := havg ((i : Int) + p - (1 : Nat)) ((j : Int) + q - (1 : Nat)) (by omega)
      (by omega) (by omega) (by omega)
    rw [hz, hw1] at h3
    simp at h3

theorem sums_product (n : NumOps F) (l : List (F × F)) :
    n.narrow (sums n.accOps l).1 = productSum n l := by
  have key : ∀ (l : List (F × F)) (s : F × F),
      (l.foldl (fun s vw => n.accOps.add vw.1 vw.2 s) s).1 =
        l.foldl (fun s vw => n.accAdd s (n.mul vw.1 vw.2)) s.1 := by
    intro l
    induction l with
    | nil => intro s; rfl
    | cons x l ih => intro s; rw [List.foldl_cons, ih]; rfl
  exact congrArg n.narrow (key l _)

/-- The weights 1 and 2 are not zero. -/
def WeightsNotZero (n : NumOps F) : Prop :=
  n.isZero (n.ofInt 1) = false ∧ n.isZero (n.ofInt (-1)) = false

/-- **C76**: all runs give the same raster. A cell is valid if it was not masked before, its value is
valid, and no value gets out of range; its value is the slope. The other cells are masked. -/
theorem C76_slope {n : NumOps F} (hn : WeightsNotZero n) (pow : F → F → F) (sqrt : F → F)
    (rows cols : Nat) (hrows : 3 ≤ rows) (hcols : 3 ≤ cols) (value : List F)
    (hv : value.length = rows * cols) (inp : InPolicy F) (hp : PolicyFor inp (rows * cols))
    (width height : F) (result : List (Cell F)) (hres : result.length = rows * cols) :
    ∃ out, (∀ m : Execution, m.Ok → ∀ o,
        slope n pow sqrt m (rows, cols) value inp true width height (rows, cols) result o ↔
          o = some out) ∧
      out.length = rows * cols ∧
      ∀ i < rows, ∀ j < cols, ∃ c c',
        result[i * cols + j]? = some c ∧ out[i * cols + j]? = some c' ∧
        (c'.masked = false ↔ c.masked = false ∧ ¬ NoDataAt inp value (i * cols + j) ∧
          HasSlope n pow width height
            (productSum n (slopeTerms n n.averageOps (slopeKernelX n) rows cols inp value i j))
            (productSum n (slopeTerms n n.averageOps (slopeKernelY n) rows cols inp value i j))) ∧
        (c'.masked = false → c'.val = slopeValue n pow sqrt width height
          (productSum n (slopeTerms n n.averageOps (slopeKernelX n) rows cols inp value i j))
          (productSum n (slopeTerms n n.averageOps (slopeKernelY n) rows cols inp value i j))) ∧
        (NoDataAt inp value (i * cols + j) → c'.val = c.val) := by
  obtain ⟨out, h1, h2, h3⟩ := slope_steps n pow sqrt rows cols hrows hcols value hv inp hp true
    width height result hres
  refine ⟨out, h1, h2, fun i hi j hj => ?_⟩
  obtain ⟨x1, x2, x3, y1, y2, y3, c, c1, c', e1, e2, st⟩ := h3 i hi j hj
  refine ⟨c, c', e1, e2, ?_⟩
  have hlx : ¬ NoDataAt inp value (i * cols + j) →
      slopeTerms n n.averageOps (slopeKernelX n) rows cols inp value i j ≠ [] := fun hnd =>
    slopeTerms_ne_nil n.averageOps (by simp [slopeKernelX]) hrows hv hi hj hnd hp hcols
      (p := 0) (.inl rfl) (q := 0) (by omega) (by
        intro w h
        have : n.ofInt 1 = w := Option.some.inj h
        rw [← this]; exact hn.1)
  have hly : ¬ NoDataAt inp value (i * cols + j) →
      slopeTerms n n.averageOps (slopeKernelY n) rows cols inp value i j ≠ [] := fun hnd =>
    slopeTerms_ne_nil n.averageOps (by simp [slopeKernelY]) hrows hv hi hj hnd hp hcols
      (p := 0) (.inl rfl) (q := 0) (by omega) (by
        intro w h
        have : n.ofInt (-1) = w := Option.some.inj h
        rw [← this]; exact hn.2)
  generalize slopeTerms n n.averageOps (slopeKernelX n) rows cols inp value i j = lx at st hlx
  generalize slopeTerms n n.averageOps (slopeKernelY n) rows cols inp value i j = ly at st hly
  generalize NoDataAt inp value (i * cols + j) = nd at st hlx hly
  have wx : n.accOps.within (sums n.accOps lx) =
      n.finite (productSum n lx) := by rw [← sums_product n]; rfl
  have wy : n.accOps.within (sums n.accOps ly) =
      n.finite (productSum n ly) := by rw [← sums_product n]; rfl
  have nx : n.accOps.normalize (sums n.accOps lx) = productSum n lx :=
    sums_product n lx
  have ny : n.accOps.normalize (sums n.accOps ly) = productSum n ly :=
    sums_product n ly
  obtain ⟨a1, a2, a3⟩ := convolvedCell_marked st.sumX
  obtain ⟨b1, b2, b3⟩ := convolvedCell_marked st.sumY
  obtain ⟨p1, p2, p3⟩ := localCell_marked st.divX
  obtain ⟨q1, q2, q3⟩ := localCell_marked st.divY
  obtain ⟨r1, r2, r3⟩ := localCell_marked st.powX
  obtain ⟨s1, s2, s3⟩ := localCell_marked st.powY
  obtain ⟨t1, t2, t3⟩ := localCell_marked st.add
  obtain ⟨u1, u2, u3⟩ := localCell_marked st.sqrt
  rw [nx] at a2
  rw [ny] at b2
  rw [wx] at a1
  rw [wy] at b1
  simp only [powOp, NumOps.addOp, NumOps.divOp, totalOp, ne_eq, and_true, true_and,
    Bool.not_eq_true', not_or, Bool.not_eq_true] at a1 b1 p1 p2 q1 q2 r1 r2 s1 s2 t1 t2 u1 u2
  refine ⟨⟨fun h => ?_, ?_⟩, fun h => ?_, fun h => ?_⟩
  · obtain ⟨m1, -⟩ := u1.1 h
    obtain ⟨mc, ⟨mx3, my3⟩, fs⟩ := t1.1 m1
    obtain ⟨mx2, -, fx2⟩ := r1.1 mx3
    obtain ⟨my2, -, fy2⟩ := s1.1 my3
    obtain ⟨mx1, -, wz, fx1⟩ := p1.1 mx2
    obtain ⟨my1, -, hz, fy1⟩ := q1.1 my2
    obtain ⟨hnd, -, fgx⟩ := a1.1 mx1
    obtain ⟨-, -, fgy⟩ := b1.1 my1
    rw [r2 mx3, s2 my3, p2 mx2, q2 my2, a2 mx1, b2 my1] at fs
    rw [p2 mx2, a2 mx1] at fx2
    rw [q2 my2, b2 my1] at fy2
    rw [a2 mx1] at fx1
    rw [b2 my1] at fy1
    exact ⟨mc, hnd, wz, hz, fgx, fgy, fx1, fy1, fx2, fy2, fs⟩
  · rintro ⟨mc, hnd, wz, hz, fgx, fgy, fx1, fy1, fx2, fy2, fs⟩
    have mx1 := a1.2 ⟨hnd, hlx hnd, fgx⟩
    have my1 := b1.2 ⟨hnd, hly hnd, fgy⟩
    have mx2 := p1.2 ⟨mx1, mx1, wz, by rw [a2 mx1]; exact fx1⟩
    have my2 := q1.2 ⟨my1, my1, hz, by rw [b2 my1]; exact fy1⟩
    have mx3 := r1.2 ⟨mx2, mx2, by rw [p2 mx2, a2 mx1]; exact fx2⟩
    have my3 := s1.2 ⟨my2, my2, by rw [q2 my2, b2 my1]; exact fy2⟩
    have m1 := t1.2 ⟨mc, ⟨mx3, my3⟩, by rw [r2 mx3, s2 my3, p2 mx2, q2 my2, a2 mx1, b2 my1]; exact fs⟩
    exact u1.2 ⟨m1, m1⟩
  · obtain ⟨m1, -⟩ := u1.1 h
    obtain ⟨mc, ⟨mx3, my3⟩, fs⟩ := t1.1 m1
    obtain ⟨mx2, -, fx2⟩ := r1.1 mx3
    obtain ⟨my2, -, fy2⟩ := s1.1 my3
    obtain ⟨mx1, -, wz, fx1⟩ := p1.1 mx2
    obtain ⟨my1, -, hz, fy1⟩ := q1.1 my2
    rw [u2 h, t2 m1, r2 mx3, s2 my3, p2 mx2, q2 my2, a2 mx1, b2 my1]
    rfl
  · have e := a3 (.inl h)
    have e2 := p3 (by rw [e])
    have e3 := r3 (by rw [e2])
    have e4 := t3 (.inl (by rw [e3]))
    rw [u3 (by rw [e4]), e4]

/-- **C76**: without marking no-data, valid cells of a result that is not masked get the slope, if the
sums of differences are within range. No-data cells get the slope of a difference of 0. -/
theorem C76_unmarked {n : NumOps F} (hn : WeightsNotZero n) (pow : F → F → F) (sqrt : F → F)
    (rows cols : Nat) (hrows : 3 ≤ rows) (hcols : 3 ≤ cols) (value : List F)
    (hv : value.length = rows * cols) (inp : InPolicy F) (hp : PolicyFor inp (rows * cols))
    (width height : F) (hwidth : n.isZero width = false) (hheight : n.isZero height = false)
    (result : List (Cell F)) (hres : result.length = rows * cols) :
    ∃ out, (∀ m : Execution, m.Ok → ∀ o,
        slope n pow sqrt m (rows, cols) value inp false width height (rows, cols) result o ↔
          o = some out) ∧
      out.length = rows * cols ∧
      ∀ i < rows, ∀ j < cols, ∃ c c',
        result[i * cols + j]? = some c ∧ out[i * cols + j]? = some c' ∧
        (c.masked = false → ¬ NoDataAt inp value (i * cols + j) →
          n.finite (productSum n
            (slopeTerms n n.averageOps (slopeKernelX n) rows cols inp value i j)) = true →
          n.finite (productSum n
            (slopeTerms n n.averageOps (slopeKernelY n) rows cols inp value i j)) = true →
          c' = ⟨slopeValue n pow sqrt width height
            (productSum n (slopeTerms n n.averageOps (slopeKernelX n) rows cols inp value i j))
            (productSum n (slopeTerms n n.averageOps (slopeKernelY n) rows cols inp value i j)),
            false⟩) ∧
        (c.masked = false → NoDataAt inp value (i * cols + j) →
          c' = ⟨slopeValue n pow sqrt width height (n.ofInt 0) (n.ofInt 0), false⟩) ∧
        (c.masked = true → NoDataAt inp value (i * cols + j) →
          c' = ⟨n.add (pow (n.div (n.ofInt 0) width) (n.ofInt 2))
            (pow (n.div (n.ofInt 0) height) (n.ofInt 2)), true⟩) := by
  obtain ⟨out, h1, h2, h3⟩ := slope_steps n pow sqrt rows cols hrows hcols value hv inp hp false
    width height result hres
  refine ⟨out, h1, h2, fun i hi j hj => ?_⟩
  obtain ⟨x1, x2, x3, y1, y2, y3, c, c1, c', e1, e2, st⟩ := h3 i hi j hj
  refine ⟨c, c', e1, e2, ?_⟩
  have hlx : ¬ NoDataAt inp value (i * cols + j) →
      slopeTerms n n.averageOps (slopeKernelX n) rows cols inp value i j ≠ [] := fun hnd =>
    slopeTerms_ne_nil n.averageOps (by simp [slopeKernelX]) hrows hv hi hj hnd hp hcols
      (p := 0) (.inl rfl) (q := 0) (by omega) (by
        intro w h
        have : n.ofInt 1 = w := Option.some.inj h
        rw [← this]; exact hn.1)
  have hly : ¬ NoDataAt inp value (i * cols + j) →
      slopeTerms n n.averageOps (slopeKernelY n) rows cols inp value i j ≠ [] := fun hnd =>
    slopeTerms_ne_nil n.averageOps (by simp [slopeKernelY]) hrows hv hi hj hnd hp hcols
      (p := 0) (.inl rfl) (q := 0) (by omega) (by
        intro w h
        have : n.ofInt (-1) = w := Option.some.inj h
        rw [← this]; exact hn.2)
  generalize slopeTerms n n.averageOps (slopeKernelX n) rows cols inp value i j = lx at st hlx
  generalize slopeTerms n n.averageOps (slopeKernelY n) rows cols inp value i j = ly at st hly
  generalize NoDataAt inp value (i * cols + j) = nd at st hlx hly
  have wx : n.accOps.within (sums n.accOps lx) =
      n.finite (productSum n lx) := by rw [← sums_product n]; rfl
  have wy : n.accOps.within (sums n.accOps ly) =
      n.finite (productSum n ly) := by rw [← sums_product n]; rfl
  have nx : n.accOps.normalize (sums n.accOps lx) = productSum n lx :=
    sums_product n lx
  have ny : n.accOps.normalize (sums n.accOps ly) = productSum n ly :=
    sums_product n ly
  have last : ∀ gx gy, x1 = ⟨gx, false⟩ → y1 = ⟨gy, false⟩ →
      c1 = ⟨n.add (pow (n.div gx width) (n.ofInt 2)) (pow (n.div gy height) (n.ofInt 2)), c.masked⟩ := by
    intro gx gy hx1 hy1
    subst hx1 hy1
    have a2 := localCell_unmarked st.divX (by simp) (by simp [NumOps.divOp, hwidth])
    have b2 := localCell_unmarked st.divY (by simp) (by simp [NumOps.divOp, hheight])
    subst a2 b2
    have a3 := localCell_unmarked st.powX (by simp) rfl
    have b3 := localCell_unmarked st.powY (by simp) rfl
    subst a3 b3
    exact localCell_unmarked st.add (by simp) rfl
  refine ⟨fun mc hnd fgx fgy => ?_, fun mc hnd => ?_, fun mc hnd => ?_⟩
  · have a1 := st.sumX.ok hnd (hlx hnd) (by rw [wx]; exact fgx)
    have b1 := st.sumY.ok hnd (hly hnd) (by rw [wy]; exact fgy)
    rw [nx] at a1
    rw [ny] at b1
    have hc1 := last _ _ a1 b1
    rw [mc] at hc1
    subst hc1
    exact localCell_unmarked st.sqrt (by simp) rfl
  · have hc1 := last _ _ (st.sumX.kept hnd) (st.sumY.kept hnd)
    rw [mc] at hc1
    subst hc1
    exact localCell_unmarked st.sqrt (by simp) rfl
  · have hc1 := last _ _ (st.sumX.kept hnd) (st.sumY.kept hnd)
    rw [mc] at hc1
    subst hc1
    exact st.sqrt.noData rfl

/-- **C76** does not hold for cells that were masked beforehand: the square of the slope is left in
the cell. -/
theorem C76_masked_before {n : NumOps F} (hn : WeightsNotZero n) (pow : F → F → F) (sqrt : F → F)
    (rows cols : Nat) (hrows : 3 ≤ rows) (hcols : 3 ≤ cols) (value : List F)
    (hv : value.length = rows * cols) (inp : InPolicy F) (hp : PolicyFor inp (rows * cols))
    (width height : F) (result : List (Cell F)) (hres : result.length = rows * cols) :
    ∃ out, (∀ m : Execution, m.Ok → ∀ o,
        slope n pow sqrt m (rows, cols) value inp true width height (rows, cols) result o ↔
          o = some out) ∧
      ∀ i < rows, ∀ j < cols, ∃ c c',
        result[i * cols + j]? = some c ∧ out[i * cols + j]? = some c' ∧
        (c.masked = true → ¬ NoDataAt inp value (i * cols + j) → ∀ gx gy,
          gx = productSum n (slopeTerms n n.averageOps (slopeKernelX n) rows cols inp value i j) →
          gy = productSum n (slopeTerms n n.averageOps (slopeKernelY n) rows cols inp value i j) →
          HasSlope n pow width height gx gy →
          c' = ⟨n.add (pow (n.div gx width) (n.ofInt 2)) (pow (n.div gy height) (n.ofInt 2)),
            true⟩) := by
  obtain ⟨out, h1, h2, h3⟩ := slope_steps n pow sqrt rows cols hrows hcols value hv inp hp true
    width height result hres
  refine ⟨out, h1, fun i hi j hj => ?_⟩
  obtain ⟨x1, x2, x3, y1, y2, y3, c, c1, c', e1, e2, st⟩ := h3 i hi j hj
  refine ⟨c, c', e1, e2, fun mc hnd gx gy egx egy hs => ?_⟩
  have hlx := slopeTerms_ne_nil (n := n) n.averageOps (kernel := slopeKernelX n)
    (by simp [slopeKernelX]) hrows hv hi hj hnd hp hcols
      (p := 0) (.inl rfl) (q := 0) (by omega) (by
        intro w h
        have : n.ofInt 1 = w := Option.some.inj h
        rw [← this]; exact hn.1)
  have hly := slopeTerms_ne_nil (n := n) n.averageOps (kernel := slopeKernelY n)
    (by simp [slopeKernelY]) hrows hv hi hj hnd hp hcols
      (p := 0) (.inl rfl) (q := 0) (by omega) (by
        intro w h
        have : n.ofInt (-1) = w := Option.some.inj h
        rw [← this]; exact hn.2)
  generalize slopeTerms n n.averageOps (slopeKernelX n) rows cols inp value i j = lx at st hlx egx
  generalize slopeTerms n n.averageOps (slopeKernelY n) rows cols inp value i j = ly at st hly egy
  have nx : n.accOps.normalize (sums n.accOps lx) = gx := by
    rw [egx]; exact sums_product n lx
  have ny : n.accOps.normalize (sums n.accOps ly) = gy := by
    rw [egy]; exact sums_product n ly
  have a1 := st.sumX.ok hnd hlx (by
    have := hs.sumX
    rw [egx, ← sums_product n] at this
    exact this)
  have b1 := st.sumY.ok hnd hly (by
    have := hs.sumY
    rw [egy, ← sums_product n] at this
    exact this)
  rw [nx] at a1
  rw [ny] at b1
  subst a1 b1
  have a2 := st.divX.ok (by simp) (by simp [NumOps.divOp, hs.widthNotZero]) hs.quotientX
  have b2 := st.divY.ok (by simp) (by simp [NumOps.divOp, hs.heightNotZero]) hs.quotientY
  subst a2 b2
  have a3 := st.powX.ok (by simp) rfl hs.squareX
  have b3 := st.powY.ok (by simp) rfl hs.squareY
  subst a3 b3
  have hc1 := st.add.ok (by simp) rfl hs.sum
  rw [mc] at hc1
  subst hc1
  have := markPolicy_val (st.sqrt.noData rfl)
  rw [this]
  rfl

/-- **C76**: rasters of different shapes are refused. -/
theorem C76_extents (n : NumOps F) (pow : F → F → F) (sqrt : F → F) (m : Execution) (vs rs : Nat × Nat)
    (value : List F) (inp : InPolicy F) (mark : Bool) (width height : F) (result : List (Cell F))
    (h : vs ≠ rs) (o : Option (List (Cell F))) :
    slope n pow sqrt m vs value inp mark width height rs result o ↔ o = none := by
  unfold slope
  by_cases h1 : vs.1 = rs.1
  · have h2 : vs.2 ≠ rs.2 := fun h2 => h (Prod.ext h1 h2)
    exact fails_then (gives_assert (by simp [h1]))
      (fails_andThen (fun o => by simp [Outcomes.one, assert', h2])) o
  · exact fails_andThen (fun o => by simp [Outcomes.one, assert', h1]) o

/-- **C76**: rasters of a single row or column (of less than 2^64 - 2 cells) are refused. -/
theorem C76_small (n : NumOps F) (pow : F → F → F) (sqrt : F → F) (m : Execution) (rows cols : Nat)
    (value : List F) (inp : InPolicy F) (mark : Bool) (width height : F) (result : List (Cell F))
    (hsize : rows * cols + 2 < 2 ^ 64) (h : rows < 2 ∨ cols < 2) (o : Option (List (Cell F))) :
    slope n pow sqrt m (rows, cols) value inp mark width height (rows, cols) result o ↔ o = none := by
  unfold slope
  refine fails_then (gives_assert (by simp)) (fails_then (gives_assert (by simp))
    (fails_andThen (fun o => ?_))) o
  cases m with
  | sequential =>
    simp only [slopeConvolve, convolveRun, Outcomes.one]
    rw [C52_small _ (by simpa using h) (by simpa using hsize) (by simp [freshCells])]
  | parallel t =>
    simp only [slopeConvolve, convolveRun]
    rw [C52_small_parallel _ t _ (by rcases h with h | h <;> simp [h])]
    simp [ParResult]

/-! Exact arithmetic. -/

theorem productSum_rat (l : List (ℚ × ℚ)) :
    productSum ratOps l = (l.map (fun vw => vw.1 * vw.2)).sum := by
  have key : ∀ (l : List (ℚ × ℚ)) (s : ℚ),
      l.foldl (fun s vw => s + vw.1 * vw.2) s = s + (l.map (fun vw => vw.1 * vw.2)).sum := by
    intro l
    induction l with
    | nil => intro s; simp
    | cons x l ih => intro s; rw [List.foldl_cons, ih, List.map_cons, List.sum_cons]; ring
  have := key l 0
  simpa [productSum, ratOps] using this

/-- The height of the surface at a position. -/
noncomputable def surfaceAt (rows cols : Nat) (inp : InPolicy ℚ) (value : List ℚ) (x y : Int) : ℚ :=
  (surface ratOps.averageOps rows cols inp value x y).getD 0

/-- The sum of differences is the sum over all nine cells of the kernel of the height of the surface
times the weight. -/
theorem slopeTerms_rat (kernel : List ℚ) (rows cols : Nat) (inp : InPolicy ℚ) (value : List ℚ)
    (i j : Nat) :
    productSum ratOps (slopeTerms ratOps ratOps.averageOps kernel rows cols inp value i j) =
      ((kernelCells 1).map (fun pq =>
        surfaceAt rows cols inp value ((i : Int) + pq.1 - 1) ((j : Int) + pq.2 - 1) *
          (kernel[weightAt 1 pq]?).getD 0)).sum := by
  classical
  rw [productSum_rat]
  unfold slopeTerms terms
  simp only [List.map_append, List.sum_append]
  generalize kernelCells 1 = l
  induction l with
  | nil => simp
  | cons pq l ih =>
    rw [List.map_cons, List.sum_cons, ← ih]
    by_cases hin : InImage rows cols 1 i j pq
    · rw [List.filter_cons_of_neg (by simpa using hin), List.filter_cons_of_pos (by simpa using hin)]
      have hin' := hin
      unfold InImage at hin'
      have e1 : ((i : Int) + pq.1 - 1).toNat = i + pq.1 - 1 := by omega
      have e2 : ((j : Int) + pq.2 - 1).toNat = j + pq.2 - 1 := by omega
      have hb : ((i : Int) + pq.1 - 1).toNat * cols + ((j : Int) + pq.2 - 1).toNat =
          below cols 1 i j pq := by rw [e1, e2]; rfl
      have hs : surface ratOps.averageOps rows cols inp value ((i : Int) + pq.1 - 1)
          ((j : Int) + pq.2 - 1) = if NoDataAt inp value (below cols 1 i j pq) then
            focalAverage ratOps.averageOps (⟨rows, cols, value, inp, 1, kernel⟩ : ConvolveArgs ℚ ℚ)
              ((i : Int) + pq.1 - 1) ((j : Int) + pq.2 - 1)
            else value[below cols 1 i j pq]? := by
        unfold surface
        rw [hb]
        by_cases hnd : NoDataAt inp value (below cols 1 i j pq)
        · rw [if_neg (by tauto), if_pos hnd]; rfl
        · rw [if_pos ⟨by omega, by omega, by omega, by omega, hnd⟩, if_neg hnd]
      have ht : (((imageTerm ratOps.accOps
          (⟨rows, cols, value, inp, 1, kernel⟩ : ConvolveArgs ℚ ℚ) (fun x y => focalAverage
            ratOps.averageOps (⟨rows, cols, value, inp, 1, kernel⟩ : ConvolveArgs ℚ ℚ) x y)
            i j pq).map (fun vw => vw.1 * vw.2)).getD 0) =
          surfaceAt rows cols inp value ((i : Int) + pq.1 - 1) ((j : Int) + pq.2 - 1) *
            (kernel[weightAt 1 pq]?).getD 0 := by
        unfold surfaceAt imageTerm
        rw [hs]
        simp only []
        have c1 : ((i + pq.1 - 1 : Nat) : Int) = (i : Int) + pq.1 - 1 := by omega
        have c2 : ((j + pq.2 - 1 : Nat) : Int) = (j : Int) + pq.2 - 1 := by omega
        rw [c1, c2]
        split_ifs with hnd
        · cases focalAverage ratOps.averageOps
            (⟨rows, cols, value, inp, 1, kernel⟩ : ConvolveArgs ℚ ℚ) ((i : Int) + pq.1 - 1)
              ((j : Int) + pq.2 - 1) with
          | none => simp
          | some v => cases kernel[weightAt 1 pq]? with
            | none => simp
            | some w => simp
        · cases value[below cols 1 i j pq]? with
          | none => simp
          | some v => cases kernel[weightAt 1 pq]? with
            | none => simp
            | some w =>
              by_cases hw : w = 0
              · simp [NumOps.accOps, ratOps, hw]
              · simp [NumOps.accOps, ratOps, hw]
      rw [List.filterMap_cons]
      cases him : imageTerm ratOps.accOps
          (⟨rows, cols, value, inp, 1, kernel⟩ : ConvolveArgs ℚ ℚ) (fun x y => focalAverage
            ratOps.averageOps (⟨rows, cols, value, inp, 1, kernel⟩ : ConvolveArgs ℚ ℚ) x y)
            i j pq with
      | none => rw [him] at ht; rw [← ht]; simp
      | some vw => rw [him] at ht; rw [← ht]; simp; ring
    · rw [List.filter_cons_of_pos (by simpa using hin), List.filter_cons_of_neg (by simpa using hin)]
      have hs : surface ratOps.averageOps rows cols inp value ((i : Int) + pq.1 - 1)
          ((j : Int) + pq.2 - 1) =
            focalAverage ratOps.averageOps (⟨rows, cols, value, inp, 1, kernel⟩ : ConvolveArgs ℚ ℚ)
              ((i : Int) + pq.1 - 1) ((j : Int) + pq.2 - 1) := by
        unfold surface
        unfold InImage at hin
        rw [if_neg (by omega)]
        rfl
      have ht : (((outsideTerm (⟨rows, cols, value, inp, 1, kernel⟩ : ConvolveArgs ℚ ℚ)
          (focalAverage ratOps.averageOps (⟨rows, cols, value, inp, 1, kernel⟩ : ConvolveArgs ℚ ℚ))
            i j pq).map (fun vw => vw.1 * vw.2)).getD 0) =
          surfaceAt rows cols inp value ((i : Int) + pq.1 - 1) ((j : Int) + pq.2 - 1) *
            (kernel[weightAt 1 pq]?).getD 0 := by
        unfold surfaceAt outsideTerm
        rw [hs]
        simp only [Nat.cast_one]
        cases focalAverage ratOps.averageOps
            (⟨rows, cols, value, inp, 1, kernel⟩ : ConvolveArgs ℚ ℚ) ((i : Int) + pq.1 - 1)
              ((j : Int) + pq.2 - 1) with
          | none => simp
          | some v => cases kernel[weightAt 1 pq]? with
            | none => simp
            | some w => simp
      rw [List.filterMap_cons]
      cases him : outsideTerm (⟨rows, cols, value, inp, 1, kernel⟩ : ConvolveArgs ℚ ℚ)
          (focalAverage ratOps.averageOps (⟨rows, cols, value, inp, 1, kernel⟩ : ConvolveArgs ℚ ℚ))
            i j pq with
      | none => rw [him] at ht; rw [← ht]; simp
      | some vw => rw [him] at ht; rw [← ht]; simp; ring

/-- **C76** in exact arithmetic: the sums of differences, between west and east and between south and
north, of the surface in which missing values are replaced by averages. -/
theorem C76_exact (rows cols : Nat) (inp : InPolicy ℚ) (value : List ℚ) (i j : Nat) (z : Int → Int → ℚ)
    (hz : z = surfaceAt rows cols inp value) :
    productSum ratOps (slopeTerms ratOps ratOps.averageOps (slopeKernelX ratOps) rows cols inp value
        i j) =
      (z (i - 1) (j - 1) + 2 * z i (j - 1) + z (i + 1) (j - 1)) -
        (z (i - 1) (j + 1) + 2 * z i (j + 1) + z (i + 1) (j + 1)) ∧
    productSum ratOps (slopeTerms ratOps ratOps.averageOps (slopeKernelY ratOps) rows cols inp value
        i j) =
      (z (i + 1) (j - 1) + 2 * z (i + 1) j + z (i + 1) (j + 1)) -
        (z (i - 1) (j - 1) + 2 * z (i - 1) j + z (i - 1) (j + 1)) := by
  have hk : kernelCells 1 = [(0, 0), (0, 1), (0, 2), (1, 0), (1, 1), (1, 2), (2, 0), (2, 1), (2, 2)] := rfl
  rw [slopeTerms_rat, slopeTerms_rat, ← hz, hk]
  have a0 : (i : Int) + ((0 : Nat) : Int) - 1 = i - 1 := by omega
  have a1 : (i : Int) + ((1 : Nat) : Int) - 1 = i := by omega
  have a2 : (i : Int) + ((2 : Nat) : Int) - 1 = i + 1 := by omega
  have b0 : (j : Int) + ((0 : Nat) : Int) - 1 = j - 1 := by omega
  have b1 : (j : Int) + ((1 : Nat) : Int) - 1 = j := by omega
  have b2 : (j : Int) + ((2 : Nat) : Int) - 1 = j + 1 := by omega
  simp only [List.map_cons, List.map_nil, List.sum_cons, List.sum_nil, a0, a1, a2, b0, b1, b2]
  constructor
  · simp [slopeKernelX, weightAt, ratOps]
    ring
  · simp [slopeKernelY, weightAt, ratOps]
    ring

theorem averageOf_constant {l : List ℚ} {c : ℚ} (h : ∀ v ∈ l, v = c) (hl : l ≠ []) :
    averageOf ratOps.averageOps l = some c := by
  have key : ∀ (l : List ℚ) (s : ℚ), (∀ v ∈ l, v = c) → l.foldl (· + ·) s = s + l.length * c := by
    intro l
    induction l with
    | nil => intro s _; simp
    | cons v l ih =>
      intro s h
      rw [List.foldl_cons, ih _ (fun u hu => h u (List.mem_cons_of_mem _ hu)), h v (by simp)]
      push_cast [List.length_cons]
      ring
  cases l with
  | nil => exact absurd rfl hl
  | cons v l =>
    have := key (v :: l) 0 h
    simp only [averageOf, NumOps.averageOps, ratOps, Int.cast_zero]
    refine congrArg some ?_
    show List.foldl (· + ·) 0 (v :: l) / _ = c
    rw [this]
    have h0 : (((v :: l).length : Nat) : ℚ) ≠ 0 := by
      rw [List.length_cons]; push_cast; positivity
    push_cast at *
    field_simp
    ring

/-- **C76** in exact arithmetic: if all valid cells have the same value, the slope of all valid cells
is 0, at the border and next to no-data too. -/
theorem C76_constant {rows cols : Nat} {inp : InPolicy ℚ} {value : List ℚ}
    (hv : value.length = rows * cols) (c : ℚ)
    (hc : ∀ k v, value[k]? = some v → ¬ NoDataAt inp value k → v = c) {i j : Nat} (hi : i < rows)
    (hj : j < cols) (hnd : ¬ NoDataAt inp value (i * cols + j)) :
    productSum ratOps (slopeTerms ratOps ratOps.averageOps (slopeKernelX ratOps) rows cols inp value
        i j) = 0 ∧
    productSum ratOps (slopeTerms ratOps ratOps.averageOps (slopeKernelY ratOps) rows cols inp value
        i j) = 0 := by
  have hz : ∀ x y : Int, (i : Int) - 1 ≤ x → x ≤ i + 1 → (j : Int) - 1 ≤ y → y ≤ j + 1 →
      surfaceAt rows cols inp value x y = c := by
    intro x y h1 h2 h3 h4
    unfold surfaceAt surface
    split_ifs with h
    · obtain ⟨g1, g2, g3, g4, g5⟩ := h
      have hlt : x.toNat * cols + y.toNat < value.length := by
        rw [hv]; exact rowMajor_lt (by omega) (by omega)
      rw [List.getElem?_eq_getElem hlt, Option.getD_some]
      exact hc _ _ (List.getElem?_eq_getElem hlt) g5
    · unfold focalAverage
      rw [averageOf_constant (c := c)]
      · rfl
      · intro v hvm
        unfold around at hvm
        rw [List.mem_filterMap] at hvm
        obtain ⟨pq, _, he⟩ := hvm
        split_ifs at he with hcond
        exact hc _ _ he hcond.2
      · intro he
        unfold around at he
        rw [List.filterMap_eq_nil_iff] at he
        have := he (i, j) (mem_imageCells.2 ⟨hi, hj⟩)
        have hlt : i * cols + j < value.length := by rw [hv]; exact rowMajor_lt hi hj
        rw [if_pos ⟨by unfold Near; simp only []; omega, hnd⟩] at this
        simp only [] at this
        rw [List.getElem?_eq_getElem hlt] at this
        exact absurd this (by simp)
  obtain ⟨e1, e2⟩ := C76_exact rows cols inp value i j _ rfl
  rw [e1, e2]
  have q1 := hz (i - 1) (j - 1) (by omega) (by omega) (by omega) (by omega)
  have q2 := hz i (j - 1) (by omega) (by omega) (by omega) (by omega)
  have q3 := hz (i + 1) (j - 1) (by omega) (by omega) (by omega) (by omega)
  have q4 := hz (i - 1) (j + 1) (by omega) (by omega) (by omega) (by omega)
  have q5 := hz i (j + 1) (by omega) (by omega) (by omega) (by omega)
  have q6 := hz (i + 1) (j + 1) (by omega) (by omega) (by omega) (by omega)
  have q7 := hz (i - 1) j (by omega) (by omega) (by omega) (by omega)
  have q8 := hz (i + 1) j (by omega) (by omega) (by omega) (by omega)
  rw [q1, q2, q3, q4, q5, q6, q7, q8]
  constructor <;> ring

theorem surfaceAt_valid {rows cols : Nat} {inp : InPolicy ℚ} {value : List ℚ} (f : Int → Int → ℚ)
    {x y : Nat} (hx : x < rows) (hy : y < cols)
    (hf : value[x * cols + y]? = some (f x y)) (hnd : ¬ NoDataAt inp value (x * cols + y)) :
    surfaceAt rows cols inp value x y = f x y := by
  unfold surfaceAt surface
  rw [if_pos ⟨by omega, by omega, by omega, by omega, by simpa using hnd⟩]
  simp [hf]

/-- **C76** in exact arithmetic: the sums of differences of a plane which rises `b` per row and `d` per
column are `-8 d` and `8 b` at all cells whose eight neighbours are valid cells of the raster. -/
theorem C76_plane {rows cols : Nat} {inp : InPolicy ℚ} {value : List ℚ} (a b d : ℚ) {i j : Nat}
    (hi : i + 2 < rows) (hj : j + 2 < cols)
    (hf : ∀ r c, i ≤ r → r ≤ i + 2 → j ≤ c → c ≤ j + 2 →
      value[r * cols + c]? = some (a + b * r + d * c) ∧ ¬ NoDataAt inp value (r * cols + c)) :
    productSum ratOps (slopeTerms ratOps ratOps.averageOps (slopeKernelX ratOps) rows cols inp value
        (i + 1) (j + 1)) = -8 * d ∧
    productSum ratOps (slopeTerms ratOps ratOps.averageOps (slopeKernelY ratOps) rows cols inp value
        (i + 1) (j + 1)) = 8 * b := by
  obtain ⟨e1, e2⟩ := C76_exact rows cols inp value (i + 1) (j + 1) _ rfl
  have hz : ∀ x y : Nat, i ≤ x → x ≤ i + 2 → j ≤ y → y ≤ j + 2 →
      surfaceAt rows cols inp value (x : Int) (y : Int) = a + b * x + d * y := by
    intro x y h1 h2 h3 h4
    have h := hf x y h1 h2 h3 h4
    have := surfaceAt_valid (fun x y => a + b * x + d * y) (rows := rows) (cols := cols)
      (x := x) (y := y) (by omega) (by omega) (by simpa using h.1) h.2
    simpa using this
  have i0 : ((i + 1 : Nat) : Int) - 1 = ((i : Nat) : Int) := by omega
  have i2 : ((i + 1 : Nat) : Int) + 1 = ((i + 2 : Nat) : Int) := by omega
  have j0 : ((j + 1 : Nat) : Int) - 1 = ((j : Nat) : Int) := by omega
  have j2 : ((j + 1 : Nat) : Int) + 1 = ((j + 2 : Nat) : Int) := by omega
  rw [i0, i2, j0, j2] at e1 e2
  rw [e1, e2]
  have q1 := hz i j (by omega) (by omega) (by omega) (by omega)
  have q2 := hz (i + 1) j (by omega) (by omega) (by omega) (by omega)
  have q3 := hz (i + 2) j (by omega) (by omega) (by omega) (by omega)
  have q4 := hz i (j + 2) (by omega) (by omega) (by omega) (by omega)
  have q5 := hz (i + 1) (j + 2) (by omega) (by omega) (by omega) (by omega)
  have q6 := hz (i + 2) (j + 2) (by omega) (by omega) (by omega) (by omega)
  have q7 := hz i (j + 1) (by omega) (by omega) (by omega) (by omega)
  have q8 := hz (i + 2) (j + 1) (by omega) (by omega) (by omega) (by omega)
  rw [q1, q2, q3, q4, q5, q6, q7, q8]
  push_cast
  constructor <;> ring

/-- The cells around a position just west of the raster. -/
theorem around_west {rows cols : Nat} {value : List ℚ} (w : List ℚ) (f : Nat → ℚ) (hcols : 2 ≤ cols)
    {x : Nat} (hx : x + 2 < rows)
    (hf : ∀ r, x ≤ r → r ≤ x + 2 → value[r * cols + 0]? = some (f r)) :
    around (⟨rows, cols, value, .skip, 1, w⟩ : ConvolveArgs ℚ ℚ) ((x + 1 : Nat) : Int) (-1) =
      [f x, f (x + 1), f (x + 2)] := by
  classical
  unfold around imageCells
  rw [List.filterMap_flatMap]
  have hrow : ∀ p, (List.filterMap (fun pq : Nat × Nat =>
      if Near ((x + 1 : Nat) : Int) (-1) pq ∧ ¬ NoDataAt (.skip : InPolicy ℚ) value (pq.1 * cols + pq.2)
      then value[pq.1 * cols + pq.2]? else none) ((List.range cols).map (fun q => (p, q)))) =
      if x ≤ p ∧ p ≤ x + 2 then [f p] else [] := by
    intro p
    rw [List.filterMap_map]
    obtain ⟨k, rfl⟩ : ∃ k, cols = k + 1 := ⟨cols - 1, by omega⟩
    rw [List.range_succ_eq_map, List.filterMap_cons]
    have htail : List.filterMap ((fun pq : Nat × Nat =>
        if Near ((x + 1 : Nat) : Int) (-1) pq ∧
          ¬ NoDataAt (.skip : InPolicy ℚ) value (pq.1 * (k + 1) + pq.2)
        then value[pq.1 * (k + 1) + pq.2]? else none) ∘ (fun q => (p, q)))
          ((List.range k).map Nat.succ) = [] := by
      rw [List.filterMap_eq_nil_iff]
      intro q hq
      obtain ⟨r, _, rfl⟩ := List.mem_map.1 hq
      simp only [Function.comp]
      rw [if_neg]
      rintro ⟨⟨_, _, h⟩, _⟩
      simp only [] at h
      omega
    rw [htail]
    simp only [Function.comp]
    by_cases hp : x ≤ p ∧ p ≤ x + 2
    · rw [if_pos ⟨⟨⟨by simp only []; omega, by simp only []; omega⟩, by simp, by simp⟩,
        by simp [NoDataAt]⟩, if_pos hp, hf p hp.1 hp.2]
    · rw [if_neg, if_neg hp]
      rintro ⟨⟨⟨h1, h2⟩, _⟩, _⟩
      simp only [] at h1 h2
      omega
  have hfm : ∀ n, (List.range n).flatMap (fun p => if x ≤ p ∧ p ≤ x + 2 then [f p] else []) =
      (if n ≤ x then [] else if n = x + 1 then [f x] else if n = x + 2 then [f x, f (x + 1)] else
        [f x, f (x + 1), f (x + 2)]) := by
    intro n
    induction n with
    | zero => simp
    | succ n ih =>
      rw [List.range_succ, List.flatMap_append, ih]
      simp only [List.flatMap_cons, List.flatMap_nil, List.append_nil]
      rcases Nat.lt_or_ge n x with h | h
      · rw [if_pos (by omega), if_neg (by omega), if_pos (by omega)]; rfl
      · rcases Nat.eq_or_lt_of_le h with h | h
        · subst h; simp
        · rcases Nat.eq_or_lt_of_le (show x + 1 ≤ n from h) with h | h
          · subst h
            rw [if_neg (by omega), if_pos rfl, if_pos (by omega), if_neg (by omega), if_neg (by omega),
              if_pos (by omega)]
            rfl
          · rcases Nat.eq_or_lt_of_le (show x + 2 ≤ n from h) with h | h
            · subst h
              rw [if_neg (by omega), if_neg (by omega), if_pos rfl, if_pos (by omega),
                if_neg (by omega), if_neg (by omega), if_neg (by omega)]
              rfl
            · rw [if_neg (by omega), if_neg (by omega), if_neg (by omega), if_neg (by omega),
                if_neg (by omega), if_neg (by omega), if_neg (by omega)]
              simp
  have := hfm rows
  rw [if_neg (by omega), if_neg (by omega), if_neg (by omega)] at this
  rw [← this]
  exact List.flatMap_congr (fun p _ => hrow p)

/-- **C76** in exact arithmetic: at the western border of a plane that rises `d` per column, the sum of
differences is `-4 d`: half of that of the other cells. -/
theorem C76_plane_border {rows cols : Nat} {value : List ℚ} (a b d : ℚ)
    (hf : ∀ r < rows, ∀ c < cols, value[r * cols + c]? = some (a + b * r + d * c)) {i : Nat}
    (hi : i + 4 < rows) (hcols : 2 ≤ cols) :
    productSum ratOps (slopeTerms ratOps ratOps.averageOps (slopeKernelX ratOps) rows cols .skip value
        (i + 2) 0) = -4 * d := by
  obtain ⟨e1, _⟩ := C76_exact rows cols .skip value (i + 2) 0 _ rfl
  rw [e1]
  have hin : ∀ x y : Nat, x < rows → y < cols →
      surfaceAt rows cols .skip value (x : Int) (y : Int) = a + b * x + d * y := by
    intro x y h1 h2
    have := surfaceAt_valid (inp := .skip) (fun x y => a + b * x + d * y) (rows := rows) (cols := cols)
      (x := x) (y := y) h1 h2 (by simpa using hf x h1 y h2) (by simp [NoDataAt])
    simpa using this
  have hout : ∀ x : Nat, x + 2 < rows →
      surfaceAt rows cols .skip value ((x + 1 : Nat) : Int) (-1) = a + b * (x + 1) := by
    intro x hx
    unfold surfaceAt surface
    rw [if_neg (by omega)]
    unfold focalAverage
    rw [around_west [] (fun r => a + b * r) hcols hx
      (fun r _ h => by simpa using hf r (by omega) 0 (by omega))]
    simp [averageOf, NumOps.averageOps, ratOps]
    ring
  have i0 : ((i + 2 : Nat) : Int) - 1 = ((i + 1 : Nat) : Int) := by omega
  have i2 : ((i + 2 : Nat) : Int) + 1 = ((i + 3 : Nat) : Int) := by omega
  have j0 : ((0 : Nat) : Int) - 1 = -1 := by omega
  have j2 : ((0 : Nat) : Int) + 1 = ((1 : Nat) : Int) := by omega
  rw [i0, i2, j0, j2]
  rw [hin _ _ (show i + 1 < rows by omega) (show 1 < cols by omega),
    hin _ _ (show i + 2 < rows by omega) (show 1 < cols by omega),
    hin _ _ (show i + 3 < rows by omega) (show 1 < cols by omega),
    hout i (by omega), show i + 2 = (i + 1) + 1 from rfl, hout (i + 1) (by omega),
    show i + 3 = (i + 2) + 1 from rfl, hout (i + 2) (by omega)]
  push_cast
  ring

/-! Cases. -/

theorem intOps_weights : WeightsNotZero intOps := ⟨rfl, rfl⟩

theorem ratOps_weights : WeightsNotZero ratOps := by constructor <;> simp [ratOps]

/-- **C76** does not hold for rasters of two rows: cells that do not exist are read. -/
theorem C76_two_rows (o : Option (List (Cell Int))) :
    slope intOps (fun x _ => x * x) (fun x => -x) .sequential (2, 3) [1, 2, 3, 4, 5, 6] .skip true 1 1
      (2, 3) (freshCells 0 6) o ↔ o = none := by
  unfold slope
  refine fails_then (gives_assert (by simp)) (fails_then (gives_assert (by simp))
    (fails_andThen (fun o => ?_))) o
  have h : slopeConvolve intOps .sequential (slopeKernelX intOps) (2, 3) [1, 2, 3, 4, 5, 6] .skip true =
      Outcomes.one none := by
    simp only [slopeConvolve, convolveRun]
    refine congrArg Outcomes.one ?_
    decide +kernel
  rw [h]
  rfl

/-! A raster of 3 x 3 cells, one of which is no-data; the third cell of the result was masked beforehand
and keeps the value before the last step. Instead of the square root the opposite is taken here. -/
example : slope intOps (fun x _ => x * x) (fun x => -x) .sequential (3, 3)
    [1, 2, 4, 5, 7, 9, -9, 12, 20] isMinus9 true 2 3 (3, 3)
    [⟨0, false⟩, ⟨0, false⟩, ⟨0, true⟩, ⟨0, false⟩, ⟨0, false⟩, ⟨0, false⟩, ⟨7, false⟩,
      ⟨0, false⟩, ⟨0, false⟩]
    (some [⟨-29, false⟩, ⟨-72, false⟩, ⟨113, true⟩, ⟨-113, false⟩, ⟨-340, false⟩, ⟨-305, false⟩,
      ⟨7, true⟩, ⟨-356, false⟩, ⟨-136, false⟩]) := by
  refine .inr ⟨(), rfl, .inr ⟨(), rfl,
    .inr ⟨[⟨-3, false⟩, ⟨-12, false⟩, ⟨-14, false⟩, ⟨-14, false⟩, ⟨-23, false⟩, ⟨-14, false⟩,
      ⟨0, true⟩, ⟨-32, false⟩, ⟨-12, false⟩], ?_,
    .inr ⟨[⟨-2, false⟩, ⟨-6, false⟩, ⟨-7, false⟩, ⟨-7, false⟩, ⟨-12, false⟩, ⟨-7, false⟩,
      ⟨0, true⟩, ⟨-16, false⟩, ⟨-6, false⟩], ?_,
    .inr ⟨[⟨15, false⟩, ⟨20, false⟩, ⟨24, false⟩, ⟨26, false⟩, ⟨43, false⟩, ⟨50, false⟩,
      ⟨0, true⟩, ⟨32, false⟩, ⟨32, false⟩], ?_,
    .inr ⟨[⟨5, false⟩, ⟨6, false⟩, ⟨8, false⟩, ⟨8, false⟩, ⟨14, false⟩, ⟨16, false⟩, ⟨0, true⟩,
      ⟨10, false⟩, ⟨10, false⟩], ?_,
    .inr ⟨[⟨4, false⟩, ⟨36, false⟩, ⟨49, false⟩, ⟨49, false⟩, ⟨144, false⟩, ⟨49, false⟩,
      ⟨0, true⟩, ⟨256, false⟩, ⟨36, false⟩], ?_,
    .inr ⟨[⟨25, false⟩, ⟨36, false⟩, ⟨64, false⟩, ⟨64, false⟩, ⟨196, false⟩, ⟨256, false⟩,
      ⟨0, true⟩, ⟨100, false⟩, ⟨100, false⟩], ?_,
    .inr ⟨[⟨29, false⟩, ⟨72, false⟩, ⟨113, true⟩, ⟨113, false⟩, ⟨340, false⟩, ⟨305, false⟩,
      ⟨7, true⟩, ⟨356, false⟩, ⟨136, false⟩], ?_, ?_⟩⟩⟩⟩⟩⟩⟩⟩⟩ <;>
  · simp only [slopeConvolve, convolveRun, binaryRun, ownRun, Outcomes.one]
    decide +kernel

end Fern
