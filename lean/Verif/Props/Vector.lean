import Verif.Lemmas.VectorSteps
import Mathlib.Tactic.Linarith
import Mathlib.Tactic.Ring
import Mathlib.Tactic.FieldSimp
import Mathlib.Algebra.Order.Field.Rat
/-
Properties C74 (the Laplacian of a raster) and C75 (the Lax average of a raster).
-/
namespace Fern

open Spec

variable {F : Type}

theorem localCell_marked {A R : Type} {op : LocalOp A R} {nd : Prop} {a : A} {c c' : Cell R}
    (h : LocalCell op (markPolicy R true) nd a c c') :
    (c'.masked = false ↔ c.masked = false ∧ ¬ nd ∧ op.withinDomain a = true ∧
      op.withinRange a (op.compute a) = true) ∧
    (c'.masked = false → c'.val = op.compute a) ∧ (nd → c' = ⟨c.val, true⟩) := by
  by_cases hnd : nd
  · have := markPolicy_val (h.noData hnd)
    simp only [Bool.or_true] at this
    subst this
    simp [hnd]
  · cases hd : op.withinDomain a with
    | false =>
      have := markPolicy_val (h.outOfDomain hnd hd)
      simp only [Bool.or_true] at this
      subst this
      simp [hnd]
    | true =>
      cases hr : op.withinRange a (op.compute a) with
      | false =>
        have := markPolicy_val (h.outOfRange hnd hd hr)
        simp only [Bool.or_true] at this
        subst this
        simp [hnd]
      | true =>
        have := h.ok hnd hd hr
        subst this
        simp [hnd]

theorem convolvedCell_marked {V W A R : Type} {ops : ConvolveOps V W A R} {nd : Prop}
    {l : List (V × W)} {c c' : Cell R} (h : ConvolvedCell ops (markPolicy R true) nd l c c') :
    (c'.masked = false ↔ c.masked = false ∧ ¬ nd ∧ l ≠ [] ∧ ops.within (sums ops l) = true) ∧
    (c'.masked = false → c'.val = ops.normalize (sums ops l)) ∧
    (nd ∨ l = [] → c' = ⟨c.val, true⟩) := by
  by_cases hnd : nd
  · have := markPolicy_val (h.kept hnd)
    simp only [Bool.or_true] at this
    subst this
    simp [hnd]
  · by_cases hl : l = []
    · have := markPolicy_val (h.nothing hnd hl)
      simp only [Bool.or_true] at this
      subst this
      simp [hl]
    · cases hw : ops.within (sums ops l) with
      | false =>
        have := markPolicy_val (h.outOfRange hnd hw)
        simp only [Bool.or_true] at this
        subst this
        simp [hl, hnd]
      | true =>
        have := h.ok hnd hl hw
        subst this
        simp [hnd, hl]

theorem normalize_weights {n : NumOps F} {at20 : F → Bool} (hn : SmallInts n at20)
    {l : List (F × Int)} (hl : FromKernel l) :
    (n.convOps false false).normalize (sums (n.convOps false false)
      (l.map (fun vw => (n.ofInt 1, n.ofInt vw.2)))) = n.ofInt (weightSum l) := by
  have e1 := sums_weighted n false false (l.map (fun vw => (n.ofInt 1, vw.2)))
  rw [weightedSum_ones hn hl, List.map_map] at e1
  exact e1

theorem normalize_sum (n : NumOps F) (check : Bool) (l : List (F × Int)) :
    (n.convOps check false).normalize (sums (n.convOps check false)
      (l.map (fun vw => (vw.1, n.ofInt vw.2)))) = weightedSum n l :=
  sums_weighted n check false l

theorem within_sum (n : NumOps F) (div : Bool) (l : List (F × Int)) :
    (n.convOps true div).within (sums (n.convOps true div)
      (l.map (fun vw => (vw.1, n.ofInt vw.2)))) = n.finite (weightedSum n l) := by
  rw [← sums_weighted n true div l]
  rfl

/-- The weighted mean. -/
theorem normalize_mean {n : NumOps F} {at20 : F → Bool} (hn : SmallInts n at20)
    {l : List (F × Int)} (hl : FromKernel l) :
    (n.convOps true true).normalize (sums (n.convOps true true)
      (l.map (fun vw => (vw.1, n.ofInt vw.2)))) =
      n.div (weightedSum n l) (n.ofInt (weightSum l)) := by
  rw [← sums_weighted n true true l, ← sums_weights hn true true hl]
  rfl

theorem localCell_unmarked {A R : Type} {op : LocalOp A R} {p : Prop} {a : A} {x x' : Cell R}
    (h : LocalCell op (markPolicy R false) p a x x') (hnp : ¬ p) (hd : op.withinDomain a = true) :
    x' = ⟨op.compute a, x.masked⟩ := by
  cases hr : op.withinRange a (op.compute a) with
  | true => exact h.ok hnp hd hr
  | false => exact h.outOfRange hnp hd hr

/-! ### C74 -/

/-- **C74**: all runs give the same raster. A cell is valid if it was not masked before, its value and
at least one of its neighbours are valid, and no value gets out of range; its value is the Laplacian. The
other cells are masked; no-data cells and cells without valid neighbours keep their value. -/
theorem C74_laplacian {n : NumOps F} {at20 : F → Bool} (hn : SmallInts n at20) (rows cols : Nat)
    (hrows : 2 ≤ rows) (hcols : 2 ≤ cols) (value : List F) (hv : value.length = rows * cols)
    (inp : InPolicy F) (hp : PolicyFor inp (rows * cols)) (area : F)
    (result : List (Cell F)) (hres : result.length = rows * cols) :
    ∃ out, (∀ m : Execution, m.Ok → ∀ o,
        laplacian n at20 m (rows, cols) value inp true area (rows, cols) result o ↔ o = some out) ∧
      out.length = rows * cols ∧
      ∀ i < rows, ∀ j < cols, ∃ v c c', value[i * cols + j]? = some v ∧
        result[i * cols + j]? = some c ∧ out[i * cols + j]? = some c' ∧
        (c'.masked = false ↔ c.masked = false ∧ ¬ NoDataAt inp value (i * cols + j) ∧
          HasLaplacian n area v (vectorNeighbours rows cols inp value i j)) ∧
        (c'.masked = false →
          c'.val = laplacianValue n area v (vectorNeighbours rows cols inp value i j)) ∧
        (NoDataAt inp value (i * cols + j) ∨ vectorNeighbours rows cols inp value i j = [] →
          c'.val = c.val) := by
  obtain ⟨out, h1, h2, h3⟩ := laplacian_steps hn rows cols hrows hcols value hv inp hp true area
    result hres
  refine ⟨out, h1, h2, fun i hi j hj => ?_⟩
  obtain ⟨v, c, c1, s, u, c3, c', e1, e2, e3, st⟩ := h3 i hi j hj
  refine ⟨v, c, c', e1, e2, e3, ?_⟩
  have hfk := vectorNeighbours_fromKernel rows cols inp value i j
  generalize vectorNeighbours rows cols inp value i j = l at st hfk
  generalize NoDataAt inp value (i * cols + j) = nd at st
  obtain ⟨a1, a2, a3⟩ := convolvedCell_marked st.sum
  obtain ⟨b1, b2, b3⟩ := convolvedCell_marked st.weights
  obtain ⟨d1, d2, d3⟩ := localCell_marked st.product
  obtain ⟨f1, f2, f3⟩ := localCell_marked st.difference
  obtain ⟨g1, g2, g3⟩ := localCell_marked st.quotient
  rw [normalize_sum] at a2
  rw [within_sum] at a1
  rw [normalize_weights hn hfk] at b2
  simp only [NumOps.convOps, NumOps.mulOp, NumOps.subOp, NumOps.divOp, ne_eq, List.map_eq_nil_iff,
    Bool.not_false, Bool.true_or, and_true, true_and, Bool.not_eq_true', not_or,
    Bool.not_eq_true] at a1 a3 b1 b3 d1 d2 f1 f2 g1 g2
  refine ⟨⟨fun h => ?_, ?_⟩, fun h => ?_, fun h => ?_⟩
  · obtain ⟨m3, -, ga, gq⟩ := g1.1 h
    obtain ⟨ms, ⟨-, mu⟩, fd⟩ := f1.1 m3
    obtain ⟨m1, hnd, hl⟩ := b1.1 ms
    obtain ⟨mc, -, -, fs⟩ := a1.1 m1
    obtain ⟨-, fp⟩ := d1.1 mu
    rw [f2 m3, d2 mu, b2 ms, a2 m1] at gq
    rw [d2 mu, b2 ms, a2 m1] at fd
    rw [b2 ms] at fp
    exact ⟨mc, hnd, hl, ga, fs, fp, fd, gq⟩
  · rintro ⟨mc, hnd, hl, ga, fs, fp, fd, gq⟩
    have m1 := a1.2 ⟨mc, hnd, hl, fs⟩
    have ms := b1.2 ⟨m1, hnd, hl⟩
    have mu := d1.2 ⟨hnd, by rw [b2 ms]; exact fp⟩
    have m3 := f1.2 ⟨ms, ⟨ms, mu⟩, by rw [d2 mu, b2 ms, a2 m1]; exact fd⟩
    exact g1.2 ⟨m3, m3, ga, by rw [f2 m3, d2 mu, b2 ms, a2 m1]; exact gq⟩
  · obtain ⟨m3, -, ga, gq⟩ := g1.1 h
    obtain ⟨ms, ⟨-, mu⟩, fd⟩ := f1.1 m3
    obtain ⟨m1, hnd, hl⟩ := b1.1 ms
    rw [g2 h, f2 m3, d2 mu, b2 ms, a2 m1]
    rfl
  · have q1 := a3 h
    have q2 := b3 h
    have q3 := f3 (.inl (by rw [q2]))
    have q4 := g3 (by rw [q3])
    rw [q4, q3, q1]

/-- **C74**: without marking no-data, valid cells of a result that is not masked get the Laplacian
(which may be infinite, or not a number), if the weighted sum of the neighbours is within range. -/
theorem C74_unmarked {n : NumOps F} {at20 : F → Bool} (hn : SmallInts n at20) (rows cols : Nat)
    (hrows : 2 ≤ rows) (hcols : 2 ≤ cols) (value : List F) (hv : value.length = rows * cols)
    (inp : InPolicy F) (hp : PolicyFor inp (rows * cols)) (area : F)
    (result : List (Cell F)) (hres : result.length = rows * cols) :
    ∃ out, (∀ m : Execution, m.Ok → ∀ o,
        laplacian n at20 m (rows, cols) value inp false area (rows, cols) result o ↔ o = some out) ∧
      out.length = rows * cols ∧
      ∀ i < rows, ∀ j < cols, ∃ v c c', value[i * cols + j]? = some v ∧
        result[i * cols + j]? = some c ∧ out[i * cols + j]? = some c' ∧
        (c.masked = false → ¬ NoDataAt inp value (i * cols + j) → n.isZero area = false →
          vectorNeighbours rows cols inp value i j ≠ [] →
          n.finite (weightedSum n (vectorNeighbours rows cols inp value i j)) = true →
          c' = ⟨laplacianValue n area v (vectorNeighbours rows cols inp value i j), false⟩) ∧
        (c.masked = false → NoDataAt inp value (i * cols + j) → n.isZero area = false →
          c' = ⟨n.div (n.sub c.val (n.ofInt 0)) area, false⟩) := by
  obtain ⟨out, h1, h2, h3⟩ := laplacian_steps hn rows cols hrows hcols value hv inp hp false area
    result hres
  refine ⟨out, h1, h2, fun i hi j hj => ?_⟩
  obtain ⟨v, c, c1, s, u, c3, c', e1, e2, e3, st⟩ := h3 i hi j hj
  refine ⟨v, c, c', e1, e2, e3, ?_⟩
  have hfk := vectorNeighbours_fromKernel rows cols inp value i j
  generalize vectorNeighbours rows cols inp value i j = l at st hfk
  generalize NoDataAt inp value (i * cols + j) = nd at st
  constructor
  · intro mc hnd ha hl hs
    have q1 := st.sum.ok hnd (by simpa using hl) (by rw [within_sum]; exact hs)
    rw [normalize_sum, mc] at q1
    subst q1
    have q2 := st.weights.ok hnd (by simpa using hl) (by simp [NumOps.convOps])
    rw [normalize_weights hn hfk] at q2
    subst q2
    have q3 := localCell_unmarked st.product hnd rfl
    subst q3
    have q4 := localCell_unmarked st.difference (by simp) rfl
    subst q4
    exact localCell_unmarked st.quotient (by simp) (by simp [NumOps.divOp, ha])
  · intro mc hnd ha
    have q1 : c1 = c := st.sum.kept hnd
    subst q1
    have q2 : s = _ := st.weights.kept hnd
    subst q2
    have q3 : u = _ := st.product.noData hnd
    subst q3
    have q4 := localCell_unmarked st.difference (by simp [mc]) rfl
    subst q4
    have q5 := localCell_unmarked st.quotient (by simp [mc]) (by simp [NumOps.divOp, ha])
    rw [q5]
    simp [NumOps.divOp, NumOps.subOp, mc]

/-- **C74** does not hold for cells that were masked beforehand: although the value is valid, the
weighted sum of the neighbours is left in the cell, whatever the policies. -/
theorem C74_masked_before {n : NumOps F} {at20 : F → Bool} (hn : SmallInts n at20) (rows cols : Nat)
    (hrows : 2 ≤ rows) (hcols : 2 ≤ cols) (value : List F) (hv : value.length = rows * cols)
    (inp : InPolicy F) (hp : PolicyFor inp (rows * cols)) (mark : Bool) (area : F)
    (result : List (Cell F)) (hres : result.length = rows * cols) :
    ∃ out, (∀ m : Execution, m.Ok → ∀ o,
        laplacian n at20 m (rows, cols) value inp mark area (rows, cols) result o ↔ o = some out) ∧
      ∀ i < rows, ∀ j < cols, ∃ c c',
        result[i * cols + j]? = some c ∧ out[i * cols + j]? = some c' ∧
        (c.masked = true → ¬ NoDataAt inp value (i * cols + j) →
          vectorNeighbours rows cols inp value i j ≠ [] →
          n.finite (weightedSum n (vectorNeighbours rows cols inp value i j)) = true →
          c' = ⟨weightedSum n (vectorNeighbours rows cols inp value i j), true⟩) := by
  obtain ⟨out, h1, h2, h3⟩ := laplacian_steps hn rows cols hrows hcols value hv inp hp mark area
    result hres
  refine ⟨out, h1, fun i hi j hj => ?_⟩
  obtain ⟨v, c, c1, s, u, c3, c', e1, e2, e3, st⟩ := h3 i hi j hj
  refine ⟨c, c', e2, e3, fun mc hnd hl hs => ?_⟩
  have q1 := st.sum.ok hnd (by simpa using hl) (by rw [within_sum]; exact hs)
  rw [normalize_sum, mc] at q1
  have q2 := st.weights.ok hnd (by simpa using hl) (by simp [NumOps.convOps])
  rw [q1] at q2
  have hs' : s.masked = true := by rw [q2]
  have q4 := markPolicy_val (st.difference.noData (.inl hs'))
  have q5 := markPolicy_val (st.quotient.noData (by rw [q4]; simp [hs']))
  rw [q5, q4, q1]
  simp [hs']

/-- Rasters of at least two rows and columns without no-data have neighbours everywhere. -/
theorem vectorNeighbours_skip {rows cols : Nat} (hrows : 2 ≤ rows) (hcols : 2 ≤ cols)
    {value : List F} (hv : value.length = rows * cols) {i j : Nat} (hi : i < rows) (hj : j < cols) :
    vectorNeighbours rows cols .skip value i j ≠ [] := by
  intro h
  have hnone : ∀ d ∈ vectorOffsets, vectorNeighbour rows cols .skip value i j d = none :=
    List.filterMap_eq_nil_iff.1 h
  have key : ∀ d ∈ vectorOffsets, 0 ≤ (i : Int) + d.1 → (i : Int) + d.1 < rows →
      0 ≤ (j : Int) + d.2.1 → (j : Int) + d.2.1 < cols → False := by
    intro d hd a1 a2 a3 a4
    have h1 := hnone d hd
    unfold vectorNeighbour at h1
    rw [if_pos ⟨a1, a2, a3, a4, by simp [NoDataAt]⟩] at h1
    have hlt : ((i : Int) + d.1).toNat * cols + ((j : Int) + d.2.1).toNat < value.length := by
      rw [hv]; exact rowMajor_lt (by omega) (by omega)
    rw [List.getElem?_eq_getElem hlt] at h1
    simp at h1
  by_cases hi0 : i = 0
  · exact key (1, 0, 3) (by simp [vectorOffsets]) (by simp; omega) (by simp; omega) (by simp)
      (by simp; omega)
  · exact key (-1, 0, 3) (by simp [vectorOffsets]) (by simp; omega) (by simp; omega) (by simp)
      (by simp; omega)

/-- **C74**: rasters of different shapes are refused. -/
theorem C74_extents (n : NumOps F) (at20 : F → Bool) (m : Execution) (vs rs : Nat × Nat)
    (value : List F) (inp : InPolicy F) (mark : Bool) (area : F) (result : List (Cell F))
    (h : vs ≠ rs) (o : Option (List (Cell F))) :
    laplacian n at20 m vs value inp mark area rs result o ↔ o = none := by
  unfold laplacian
  by_cases h1 : vs.1 = rs.1
  · have h2 : vs.2 ≠ rs.2 := fun h2 => h (Prod.ext h1 h2)
    exact fails_then (gives_assert (by simp [h1]))
      (fails_andThen (fun o => by simp [Outcomes.one, assert', h2])) o
  · exact fails_andThen (fun o => by simp [Outcomes.one, assert', h1]) o

/-- **C74**: rasters of a single row or column (of less than 2^64 - 2 cells) are refused. -/
theorem C74_small (n : NumOps F) (at20 : F → Bool) (m : Execution) (rows cols : Nat)
    (value : List F) (inp : InPolicy F) (mark : Bool) (area : F) (result : List (Cell F))
    (hres : result.length = rows * cols) (hsize : rows * cols + 2 < 2 ^ 64)
    (h : rows < 2 ∨ cols < 2) (o : Option (List (Cell F))) :
    laplacian n at20 m (rows, cols) value inp mark area (rows, cols) result o ↔ o = none := by
  unfold laplacian
  refine fails_then (gives_assert (by simp)) (fails_then (gives_assert (by simp))
    (fails_andThen (fun o => ?_))) o
  cases m with
  | sequential =>
    simp only [convolveRun, Outcomes.one]
    rw [C52_small _ (by simpa [vectorArgs] using h) (by simpa [vectorArgs] using hsize)
      (by simpa [vectorArgs] using hres)]
  | parallel t =>
    simp only [convolveRun]
    rw [C52_small_parallel _ t _ (by rcases h with h | h <;> simp [vectorArgs, h])]
    simp [ParResult]

/-! Exact arithmetic. -/

/-- Exact numbers. -/
def ratOps : NumOps ℚ where
  ofInt := fun k => (k : ℚ)
  add := (· + ·)
  sub := (· - ·)
  mul := (· * ·)
  div := (· / ·)
  finite := fun _ => true
  isZero := fun x => decide (x = 0)

/-- `.. <= 20.0`. -/
def ratAtMost20 (x : ℚ) : Bool := decide (x ≤ 20)

theorem ratOps_small : SmallInts ratOps ratAtMost20 where
  oneMul := fun k _ _ => by simp [ratOps]
  add := fun a b _ _ _ => by simp [ratOps]
  isZero := fun k _ _ => by simp [ratOps]
  atMost := fun k _ h => by
    have : (k : ℚ) ≤ 20 := by exact_mod_cast h
    exact decide_eq_true this

theorem weightedSum_rat (l : List (ℚ × Int)) :
    weightedSum ratOps l = (l.map (fun vw => vw.1 * (vw.2 : ℚ))).sum := by
  have key : ∀ (l : List (ℚ × Int)) (s : ℚ),
      l.foldl (fun s vw => s + vw.1 * (vw.2 : ℚ)) s = s + (l.map (fun vw => vw.1 * (vw.2 : ℚ))).sum := by
    intro l
    induction l with
    | nil => intro s; simp
    | cons x l ih => intro s; rw [List.foldl_cons, ih, List.map_cons, List.sum_cons]; ring
  have := key l 0
  simpa [weightedSum, ratOps] using this

/-- **C74**: the weights of the valid neighbours are 2 and 3, and their sum is at most 20, with equality iff
all eight neighbours are valid. -/
theorem C74_weights (rows cols : Nat) (inp : InPolicy F) (value : List F) (i j : Nat) :
    (∀ vw ∈ vectorNeighbours rows cols inp value i j, vw.2 = 2 ∨ vw.2 = 3) ∧
    weightSum (vectorNeighbours rows cols inp value i j) ≤ 20 ∧
    (weightSum (vectorNeighbours rows cols inp value i j) = 20 ↔
      (vectorNeighbours rows cols inp value i j).length = 8) := by
  have h := vectorNeighbours_weights rows cols inp value i j
  have hk := vectorNeighbours_fromKernel rows cols inp value i j
  have hm : ∀ vw ∈ vectorNeighbours rows cols inp value i j, vw.2 = 2 ∨ vw.2 = 3 := by
    intro vw hvw
    have := h.subset (List.mem_map_of_mem (f := Prod.snd) hvw)
    simp at this
    omega
  refine ⟨hm, hk.2, ?_⟩
  unfold weightSum
  rw [← List.length_map (f := Prod.snd)]
  generalize (vectorNeighbours rows cols inp value i j).map Prod.snd = l at h
  constructor
  · intro hs
    have key : ∀ {a b : List Int}, a.Sublist b → (∀ x ∈ b, 0 < x) →
        a.sum ≤ b.sum ∧ (a.sum = b.sum → a.length = b.length) := by
      intro a b hab
      induction hab with
      | slnil => simp
      | cons x _ ih =>
          intro hp
          have h1 := ih fun y hy => hp y (List.mem_cons_of_mem _ hy)
          have h2 := hp x List.mem_cons_self
          simp only [List.sum_cons, List.length_cons]
          exact ⟨by omega, fun he => by omega⟩
      | cons_cons x _ ih =>
          intro hp
          have h1 := ih fun y hy => hp y (List.mem_cons_of_mem _ hy)
          simp only [List.sum_cons, List.length_cons]
          exact ⟨by omega, fun he => by have := h1.2 (by omega); omega⟩
    exact (key h (by simp)).2 (by rw [hs]; rfl)
  · intro hl
    rw [h.eq_of_length (by simpa using hl)]
    rfl

/-- **C74** in exact arithmetic: the weighted sum of the differences with the neighbours, divided by
the area. -/
theorem C74_exact (area v : ℚ) (l : List (ℚ × Int)) :
    laplacianValue ratOps area v l = (l.map (fun vw => vw.2 * (vw.1 - v))).sum / area := by
  have : weightedSum ratOps l - (weightSum l : ℚ) * v = (l.map (fun vw => vw.2 * (vw.1 - v))).sum := by
    rw [weightedSum_rat]
    induction l with
    | nil => simp [weightSum]
    | cons x l ih =>
      rw [weightSum_cons, List.map_cons, List.map_cons, List.sum_cons, List.sum_cons, ← ih]
      push_cast
      ring
  rw [← this]
  rfl

theorem sum_map_zero {α : Type} {l : List α} {f : α → ℚ} (h : ∀ x ∈ l, f x = 0) :
    (l.map f).sum = 0 := by
  induction l with
  | nil => rfl
  | cons x l ih =>
    rw [List.map_cons, List.sum_cons, h x (by simp), ih (fun y hy => h y (by simp [hy])), add_zero]

/-- **C74** in exact arithmetic: the Laplacian of a cell whose neighbours have the same value is 0. -/
theorem C74_constant (area v : ℚ) (l : List (ℚ × Int)) (h : ∀ vw ∈ l, vw.1 = v) :
    laplacianValue ratOps area v l = 0 := by
  rw [C74_exact, sum_map_zero (fun vw hvw => by rw [h vw hvw, sub_self, mul_zero]), zero_div]

/-- **C74** in exact arithmetic: a cell whose value is at least that of its neighbours has a Laplacian
that is not positive, a negative one if one of the neighbours has a smaller value. -/
theorem C74_maximum {area v : ℚ} (ha : 0 < area) {l : List (ℚ × Int)}
    (hw : ∀ vw ∈ l, 0 < vw.2) (h : ∀ vw ∈ l, vw.1 ≤ v) :
    laplacianValue ratOps area v l ≤ 0 ∧
      ((∃ vw ∈ l, vw.1 < v) → laplacianValue ratOps area v l < 0) := by
  rw [C74_exact]
  have key : (l.map (fun vw => (vw.2 : ℚ) * (vw.1 - v))).sum ≤ 0 ∧
      ((∃ vw ∈ l, vw.1 < v) → (l.map (fun vw => (vw.2 : ℚ) * (vw.1 - v))).sum < 0) := by
    induction l with
    | nil => simp
    | cons x l ih =>
      obtain ⟨i1, i2⟩ := ih (fun vw hvw => hw vw (by simp [hvw])) (fun vw hvw => h vw (by simp [hvw]))
      have hx : (0 : ℚ) < (x.2 : ℚ) := by exact_mod_cast hw x (by simp)
      have hxv := h x (by simp)
      have hterm : (x.2 : ℚ) * (x.1 - v) ≤ 0 :=
        mul_nonpos_of_nonneg_of_nonpos hx.le (by linarith)
      rw [List.map_cons, List.sum_cons]
      refine ⟨by linarith, ?_⟩
      rintro ⟨vw, hvw, hlt⟩
      rcases List.mem_cons.1 hvw with rfl | hvw
      · have : (vw.2 : ℚ) * (vw.1 - v) < 0 := mul_neg_of_pos_of_neg hx (by linarith)
        linarith
      · have := i2 ⟨vw, hvw, hlt⟩
        linarith
  exact ⟨div_nonpos_of_nonpos_of_nonneg key.1 ha.le, fun hex => by rw [div_lt_iff₀ ha, zero_mul]; exact key.2 hex⟩

/-- The neighbours of an inner cell. -/
theorem vectorNeighbours_inner {rows cols : Nat} {value : List F} (f : Nat → Nat → F)
    (hf : ∀ r < rows, ∀ c < cols, value[r * cols + c]? = some (f r c)) {i j : Nat}
    (hi : i + 2 < rows) (hj : j + 2 < cols) :
    vectorNeighbours rows cols .skip value (i + 1) (j + 1) =
      [(f i j, 2), (f i (j + 1), 3), (f i (j + 2), 2), (f (i + 1) j, 3), (f (i + 1) (j + 2), 3),
        (f (i + 2) j, 2), (f (i + 2) (j + 1), 3), (f (i + 2) (j + 2), 2)] := by
  have key : ∀ (p q : Nat) (d : Int × Int × Int), p < rows → q < cols →
      ((i + 1 : Nat) : Int) + d.1 = p → ((j + 1 : Nat) : Int) + d.2.1 = q →
      vectorNeighbour rows cols .skip value (i + 1) (j + 1) d = some (f p q, d.2.2) := by
    intro p q d hp hq e1 e2
    unfold vectorNeighbour
    rw [e1, e2, if_pos ⟨by omega, by omega, by omega, by omega, by simp [NoDataAt]⟩, Int.toNat_natCast,
      Int.toNat_natCast, hf p hp q hq]
    rfl
  unfold vectorNeighbours vectorOffsets
  rw [List.filterMap_cons_some (key i j _ (by omega) (by omega) (by push_cast; ring) (by push_cast; ring)),
    List.filterMap_cons_some (key i (j + 1) _ (by omega) (by omega) (by push_cast; ring) (by push_cast; ring)),
    List.filterMap_cons_some (key i (j + 2) _ (by omega) (by omega) (by push_cast; ring) (by push_cast; ring)),
    List.filterMap_cons_some (key (i + 1) j _ (by omega) (by omega) (by push_cast; ring) (by push_cast; ring)),
    List.filterMap_cons_some (key (i + 1) (j + 2) _ (by omega) (by omega) (by push_cast; ring) (by push_cast; ring)),
    List.filterMap_cons_some (key (i + 2) j _ (by omega) (by omega) (by push_cast; ring) (by push_cast; ring)),
    List.filterMap_cons_some (key (i + 2) (j + 1) _ (by omega) (by omega) (by push_cast; ring) (by push_cast; ring)),
    List.filterMap_cons_some (key (i + 2) (j + 2) _ (by omega) (by omega) (by push_cast; ring) (by push_cast; ring)),
    List.filterMap_nil]

/-- **C74** in exact arithmetic: the Laplacian of a plane is 0 at all cells that are not at the border. -/
theorem C74_plane {rows cols : Nat} {value : List ℚ} (a b d area : ℚ)
    (hf : ∀ r < rows, ∀ c < cols, value[r * cols + c]? = some (a + b * r + d * c)) {i j : Nat}
    (hi : i + 2 < rows) (hj : j + 2 < cols) :
    laplacianValue ratOps area (a + b * (i + 1 : Nat) + d * (j + 1 : Nat))
      (vectorNeighbours rows cols .skip value (i + 1) (j + 1)) = 0 := by
  rw [vectorNeighbours_inner (fun r c => a + b * r + d * c) hf hi hj, C74_exact]
  simp only [List.map_cons, List.map_nil, List.sum_cons, List.sum_nil]
  push_cast
  rw [div_eq_zero_iff]
  left
  ring

/-- **C74** in exact arithmetic: at the inner cells of a paraboloid `b * row^2 + d * column^2`, the
Laplacian is 14 (b + d) / area. -/
theorem C74_paraboloid {rows cols : Nat} {value : List ℚ} (b d area : ℚ)
    (hf : ∀ r < rows, ∀ c < cols, value[r * cols + c]? = some (b * (r : ℚ) ^ 2 + d * (c : ℚ) ^ 2))
    {i j : Nat} (hi : i + 2 < rows) (hj : j + 2 < cols) :
    laplacianValue ratOps area (b * ((i + 1 : Nat) : ℚ) ^ 2 + d * ((j + 1 : Nat) : ℚ) ^ 2)
      (vectorNeighbours rows cols .skip value (i + 1) (j + 1)) = 14 * (b + d) / area := by
  rw [vectorNeighbours_inner (fun r c => b * (r : ℚ) ^ 2 + d * (c : ℚ) ^ 2) hf hi hj, C74_exact]
  simp only [List.map_cons, List.map_nil, List.sum_cons, List.sum_nil]
  push_cast
  congr 1
  ring

/-! A raster of 2 x 3 cells, the last of which is no-data; the third cell of the result was masked
before. Integers, division rounds down. -/

/-- Integers. -/
def intOps : NumOps Int where
  ofInt := id
  add := (· + ·)
  sub := (· - ·)
  mul := (· * ·)
  div := (· / ·)
  finite := fun x => decide (x.natAbs < 1000)
  isZero := fun x => decide (x = 0)

theorem intOps_small : SmallInts intOps (fun x => decide (x ≤ 20)) where
  oneMul := fun k _ _ => by simp [intOps]
  add := fun a b _ _ _ => by simp [intOps]
  isZero := fun k _ _ => by simp [intOps]
  atMost := fun k _ h => decide_eq_true h

/-- -9 is no-data. -/
def isMinus9 : InPolicy Int := .detect (fun v => decide (v = -9))

example : laplacian intOps (fun x => decide (x ≤ 20)) .sequential (2, 3) [1, 2, 3, 4, 5, -9] isMinus9
    true 2 (2, 3) [⟨0, false⟩, ⟨0, false⟩, ⟨0, true⟩, ⟨0, false⟩, ⟨0, false⟩, ⟨7, false⟩]
    (some [⟨10, false⟩, ⟨6, false⟩, ⟨16, true⟩, ⟨-5, false⟩, ⟨-12, false⟩, ⟨7, true⟩]) := by
  refine .inr ⟨(), rfl, .inr ⟨(), rfl, .inr ⟨[⟨28, false⟩, ⟨35, false⟩, ⟨16, true⟩, ⟨22, false⟩,
    ⟨26, false⟩, ⟨7, true⟩], ?_, .inr ⟨[⟨1, false⟩, ⟨1, false⟩, ⟨1, false⟩, ⟨1, false⟩, ⟨1, false⟩,
    ⟨0, false⟩], ?_, .inr ⟨[⟨1, false⟩, ⟨1, false⟩, ⟨1, false⟩, ⟨1, false⟩, ⟨1, false⟩,
    ⟨0, false⟩], ?_, .inr ⟨[⟨8, false⟩, ⟨11, false⟩, ⟨5, true⟩, ⟨8, false⟩, ⟨10, false⟩, ⟨0, true⟩],
    ?_, .inr ⟨(), rfl, .inr ⟨[⟨8, false⟩, ⟨22, false⟩, ⟨15, false⟩, ⟨32, false⟩, ⟨50, false⟩,
    ⟨0, true⟩], ?_, .inr ⟨[⟨20, false⟩, ⟨13, false⟩, ⟨16, true⟩, ⟨-10, false⟩, ⟨-24, false⟩,
    ⟨7, true⟩], ?_, ?_⟩⟩⟩⟩⟩⟩⟩⟩⟩ <;>
  · simp only [convolveRun, definedRun, unaryRun, binaryRun, ownRun, Outcomes.one]
    decide +kernel

/-! ### C75 -/

/-- **C75**: all runs give the same raster. A cell is valid if it was not masked before, its value and
at least one of its neighbours are valid, and no value gets out of range; its value is the Lax average.
The other cells are masked. -/
theorem C75_lax {n : NumOps F} {at20 : F → Bool} (hn : SmallInts n at20) (rows cols : Nat)
    (hrows : 2 ≤ rows) (hcols : 2 ≤ cols) (value : List F) (hv : value.length = rows * cols)
    (inp : InPolicy F) (hp : PolicyFor inp (rows * cols)) (fraction oneMinus : F)
    (result : List (Cell F)) (hres : result.length = rows * cols) :
    ∃ out, (∀ m : Execution, m.Ok → ∀ o,
        lax n m (rows, cols) value inp true fraction oneMinus (rows, cols) result o ↔ o = some out) ∧
      out.length = rows * cols ∧
      ∀ i < rows, ∀ j < cols, ∃ v c c', value[i * cols + j]? = some v ∧
        result[i * cols + j]? = some c ∧ out[i * cols + j]? = some c' ∧
        (c'.masked = false ↔ c.masked = false ∧ ¬ NoDataAt inp value (i * cols + j) ∧
          HasLax n fraction oneMinus v (vectorNeighbours rows cols inp value i j)) ∧
        (c'.masked = false →
          c'.val = laxValue n fraction oneMinus v (vectorNeighbours rows cols inp value i j)) ∧
        (NoDataAt inp value (i * cols + j) → c'.val = c.val) := by
  obtain ⟨out, h1, h2, h3⟩ := lax_steps hn rows cols hrows hcols value hv inp hp true fraction
    oneMinus result hres
  refine ⟨out, h1, h2, fun i hi j hj => ?_⟩
  obtain ⟨v, c, c1, c2, u, c', e1, e2, e3, st⟩ := h3 i hi j hj
  refine ⟨v, c, c', e1, e2, e3, ?_⟩
  have hfk := vectorNeighbours_fromKernel rows cols inp value i j
  generalize vectorNeighbours rows cols inp value i j = l at st hfk
  generalize NoDataAt inp value (i * cols + j) = nd at st
  obtain ⟨a1, a2, a3⟩ := convolvedCell_marked st.mean
  obtain ⟨b1, b2, b3⟩ := localCell_marked st.right
  obtain ⟨d1, d2, d3⟩ := localCell_marked st.left
  obtain ⟨f1, f2, f3⟩ := localCell_marked st.sum
  rw [within_sum] at a1
  rw [normalize_mean hn hfk] at a2
  simp only [NumOps.mulOp, NumOps.addOp, ne_eq, List.map_eq_nil_iff,
    true_and] at a1 a3 b1 b2 d1 d2 f1 f2
  refine ⟨⟨fun h => ?_, ?_⟩, fun h => ?_, fun h => ?_⟩
  · obtain ⟨mu, hnd, fv⟩ := f1.1 h
    obtain ⟨m2, -, fl⟩ := d1.1 mu
    obtain ⟨m1, -, fr⟩ := b1.1 m2
    obtain ⟨mc, -, hl, fs⟩ := a1.1 m1
    rw [d2 mu, b2 m2, a2 m1] at fv
    rw [a2 m1] at fr
    exact ⟨mc, hnd, hl, fs, fl, fr, fv⟩
  · rintro ⟨mc, hnd, hl, fs, fl, fr, fv⟩
    have m1 := a1.2 ⟨mc, hnd, hl, fs⟩
    have m2 := b1.2 ⟨m1, hnd, by rw [a2 m1]; exact fr⟩
    have mu := d1.2 ⟨m2, hnd, fl⟩
    exact f1.2 ⟨mu, hnd, by rw [d2 mu, b2 m2, a2 m1]; exact fv⟩
  · obtain ⟨mu, hnd, fv⟩ := f1.1 h
    obtain ⟨m2, -, fl⟩ := d1.1 mu
    obtain ⟨m1, -, fr⟩ := b1.1 m2
    rw [f2 h, d2 mu, b2 m2, a2 m1]
    rfl
  · rw [f3 h, b3 h, a3 (.inl h)]

/-- **C75**: without marking no-data, valid cells with valid neighbours get the Lax average (which may
be infinite, or not a number), if the weighted sum of the neighbours is within range; masks are left
as they are. No-data cells keep their value. -/
theorem C75_unmarked {n : NumOps F} {at20 : F → Bool} (hn : SmallInts n at20) (rows cols : Nat)
    (hrows : 2 ≤ rows) (hcols : 2 ≤ cols) (value : List F) (hv : value.length = rows * cols)
    (inp : InPolicy F) (hp : PolicyFor inp (rows * cols)) (fraction oneMinus : F)
    (result : List (Cell F)) (hres : result.length = rows * cols) :
    ∃ out, (∀ m : Execution, m.Ok → ∀ o,
        lax n m (rows, cols) value inp false fraction oneMinus (rows, cols) result o ↔ o = some out) ∧
      out.length = rows * cols ∧
      ∀ i < rows, ∀ j < cols, ∃ v c c', value[i * cols + j]? = some v ∧
        result[i * cols + j]? = some c ∧ out[i * cols + j]? = some c' ∧
        (¬ NoDataAt inp value (i * cols + j) →
          vectorNeighbours rows cols inp value i j ≠ [] →
          n.finite (weightedSum n (vectorNeighbours rows cols inp value i j)) = true →
          c' = ⟨laxValue n fraction oneMinus v (vectorNeighbours rows cols inp value i j), c.masked⟩) ∧
        (NoDataAt inp value (i * cols + j) → c' = c) := by
  obtain ⟨out, h1, h2, h3⟩ := lax_steps hn rows cols hrows hcols value hv inp hp false fraction
    oneMinus result hres
  refine ⟨out, h1, h2, fun i hi j hj => ?_⟩
  obtain ⟨v, c, c1, c2, u, c', e1, e2, e3, st⟩ := h3 i hi j hj
  refine ⟨v, c, c', e1, e2, e3, ?_⟩
  have hfk := vectorNeighbours_fromKernel rows cols inp value i j
  generalize vectorNeighbours rows cols inp value i j = l at st hfk
  generalize NoDataAt inp value (i * cols + j) = nd at st
  constructor
  · intro hnd hl hs
    have q1 := st.mean.ok hnd (by simpa using hl) (by rw [within_sum]; exact hs)
    rw [normalize_mean hn hfk] at q1
    subst q1
    have q2 := localCell_unmarked st.right hnd rfl
    subst q2
    have q3 := localCell_unmarked st.left hnd rfl
    subst q3
    exact localCell_unmarked st.sum hnd rfl
  · intro hnd
    have q1 : c1 = c := st.mean.kept hnd
    have q2 : c2 = c1 := st.right.noData hnd
    have q3 : u = _ := st.left.noData hnd
    have q4 : c' = _ := st.sum.noData hnd
    rw [q4, q3, q2, q1]

/-- **C75** in exact arithmetic: the average of the value and of the weighted mean of its
neighbours. -/
theorem C75_exact (f v : ℚ) (l : List (ℚ × Int)) :
    laxValue ratOps f (1 - f) v l =
      (1 - f) * v + f * ((l.map (fun vw => vw.1 * (vw.2 : ℚ))).sum / (weightSum l : ℚ)) := by
  rw [← weightedSum_rat]
  rfl

/-- **C75** in exact arithmetic: a fraction of 0 leaves the value as it is, a fraction of 1 replaces it
by the weighted mean of the neighbours. -/
theorem C75_fractions (v : ℚ) (l : List (ℚ × Int)) :
    laxValue ratOps 0 (1 - 0) v l = v ∧ laxValue ratOps 1 (1 - 1) v l =
      (l.map (fun vw => vw.1 * (vw.2 : ℚ))).sum / (weightSum l : ℚ) := by
  rw [C75_exact, C75_exact]
  constructor <;> ring

/-- **C75** in exact arithmetic: for fractions between 0 and 1, no new extremes are introduced. -/
theorem C75_bounds {f v lo hi : ℚ} (h0 : 0 ≤ f) (h1 : f ≤ 1) {l : List (ℚ × Int)}
    (hw : ∀ vw ∈ l, 0 < vw.2) (hl : l ≠ []) (hv : lo ≤ v ∧ v ≤ hi)
    (h : ∀ vw ∈ l, lo ≤ vw.1 ∧ vw.1 ≤ hi) :
    lo ≤ laxValue ratOps f (1 - f) v l ∧ laxValue ratOps f (1 - f) v l ≤ hi := by
  have hpos : (0 : ℚ) < (weightSum l : ℚ) := by exact_mod_cast weightSum_pos hw hl
  have key : ∀ l : List (ℚ × Int), (∀ vw ∈ l, 0 < vw.2) → (∀ vw ∈ l, lo ≤ vw.1 ∧ vw.1 ≤ hi) →
      lo * (weightSum l : ℚ) ≤ (l.map (fun vw => vw.1 * (vw.2 : ℚ))).sum ∧
      (l.map (fun vw => vw.1 * (vw.2 : ℚ))).sum ≤ hi * (weightSum l : ℚ) := by
    intro l
    induction l with
    | nil => intro _ _; simp [weightSum]
    | cons x l ih =>
      intro hw h
      obtain ⟨i1, i2⟩ := ih (fun vw hvw => hw vw (by simp [hvw])) (fun vw hvw => h vw (by simp [hvw]))
      have hx : (0 : ℚ) ≤ (x.2 : ℚ) := by exact_mod_cast (hw x (by simp)).le
      obtain ⟨b1, b2⟩ := h x (by simp)
      have := mul_le_mul_of_nonneg_right b1 hx
      have := mul_le_mul_of_nonneg_right b2 hx
      rw [weightSum_cons, List.map_cons, List.sum_cons]
      push_cast
      constructor <;> nlinarith
  obtain ⟨k1, k2⟩ := key l hw h
  have m1 := (le_div_iff₀ hpos).2 k1
  have m2 := (div_le_iff₀ hpos).2 k2
  rw [C75_exact]
  generalize (l.map (fun vw => vw.1 * (vw.2 : ℚ))).sum / (weightSum l : ℚ) = m at m1 m2 ⊢
  have h1' : 0 ≤ 1 - f := by linarith
  have := mul_le_mul_of_nonneg_left hv.1 h1'
  have := mul_le_mul_of_nonneg_left hv.2 h1'
  have := mul_le_mul_of_nonneg_left m1 h0
  have := mul_le_mul_of_nonneg_left m2 h0
  constructor <;> linarith

/-- **C75**: rasters of different shapes are refused. -/
theorem C75_extents (n : NumOps F) (m : Execution) (vs rs : Nat × Nat)
    (value : List F) (inp : InPolicy F) (mark : Bool) (fraction oneMinus : F) (result : List (Cell F))
    (h : vs ≠ rs) (o : Option (List (Cell F))) :
    lax n m vs value inp mark fraction oneMinus rs result o ↔ o = none := by
  unfold lax
  by_cases h1 : vs.1 = rs.1
  · have h2 : vs.2 ≠ rs.2 := fun h2 => h (Prod.ext h1 h2)
    exact fails_then (gives_assert (by simp [h1]))
      (fails_andThen (fun o => by simp [Outcomes.one, assert', h2])) o
  · exact fails_andThen (fun o => by simp [Outcomes.one, assert', h1]) o

/-- **C75**: rasters of a single row or column (of less than 2^64 - 2 cells) are refused. -/
theorem C75_small (n : NumOps F) (m : Execution) (rows cols : Nat)
    (value : List F) (inp : InPolicy F) (mark : Bool) (fraction oneMinus : F) (result : List (Cell F))
    (hres : result.length = rows * cols) (hsize : rows * cols + 2 < 2 ^ 64)
    (h : rows < 2 ∨ cols < 2) (o : Option (List (Cell F))) :
    lax n m (rows, cols) value inp mark fraction oneMinus (rows, cols) result o ↔ o = none := by
  unfold lax
  refine fails_then (gives_assert (by simp)) (fails_then (gives_assert (by simp))
    (fails_andThen (fun o => ?_))) o
  cases m with
  | sequential =>
    simp only [convolveRun, Outcomes.one]
    rw [C52_small _ (by simpa [vectorArgs] using h) (by simpa [vectorArgs] using hsize)
      (by simpa [vectorArgs] using hres)]
  | parallel t =>
    simp only [convolveRun]
    rw [C52_small_parallel _ t _ (by rcases h with h | h <;> simp [vectorArgs, h])]
    simp [ParResult]

example : lax intOps .sequential (2, 3) [1, 2, 3, 4, 5, -9] isMinus9
    true 3 (-2) (2, 3) [⟨0, false⟩, ⟨0, false⟩, ⟨0, true⟩, ⟨0, false⟩, ⟨0, false⟩, ⟨7, false⟩]
    (some [⟨7, false⟩, ⟨5, false⟩, ⟨3, true⟩, ⟨-2, false⟩, ⟨-4, false⟩, ⟨7, true⟩]) := by
  refine .inr ⟨(), rfl, .inr ⟨(), rfl, .inr ⟨[⟨3, false⟩, ⟨3, false⟩, ⟨3, true⟩, ⟨2, false⟩,
    ⟨2, false⟩, ⟨7, true⟩], ?_, .inr ⟨[⟨9, false⟩, ⟨9, false⟩, ⟨9, true⟩, ⟨6, false⟩,
    ⟨6, false⟩, ⟨7, true⟩], ?_, .inr ⟨[⟨-2, false⟩, ⟨-4, false⟩, ⟨-6, true⟩, ⟨-8, false⟩,
    ⟨-10, false⟩, ⟨0, true⟩], ?_, ?_⟩⟩⟩⟩⟩ <;>
  · simp only [convolveRun, binary0d2dRun, ownRun, Outcomes.one]
    decide +kernel

end Fern
