import Verif.Lemmas.Smooth
import Verif.Props.Kernel
/-
Property C110: what one expects of weighted means of neighbourhoods holds.
-/
namespace Fern.Smooth

open Fern.Spec

variable {V W A R : Type}

/-- The convolution of an image, skipping what is missing. -/
def Convolved (ops : ConvolveOps V W A R) (a : ConvolveArgs V W) (keep : Bool) (outp : OutPolicy R)
    (res result : List (Cell R)) : Prop :=
  convolveSequential ops a (skipPolicy V keep) outp (innerPart ops a (skipPolicy V keep) outp) res = some result

/-- **C110**, any arithmetic: the result in a cell depends on what is below the kernel only. If two images (of whatever
sizes) look alike around two cells, these cells get the same result. -/
theorem C110_local (ops : ConvolveOps V W A R) {a b : ConvolveArgs V W} (keep : Bool) (outp : OutPolicy R)
    (ha : ArgsOk a) (hb : ArgsOk b) {res res' result result' : List (Cell R)}
    (hres : res.length = a.rows * a.cols) (hres' : res'.length = b.rows * b.cols)
    (h : Convolved ops a keep outp res result) (h' : Convolved ops b keep outp res' result')
    {i j i' j' : Nat} (hi : i < a.rows) (hj : j < a.cols) (hi' : i' < b.rows) (hj' : j' < b.cols)
    (halike : Alike a b i j i' j') (hsame : res'[i' * b.cols + j']? = res[i * a.cols + j]?) :
    result'[i' * b.cols + j']? = result[i * a.cols + j]? := by
  obtain ⟨r, hr, _, hcells, _⟩ := C53_skip ops keep outp ha hres
  obtain ⟨r', hr', _, hcells', _⟩ := C53_skip ops keep outp hb hres'
  unfold Convolved at h h'
  rw [hr] at h
  rw [hr'] at h'
  cases h
  cases h'
  obtain ⟨c, c1, hc, hc1, hcell⟩ := hcells i hi j hj
  obtain ⟨d, d1, hd, hd1, hcell'⟩ := hcells' i' hi' j' hj'
  rw [hc1, hd1]
  rw [hc, hd] at hsame
  cases hsame
  simp only [neighbourhood_alike halike] at hcell'
  have hk : NoDataAt b.noData b.source (i' * b.cols + j') ↔ NoDataAt a.noData a.source (i * a.cols + j) := by
    have := halike.noData _ (kernelCells_focus _) (inImage_focus hi hj)
    rw [below_focus, below_focus] at this
    exact this
  rw [hk] at hcell'
  rw [convolvedCell_unique hcell hcell']

/-- The result in a cell that gets a value. -/
theorem value_of {a : ConvolveArgs ℚ ℚ} {keep : Bool} {outp : OutPolicy ℚ} (ha : ArgsOk a)
    {res result : List (Cell ℚ)} (hres : res.length = a.rows * a.cols) (h : Convolved meanOps a keep outp res result)
    {i j : Nat} (hi : i < a.rows) (hj : j < a.cols) (hv : GetsValue a keep i j) :
    ∃ c, res[i * a.cols + j]? = some c ∧ result[i * a.cols + j]? = some ⟨mean (neighbourhood a i j), c.masked⟩ := by
  obtain ⟨r, hr, hcells⟩ := C53_weighted_mean keep outp ha hres
  unfold Convolved at h
  rw [hr] at h
  cases h
  obtain ⟨c, c', hc, hc', _, _, hm⟩ := hcells i hi j hj
  refine ⟨c, hc, ?_⟩
  rw [hc', hm hv.1 hv.2]
  rfl

/-- **C110**: if no weight is negative, the result is between the smallest and the largest valid value. -/
theorem C110_range {a : ConvolveArgs ℚ ℚ} {keep : Bool} {outp : OutPolicy ℚ} (ha : ArgsOk a)
    {res result : List (Cell ℚ)} (hres : res.length = a.rows * a.cols) (h : Convolved meanOps a keep outp res result)
    (hw : ∀ w ∈ a.weights, 0 ≤ w) {lo hi : ℚ}
    (hv : ∀ k v, a.source[k]? = some v → ¬ NoDataAt a.noData a.source k → lo ≤ v ∧ v ≤ hi)
    {i j : Nat} (hi' : i < a.rows) (hj : j < a.cols) (hg : GetsValue a keep i j) :
    ∃ c, result[i * a.cols + j]? = some c ∧ lo ≤ c.val ∧ c.val ≤ hi := by
  obtain ⟨c, _, hc'⟩ := value_of ha hres h hi' hj hg
  refine ⟨_, hc', mean_bounds ?_ hg.2 ?_⟩
  · rintro ⟨v, w⟩ hvw
    obtain ⟨pq, _, hn⟩ := mem_neighbourhood hvw
    exact hw w (List.mem_of_getElem? (neighbour_some hn).2.2.2)
  · rintro ⟨v, w⟩ hvw
    obtain ⟨pq, _, hn⟩ := mem_neighbourhood hvw
    obtain ⟨_, h2, h3, _⟩ := neighbour_some hn
    exact hv _ v h3 h2

/-- **C110**: where all valid values are the same, the result is that value, whatever the weights (their sum is not
zero). -/
theorem C110_constant {a : ConvolveArgs ℚ ℚ} {keep : Bool} {outp : OutPolicy ℚ} (ha : ArgsOk a)
    {res result : List (Cell ℚ)} (hres : res.length = a.rows * a.cols) (h : Convolved meanOps a keep outp res result)
    {v : ℚ} (hv : ∀ k x, a.source[k]? = some x → ¬ NoDataAt a.noData a.source k → x = v)
    {i j : Nat} (hi : i < a.rows) (hj : j < a.cols) (hg : GetsValue a keep i j) (hs : allWeights a i j ≠ 0) :
    ∃ c, result[i * a.cols + j]? = some c ∧ c.val = v := by
  obtain ⟨c, _, hc'⟩ := value_of ha hres h hi hj hg
  refine ⟨_, hc', mean_const hs ?_⟩
  rintro ⟨x, w⟩ hvw
  obtain ⟨pq, _, hn⟩ := mem_neighbourhood hvw
  obtain ⟨_, h2, h3, _⟩ := neighbour_some hn
  exact hv _ x h3 h2

/-- **C110**: a kernel that has a weight in the middle only does not change valid cells. -/
theorem C110_identity {a : ConvolveArgs ℚ ℚ} {keep : Bool} {outp : OutPolicy ℚ} (ha : ArgsOk a)
    {res result : List (Cell ℚ)} (hres : res.length = a.rows * a.cols) (h : Convolved meanOps a keep outp res result)
    {w : ℚ} (hw : a.weights[weightAt a.radius (a.radius, a.radius)]? = some w) (hne : w ≠ 0)
    (h0 : ∀ pq ∈ kernelCells a.radius, pq ≠ (a.radius, a.radius) → a.weights[weightAt a.radius pq]? = some 0)
    {i j : Nat} (hi : i < a.rows) (hj : j < a.cols)
    (hnd : ¬ NoDataAt a.noData a.source (i * a.cols + j)) :
    ∃ c, result[i * a.cols + j]? = some c ∧ a.source[i * a.cols + j]? = some c.val := by
  have hlt : i * a.cols + j < a.source.length := by rw [ha.source]; exact rowMajor_lt hi hj
  have hf : neighbour a i j (a.radius, a.radius) = some (a.source[i * a.cols + j], w) :=
    neighbour_mk (inImage_focus hi hj) (by rw [below_focus]; exact hnd)
      (by rw [below_focus]; exact List.getElem?_eq_getElem hlt) hw
  have hg : GetsValue a keep i j := by
    refine ⟨fun hk => hnd hk.2, (a.source[i * a.cols + j], w), ?_, hne⟩
    rw [neighbourhood_eq, List.mem_filterMap]
    exact ⟨_, kernelCells_focus _, hf⟩
  obtain ⟨c, _, hc'⟩ := value_of ha hres h hi hj hg
  refine ⟨_, hc', ?_⟩
  rw [List.getElem?_eq_getElem hlt]
  congr 1
  unfold mean
  rw [mean_focus (φ := fun vw => vw.1 * vw.2) hf (by simp) h0, mean_focus (φ := fun vw => vw.2) hf (by simp) h0]
  simp only
  rw [mul_div_assoc, div_self hne, mul_one]

/-- The same image with other values. -/
theorem neighbourhood_mapped {a b : ConvolveArgs ℚ ℚ} (f : ℚ → ℚ) (g : ℚ → ℚ)
    (hrows : b.rows = a.rows) (hcols : b.cols = a.cols) (hr : b.radius = a.radius)
    (hs : b.source = a.source.map f) (hw : b.weights = a.weights.map g)
    (hn : ∀ k, NoDataAt b.noData b.source k ↔ NoDataAt a.noData a.source k) (i j : Nat) :
    neighbourhood b i j = (neighbourhood a i j).map (fun vw => (f vw.1, g vw.2)) := by
  rw [neighbourhood_eq, neighbourhood_eq, hr, List.map_filterMap]
  apply List.filterMap_congr
  intro pq _
  unfold neighbour
  rw [hrows, hcols, hr]
  by_cases hin : InImage a.rows a.cols a.radius i j pq
  · have hnd := hn (below a.cols a.radius i j pq)
    by_cases hd : NoDataAt a.noData a.source (below a.cols a.radius i j pq)
    · rw [if_neg (by tauto), if_neg (by tauto)]
      rfl
    · rw [if_pos (by tauto), if_pos (by tauto), hs, hw, List.getElem?_map, List.getElem?_map]
      cases a.source[below a.cols a.radius i j pq]? with
      | none => rfl
      | some v =>
        cases a.weights[weightAt a.radius pq]? with
        | none => rfl
        | some w => rfl
  · rw [if_neg (by tauto), if_neg (by tauto)]
    rfl

/-- **C110**: expressing the values in other units (a factor and an offset) does the same to the result. -/
theorem C110_units {a b : ConvolveArgs ℚ ℚ} {keep : Bool} {outp : OutPolicy ℚ} (ha : ArgsOk a) (hb : ArgsOk b)
    {res res' result result' : List (Cell ℚ)} (hres : res.length = a.rows * a.cols)
    (hres' : res'.length = b.rows * b.cols) (h : Convolved meanOps a keep outp res result)
    (h' : Convolved meanOps b keep outp res' result') (factor offset : ℚ)
    (hrows : b.rows = a.rows) (hcols : b.cols = a.cols) (hr : b.radius = a.radius)
    (hs : b.source = a.source.map (fun v => factor * v + offset)) (hw : b.weights = a.weights)
    (hn : ∀ k, NoDataAt b.noData b.source k ↔ NoDataAt a.noData a.source k)
    {i j : Nat} (hi : i < a.rows) (hj : j < a.cols) (hg : GetsValue a keep i j) (hsum : allWeights a i j ≠ 0) :
    ∃ c c', result[i * a.cols + j]? = some c ∧ result'[i * a.cols + j]? = some c' ∧
      c'.val = factor * c.val + offset := by
  have hnb := neighbourhood_mapped (fun v => factor * v + offset) id hrows hcols hr hs (by simpa using hw) hn i j
  have hg' : GetsValue b keep i j := by
    refine ⟨by rw [hcols, hn]; exact hg.1, ?_⟩
    obtain ⟨vw, hvw, hne⟩ := hg.2
    exact ⟨(factor * vw.1 + offset, vw.2), by rw [hnb]; exact List.mem_map.2 ⟨vw, hvw, rfl⟩, hne⟩
  obtain ⟨c, _, hc⟩ := value_of ha hres h hi hj hg
  obtain ⟨c', _, hc'⟩ := value_of hb hres' h' (hrows ▸ hi) (hcols ▸ hj) hg'
  rw [hcols] at hc'
  refine ⟨_, _, hc, hc', ?_⟩
  simp only [hnb]
  exact mean_affine factor offset hsum

/-- **C110**: multiplying all weights by the same number changes nothing. -/
theorem C110_scaled_kernel {a b : ConvolveArgs ℚ ℚ} {keep : Bool} {outp : OutPolicy ℚ} (ha : ArgsOk a) (hb : ArgsOk b)
    {res result result' : List (Cell ℚ)} (hres : res.length = a.rows * a.cols)
    (h : Convolved meanOps a keep outp res result) (h' : Convolved meanOps b keep outp res result') (factor : ℚ)
    (hf : factor ≠ 0) (hrows : b.rows = a.rows) (hcols : b.cols = a.cols) (hr : b.radius = a.radius)
    (hs : b.source = a.source) (hw : b.weights = a.weights.map (fun w => factor * w))
    (hn : b.noData = a.noData)
    {i j : Nat} (hi : i < a.rows) (hj : j < a.cols) (hg : GetsValue a keep i j) :
    ∃ c, result[i * a.cols + j]? = some c ∧ result'[i * a.cols + j]? = some c := by
  have hnb := neighbourhood_mapped id (fun w => factor * w) hrows hcols hr (by simpa using hs) hw
    (by intro k; rw [hn, hs]) i j
  have hg' : GetsValue b keep i j := by
    refine ⟨by rw [hcols, hn, hs]; exact hg.1, ?_⟩
    obtain ⟨vw, hvw, hne⟩ := hg.2
    exact ⟨(vw.1, factor * vw.2), by rw [hnb]; exact List.mem_map.2 ⟨vw, hvw, rfl⟩, mul_ne_zero hf hne⟩
  obtain ⟨c, hc0, hc⟩ := value_of ha hres h hi hj hg
  obtain ⟨c', hc0', hc'⟩ := value_of hb (by rw [hrows, hcols]; exact hres) h' (hrows ▸ hi) (hcols ▸ hj) hg'
  rw [hcols] at hc' hc0'
  rw [hc0] at hc0'
  cases hc0'
  refine ⟨_, hc, ?_⟩
  rw [hc', hnb]
  congr 2
  exact mean_scaled hf _

/-- What follows for images that are moved. -/
theorem moved_result {a b : ConvolveArgs ℚ ℚ} {keep : Bool} {outp : OutPolicy ℚ} (ha : ArgsOk a) (hb : ArgsOk b)
    {res res' result result' : List (Cell ℚ)} (hres : res.length = a.rows * a.cols)
    (hres' : res'.length = b.rows * b.cols) (h : Convolved meanOps a keep outp res result)
    (h' : Convolved meanOps b keep outp res' result') {i j i' j' : Nat} (hi : i < a.rows) (hj : j < a.cols)
    (hi' : i' < b.rows) (hj' : j' < b.cols)
    (hp : (neighbourhood b i' j').Perm (neighbourhood a i j))
    (hn : NoDataAt b.noData b.source (i' * b.cols + j') ↔ NoDataAt a.noData a.source (i * a.cols + j))
    (hg : GetsValue a keep i j) :
    ∃ c c', result[i * a.cols + j]? = some c ∧ result'[i' * b.cols + j']? = some c' ∧ c'.val = c.val := by
  have hg' : GetsValue b keep i' j' := by
    refine ⟨by rw [hn]; exact hg.1, ?_⟩
    obtain ⟨vw, hvw, hne⟩ := hg.2
    exact ⟨vw, hp.mem_iff.2 hvw, hne⟩
  obtain ⟨c, _, hc⟩ := value_of ha hres h hi hj hg
  obtain ⟨c', _, hc'⟩ := value_of hb hres' h' hi' hj' hg'
  exact ⟨_, _, hc, hc', mean_perm hp⟩

/-- **C110**: if image and kernel are mirrored, left to right, so is the result. -/
theorem C110_left_right {a b : ConvolveArgs ℚ ℚ} {keep : Bool} {outp : OutPolicy ℚ} (ha : ArgsOk a) (hb : ArgsOk b)
    {res res' result result' : List (Cell ℚ)} (hres : res.length = a.rows * a.cols)
    (hres' : res'.length = b.rows * b.cols) (h : Convolved meanOps a keep outp res result)
    (h' : Convolved meanOps b keep outp res' result') (hm : MirroredLeftRight a b)
    {i j : Nat} (hi : i < a.rows) (hj : j < a.cols) (hg : GetsValue a keep i j) :
    ∃ c c', result[i * a.cols + j]? = some c ∧ result'[i * a.cols + (a.cols - 1 - j)]? = some c' ∧
      c'.val = c.val := by
  obtain ⟨hrows, hcols, hm⟩ := hm
  have hj' : a.cols - 1 - j < a.cols := by omega
  have hinv : a.cols - 1 - (a.cols - 1 - j) = j := by omega
  have hnd := hm.noData i (hrows ▸ hi) (a.cols - 1 - j) (hcols ▸ hj')
  simp only [hinv] at hnd
  have := moved_result ha hb hres hres' h h' hi hj (hrows ▸ hi : i < b.rows) (hcols ▸ hj' : a.cols - 1 - j < b.cols)
    (neighbourhood_perm hm.radius
      (fun pq hpq => by rw [mem_kernelCells] at hpq ⊢; simp only; omega)
      (fun pq hpq => by rw [mem_kernelCells] at hpq; ext <;> simp only; omega)
      (fun pq hpq => neighbour_moved hm hpq
        (by rw [mem_kernelCells] at hpq; simp only [InImage, hrows, hcols]; omega)
        (fun hin => by
          rw [mem_kernelCells] at hpq
          simp only [InImage, hrows, hcols] at hin
          simp only [Prod.mk.injEq, true_and]
          omega))) hnd hg
  rw [hcols] at this
  exact this

/-- **C110**: the same for up and down. -/
theorem C110_up_down {a b : ConvolveArgs ℚ ℚ} {keep : Bool} {outp : OutPolicy ℚ} (ha : ArgsOk a) (hb : ArgsOk b)
    {res res' result result' : List (Cell ℚ)} (hres : res.length = a.rows * a.cols)
    (hres' : res'.length = b.rows * b.cols) (h : Convolved meanOps a keep outp res result)
    (h' : Convolved meanOps b keep outp res' result') (hm : MirroredUpDown a b)
    {i j : Nat} (hi : i < a.rows) (hj : j < a.cols) (hg : GetsValue a keep i j) :
    ∃ c c', result[i * a.cols + j]? = some c ∧ result'[(a.rows - 1 - i) * a.cols + j]? = some c' ∧
      c'.val = c.val := by
  obtain ⟨hrows, hcols, hm⟩ := hm
  have hi' : a.rows - 1 - i < a.rows := by omega
  have hinv : a.rows - 1 - (a.rows - 1 - i) = i := by omega
  have hnd := hm.noData (a.rows - 1 - i) (hrows ▸ hi') j (hcols ▸ hj)
  simp only [hinv] at hnd
  have := moved_result ha hb hres hres' h h' hi hj (hrows ▸ hi' : a.rows - 1 - i < b.rows) (hcols ▸ hj : j < b.cols)
    (neighbourhood_perm hm.radius
      (fun pq hpq => by rw [mem_kernelCells] at hpq ⊢; simp only; omega)
      (fun pq hpq => by rw [mem_kernelCells] at hpq; ext <;> simp only; omega)
      (fun pq hpq => neighbour_moved hm hpq
        (by rw [mem_kernelCells] at hpq; simp only [InImage, hrows, hcols]; omega)
        (fun hin => by
          rw [mem_kernelCells] at hpq
          simp only [InImage, hrows, hcols] at hin
          simp only [Prod.mk.injEq, and_true]
          omega))) hnd hg
  rw [hcols] at this
  exact this

/-- **C110**: if rows and columns of image and kernel are exchanged, those of the result are. -/
theorem C110_transposed {a b : ConvolveArgs ℚ ℚ} {keep : Bool} {outp : OutPolicy ℚ} (ha : ArgsOk a) (hb : ArgsOk b)
    {res res' result result' : List (Cell ℚ)} (hres : res.length = a.rows * a.cols)
    (hres' : res'.length = b.rows * b.cols) (h : Convolved meanOps a keep outp res result)
    (h' : Convolved meanOps b keep outp res' result') (hm : Transposed a b)
    {i j : Nat} (hi : i < a.rows) (hj : j < a.cols) (hg : GetsValue a keep i j) :
    ∃ c c', result[i * a.cols + j]? = some c ∧ result'[j * b.cols + i]? = some c' ∧ c'.val = c.val := by
  obtain ⟨hrows, hcols, hm⟩ := hm
  have hnd := hm.noData j (hrows ▸ hj) i (hcols ▸ hi)
  simp only at hnd
  exact moved_result ha hb hres hres' h h' hi hj (hrows ▸ hj : j < b.rows) (hcols ▸ hi : i < b.cols)
    (neighbourhood_perm hm.radius
      (fun pq hpq => by rw [mem_kernelCells] at hpq ⊢; simp only; omega)
      (fun pq _ => rfl)
      (fun pq hpq => neighbour_moved hm hpq
        (by rw [mem_kernelCells] at hpq; simp only [InImage, hrows, hcols]; omega)
        (fun hin => by
          simp only [InImage, hrows, hcols] at hin
          simp only))) hnd hg

/-! An image of three by four cells with a no-data cell. -/

/-- The image. -/
def sample : ConvolveArgs ℚ ℚ where
  rows := 3
  cols := 4
  source := [1, 2, 3, 4,  5, 0, 7, 8,  9, 10, 11, 12]
  noData := .byMask [0, 0, 0, 0,  0, 1, 0, 0,  0, 0, 0, 0] 1
  radius := 1
  weights := [1, 2, 0,  0, 3, 1,  1, 0, 1]

/-- The image and the kernel, left to right. -/
def sampleMirrored : ConvolveArgs ℚ ℚ where
  rows := 3
  cols := 4
  source := [4, 3, 2, 1,  8, 7, 0, 5,  12, 11, 10, 9]
  noData := .byMask [0, 0, 0, 0,  0, 0, 1, 0,  0, 0, 0, 0] 1
  radius := 1
  weights := [0, 2, 1,  1, 3, 0,  1, 0, 1]

example : ArgsOk sample := ⟨rfl, rfl, rfl, by decide, by decide⟩

example : MirroredLeftRight sample sampleMirrored := by
  refine ⟨rfl, rfl, rfl, ?_, ?_, ?_, ?_⟩
  · decide
  · decide +kernel
  · simp only [sample, sampleMirrored, NoDataAt]
    decide +kernel
  · decide +kernel

example : convolveSequential meanOps sample (skipPolicy ℚ true) .markMask
    (innerPart meanOps sample (skipPolicy ℚ true) .markMask) (List.replicate 12 ⟨0, false⟩) =
    some [⟨5 / 4, false⟩, ⟨21 / 6, false⟩, ⟨21 / 5, false⟩, ⟨19 / 4, false⟩,
      ⟨27 / 6, false⟩, ⟨0, true⟩, ⟨59 / 9, false⟩, ⟨46 / 7, false⟩,
      ⟨47 / 6, false⟩, ⟨46 / 5, false⟩, ⟨59 / 6, false⟩, ⟨59 / 6, false⟩] := by
  decide +kernel

/-- **C110**: with negative weights (here to sharpen an image) the result can be outside of the range of the values:
the condition of `C110_range` is needed. -/
theorem C110_negative_false :
    ∃ (a : ConvolveArgs ℚ ℚ) (result : List (Cell ℚ)), ArgsOk a ∧ (∀ v ∈ a.source, 0 ≤ v ∧ v ≤ 1) ∧
      Convolved meanOps a true .markMask (List.replicate (a.rows * a.cols) ⟨0, false⟩) result ∧
      ∃ c ∈ result, 1 < c.val := by
  refine ⟨⟨3, 3, [0, 0, 0, 0, 1, 0, 0, 0, 0], .skip, 1, [-1, -1, -1, -1, 9, -1, -1, -1, -1]⟩,
    [⟨-1 / 6, false⟩, ⟨-1 / 4, false⟩, ⟨-1 / 6, false⟩, ⟨-1 / 4, false⟩, ⟨9, false⟩, ⟨-1 / 4, false⟩, ⟨-1 / 6, false⟩,
      ⟨-1 / 4, false⟩, ⟨-1 / 6, false⟩],
    ⟨rfl, trivial, rfl, by decide, by decide⟩, by decide +kernel, ?_, ⟨9, false⟩, by decide +kernel, by
      decide +kernel⟩
  unfold Convolved
  decide +kernel

end Fern.Smooth
