import Verif.Lemmas.ConvolveSmall
import Mathlib.Algebra.BigOperators.Group.List.Basic
/-
Properties C52 (the regions of a convolution partition the image) and C53 (each cell gets the weighted
sum over its neighbourhood, sequentially and in parallel).
-/
namespace Fern

open Spec

variable {V W A R : Type}

theorem innerPart_ok (ops : ConvolveOps V W A R) (a : ConvolveArgs V W) (pol : ConvolvePolicy V)
    (outp : OutPolicy R) : InnerOk ops a pol outp (innerPart ops a pol outp) :=
  fun _ h1 h2 h3 h4 => innerPart_eq ops a pol outp h1 h2 h3 h4

theorem innerPartBool_ok {ops : ConvolveOps V Bool A R} {a : ConvolveArgs V Bool}
    {pol : ConvolvePolicy V} {out : Int → Int → Option V} (outp : OutPolicy R) (ha : ArgsOk a)
    (hp : PolicyIs a pol (fun _ _ => none) out) (hz : ∀ w, ops.nonZero w = w) :
    InnerOk ops a pol outp (innerPartBool ops a pol outp) :=
  fun _ h1 h2 h3 h4 => innerPartBool_eq ops outp ha hp hz h1 h2 h3 h4

theorem skipPolicy_is (a : ConvolveArgs V W) (keep : Bool) :
    PolicyIs a (skipPolicy V keep) (fun _ _ => none) (fun _ _ => none) :=
  ⟨fun _ _ _ _ _ _ _ _ _ => rfl, fun _ _ _ _ _ _ _ _ _ => rfl⟩

/-- The function that is applied to each cell. -/
theorem cellFn_exists {ops : ConvolveOps V W A R} {a : ConvolveArgs V W} {pol : ConvolvePolicy V}
    {alt : Nat → Nat → Option V} {out : Int → Int → Option V} (outp : OutPolicy R) (ha : ArgsOk a)
    (hp : PolicyIs a pol alt out) :
    ∃ F : Nat → Cell R → Cell R,
      (∀ k < a.rows * a.cols, cellActs ops a pol outp k = some [F k]) ∧
      ∀ i < a.rows, ∀ j < a.cols, ∀ c, ConvolvedCell ops outp
        (pol.keepNoData = true ∧ NoDataAt a.noData a.source (i * a.cols + j))
        (terms ops a alt out i j) c (F (i * a.cols + j) c) := by
  have key : ∀ k < a.rows * a.cols, ∃ i < a.rows, ∃ j < a.cols, k = i * a.cols + j := by
    intro k hk
    have hc : 0 < a.cols := by
      rcases Nat.eq_zero_or_pos a.cols with h | h
      · rw [h] at hk; simp at hk
      · exact h
    exact ⟨k / a.cols, (Nat.div_lt_iff_lt_mul hc).2 hk, k % a.cols, Nat.mod_lt _ hc,
      by rw [Nat.mul_comm]; exact (Nat.div_add_mod k a.cols).symm⟩
  refine ⟨fun k => (((cellActs ops a pol outp k).getD []).headD id), ?_, ?_⟩
  · intro k hk
    obtain ⟨i, hi, j, hj, rfl⟩ := key k hk
    obtain ⟨f, hf, _⟩ := cell_ok ops outp ha hp hi hj
    simp [hf]
  · intro i hi j hj c
    obtain ⟨f, hf, hs⟩ := cell_ok ops outp ha hp hi hj
    simp only [hf]
    exact hs c

/-! C52 -/

/-- **C52**, sequential: nothing outside of the image, the mask or the kernel is accessed, and the
cells that are written, listed in the order in which they are, are a permutation of all cells of the
image: each cell is written exactly once. -/
theorem C52_sequential {ops : ConvolveOps V W A R} {a : ConvolveArgs V W} {pol : ConvolvePolicy V}
    {alt : Nat → Nat → Option V} {out : Int → Int → Option V} (outp : OutPolicy R) (ha : ArgsOk a)
    (hp : PolicyIs a pol alt out) :
    ∃ regions, (borderRegions ops a pol outp ++ [innerPart ops a pol outp
        ⟨⟨a.radius, a.rows - a.radius⟩, ⟨a.radius, a.cols - a.radius⟩⟩]).mapM id = some regions ∧
      (regions.flatten.map Act.idx).Perm (List.range (a.rows * a.cols)) := by
  obtain ⟨F, hF, _⟩ := cellFn_exists (ops := ops) outp ha hp
  rw [sequentialRegions_eq (innerPart_ok ops a pol outp) ha.rows ha.cols]
  obtain ⟨tasks, ht, hperm, _⟩ := parPerm hF (blocks := borderCells a.rows a.cols a.radius ++
      [cells2d a.cols ⟨⟨a.radius, a.rows - a.radius⟩, ⟨a.radius, a.cols - a.radius⟩⟩]) (by
        rw [List.flatten_append, List.flatten_singleton]
        exact regions_perm ha.rows ha.cols)
  exact ⟨tasks, ht, hperm⟩

/-- **C52**, parallel: the same for the tasks of a pool of any size. -/
theorem C52_parallel {ops : ConvolveOps V W A R} {a : ConvolveArgs V W} {pol : ConvolvePolicy V}
    {alt : Nat → Nat → Option V} {out : Int → Int → Option V} (outp : OutPolicy R) (ha : ArgsOk a)
    (hp : PolicyIs a pol alt out) {t : Nat} (ht : 1 ≤ t) :
    ∃ tasks, convolveTasks ops a pol outp (innerPart ops a pol outp) t (a.rows, a.cols) = some tasks ∧
      (tasks.flatten.map Act.idx).Perm (List.range (a.rows * a.cols)) := by
  obtain ⟨F, hF, _⟩ := cellFn_exists (ops := ops) outp ha hp
  obtain ⟨blocks, hb, he⟩ := convolveTasks_eq (innerPart_ok ops a pol outp) ha.rows ha.cols ht
  rw [he]
  obtain ⟨tasks, htk, hperm, _⟩ := parPerm hF
      (blocks := borderCells a.rows a.cols a.radius ++ blocks) (by
        rw [List.flatten_append, hb]
        exact regions_perm ha.rows ha.cols)
  exact ⟨tasks, htk, hperm⟩

/-- **C52**: images that are less than twice the radius high or wide are not convolved: a sequential
run fails an assertion or writes outside of the image (which has less than 2^64 - 2 radius cells). -/
theorem C52_small {ops : ConvolveOps V W A R} {a : ConvolveArgs V W}
    {pol : ConvolvePolicy V} {outp : OutPolicy R}
    (inner : IndexRanges2 → Option (List (Act (Cell R))))
    (h : a.rows < 2 * a.radius ∨ a.cols < 2 * a.radius)
    (hsize : a.rows * a.cols + 2 * a.radius < 2 ^ 64) {res : List (Cell R)}
    (hres : res.length = a.rows * a.cols) :
    convolveSequential ops a pol outp inner res = none :=
  small_fails inner h hsize hres

/-- **C52**: a parallel run of such an image, or one into an image of another shape, fails an
assertion. -/
theorem C52_small_parallel {ops : ConvolveOps V W A R} {a : ConvolveArgs V W}
    {pol : ConvolvePolicy V} {outp : OutPolicy R}
    (inner : IndexRanges2 → Option (List (Act (Cell R)))) (t : Nat) (dest : Nat × Nat)
    (h : a.rows < 2 * a.radius ∨ a.cols < 2 * a.radius ∨ dest ≠ (a.rows, a.cols)) :
    convolveTasks ops a pol outp inner t dest = none := by
  by_contra hn
  obtain ⟨o, ho⟩ := Option.ne_none_iff_exists'.1 hn
  unfold convolveTasks at ho
  obtain ⟨_, h1, ho⟩ := Option.bind_eq_some_iff.1 ho
  obtain ⟨_, h2, ho⟩ := Option.bind_eq_some_iff.1 ho
  obtain ⟨_, h3, ho⟩ := Option.bind_eq_some_iff.1 ho
  obtain ⟨_, h4, ho⟩ := Option.bind_eq_some_iff.1 ho
  have hass : ∀ {b : Bool} {u : Unit}, assert' b = some u → b = true := by
    intro b u hb
    cases b with
    | true => rfl
    | false => simp [assert'] at hb
  have e1 := hass h1
  have e2 := hass h2
  have e3 := hass h3
  have e4 := hass h4
  simp only [beq_iff_eq, decide_eq_true_eq] at e1 e2 e3 e4
  rcases h with h | h | h
  · omega
  · omega
  · exact h (Prod.ext e1 e2)

/-! C53 -/

/-- What a convolution of an image has to give: sequentially and in every schedule of every parallel
run one and the same image, in which each cell is convolved with its neighbourhood. -/
def Convolves (ops : ConvolveOps V W A R) (a : ConvolveArgs V W) (pol : ConvolvePolicy V)
    (outp : OutPolicy R) (inner : IndexRanges2 → Option (List (Act (Cell R))))
    (l : Nat → Nat → List (V × W)) (res : List (Cell R)) : Prop :=
  ∃ result, convolveSequential ops a pol outp inner res = some result ∧
    result.length = res.length ∧
    (∀ i < a.rows, ∀ j < a.cols, ∃ c c', res[i * a.cols + j]? = some c ∧
      result[i * a.cols + j]? = some c' ∧
      ConvolvedCell ops outp
        (pol.keepNoData = true ∧ NoDataAt a.noData a.source (i * a.cols + j)) (l i j) c c') ∧
    ∀ t, 1 ≤ t → ∀ o, ParResult (convolveTasks ops a pol outp inner t (a.rows, a.cols)) res o ↔
      o = some result

theorem convolves_of {ops : ConvolveOps V W A R} {a : ConvolveArgs V W}
    {pol : ConvolvePolicy V} {outp : OutPolicy R}
    {inner : IndexRanges2 → Option (List (Act (Cell R)))} (hin : InnerOk ops a pol outp inner)
    {alt : Nat → Nat → Option V} {out : Int → Int → Option V} (ha : ArgsOk a)
    (hp : PolicyIs a pol alt out) {res : List (Cell R)} (hres : res.length = a.rows * a.cols) :
    Convolves ops a pol outp inner (terms ops a alt out) res := by
  obtain ⟨F, hF, hcell⟩ := cellFn_exists (ops := ops) outp ha hp
  obtain ⟨hseq, hpar⟩ := convolve_runs hin ha.rows ha.cols hF res hres
  refine ⟨_, hseq, by simp, fun i hi j hj => ?_, hpar⟩
  have hlt : i * a.cols + j < res.length := by rw [hres]; exact rowMajor_lt hi hj
  exact ⟨res[i * a.cols + j], F (i * a.cols + j) res[i * a.cols + j],
    List.getElem?_eq_getElem hlt, by simp [hlt], hcell i hi j hj _⟩

/-- **C53**, any policies for no-data and out-of-image values that amount to functions `alt` and
`out`: corners, sides and inner part all follow the same rule. -/
theorem C53_policies {ops : ConvolveOps V W A R} {a : ConvolveArgs V W} {pol : ConvolvePolicy V}
    {alt : Nat → Nat → Option V} {out : Int → Int → Option V} (outp : OutPolicy R) (ha : ArgsOk a)
    (hp : PolicyIs a pol alt out) {res : List (Cell R)} (hres : res.length = a.rows * a.cols) :
    Convolves ops a pol outp (innerPart ops a pol outp) (terms ops a alt out) res :=
  convolves_of (innerPart_ok ops a pol outp) ha hp hres

/-- **C53**, boolean weights, no-data cells skipped. -/
theorem C53_policies_boolean {ops : ConvolveOps V Bool A R} {a : ConvolveArgs V Bool}
    {pol : ConvolvePolicy V} {out : Int → Int → Option V} (outp : OutPolicy R) (ha : ArgsOk a)
    (hp : PolicyIs a pol (fun _ _ => none) out) (hz : ∀ w, ops.nonZero w = w)
    {res : List (Cell R)} (hres : res.length = a.rows * a.cols) :
    Convolves ops a pol outp (innerPartBool ops a pol outp) (terms ops a (fun _ _ => none) out) res :=
  convolves_of (innerPartBool_ok outp ha hp hz) ha hp hres

/-- Without policies that invent values, the values that count are those of the neighbourhood with a
weight that is not zero. -/
theorem terms_skip (ops : ConvolveOps V W A R) (a : ConvolveArgs V W) (i j : Nat) :
    terms ops a (fun _ _ => none) (fun _ _ => none) i j =
      (neighbourhood a i j).filter (fun vw => ops.nonZero vw.2) := by
  classical
  unfold terms neighbourhood
  have h1 : ∀ l : List (Nat × Nat), l.filterMap (outsideTerm a (fun _ _ => none) i j) = [] := by
    intro l
    induction l with
    | nil => rfl
    | cons x l ih => rw [List.filterMap_cons_none rfl, ih]
  rw [h1, List.nil_append]
  generalize kernelCells a.radius = l
  induction l with
  | nil => rfl
  | cons pq l ih =>
    by_cases hin : InImage a.rows a.cols a.radius i j pq
    · rw [List.filter_cons_of_pos (by simp [hin])]
      by_cases hnd : NoDataAt a.noData a.source (below a.cols a.radius i j pq)
      · rw [List.filterMap_cons_none (by simp [imageTerm, hnd]),
          List.filterMap_cons_none (by simp [hnd]), ih]
      · cases hv : a.source[below a.cols a.radius i j pq]? with
        | none =>
          rw [List.filterMap_cons_none (by simp [imageTerm, hnd, hv]),
            List.filterMap_cons_none (by simp [hv]), ih]
        | some v =>
          cases hw : a.weights[weightAt a.radius pq]? with
          | none =>
            rw [List.filterMap_cons_none (by simp [imageTerm, hnd, hv, hw]),
              List.filterMap_cons_none (by simp [hv, hw]), ih]
          | some w =>
            rw [List.filterMap_cons_some (b := (v, w)) (a := pq) (l := l) (by simp [hin, hnd, hv, hw])]
            cases hz : ops.nonZero w with
            | true =>
              rw [List.filterMap_cons_some (b := (v, w)) (by simp [imageTerm, hnd, hv, hw, hz]),
                List.filter_cons_of_pos (by simp [hz]), ih]
            | false =>
              rw [List.filterMap_cons_none (by simp [imageTerm, hnd, hv, hw, hz]),
                List.filter_cons_of_neg (by simp [hz]), ih]
    · rw [List.filter_cons_of_neg (by simp [hin]), List.filterMap_cons_none (by simp [hin]), ih]

/-- **C53**: no-data cells and cells outside of the image are skipped, weighted kernel. -/
theorem C53_skip (ops : ConvolveOps V W A R) {a : ConvolveArgs V W} (keep : Bool)
    (outp : OutPolicy R) (ha : ArgsOk a) {res : List (Cell R)} (hres : res.length = a.rows * a.cols) :
    Convolves ops a (skipPolicy V keep) outp (innerPart ops a (skipPolicy V keep) outp)
      (fun i j => (neighbourhood a i j).filter (fun vw => ops.nonZero vw.2)) res := by
  have := C53_policies (ops := ops) outp ha (skipPolicy_is a keep) hres
  simp only [Convolves, terms_skip] at this
  exact this

/-- **C53**: the same for a kernel with boolean weights. -/
theorem C53_skip_boolean {ops : ConvolveOps V Bool A R} {a : ConvolveArgs V Bool} (keep : Bool)
    (outp : OutPolicy R) (ha : ArgsOk a) (hz : ∀ w, ops.nonZero w = w) {res : List (Cell R)}
    (hres : res.length = a.rows * a.cols) :
    Convolves ops a (skipPolicy V keep) outp (innerPartBool ops a (skipPolicy V keep) outp)
      (fun i j => (neighbourhood a i j).filter (fun vw => vw.2)) res := by
  have := C53_policies_boolean (ops := ops) outp ha (skipPolicy_is a keep) hz hres
  simp only [Convolves, terms_skip, hz] at this
  exact this

/-! Exact arithmetic: the weighted mean. -/

/-- Convolution of exact numbers, normalized by the sum of the weights. -/
def meanOps : ConvolveOps ℚ ℚ (ℚ × ℚ) ℚ where
  zero := (0, 0)
  add := fun v w s => (s.1 + v * w, s.2 + w)
  nonZero := fun w => decide (w ≠ 0)
  within := fun _ => true
  normalize := fun s => s.1 / s.2

/-- The same for a boolean kernel: the mean. -/
def boolMeanOps : ConvolveOps ℚ Bool (ℚ × Nat) ℚ where
  zero := (0, 0)
  add := fun v w s => if w then (s.1 + v, s.2 + 1) else s
  nonZero := fun w => w
  within := fun _ => true
  normalize := fun s => s.1 / s.2

theorem sums_mean (l : List (ℚ × ℚ)) :
    sums meanOps (l.filter (fun vw => meanOps.nonZero vw.2)) =
      ((l.map (fun vw => vw.1 * vw.2)).sum, (l.map (fun vw => vw.2)).sum) := by
  have key : ∀ (l : List (ℚ × ℚ)) (s : ℚ × ℚ),
      (l.filter (fun vw => meanOps.nonZero vw.2)).foldl (fun s vw => meanOps.add vw.1 vw.2 s) s =
        (s.1 + (l.map (fun vw => vw.1 * vw.2)).sum, s.2 + (l.map (fun vw => vw.2)).sum) := by
    intro l
    induction l with
    | nil => intro s; simp
    | cons x l ih =>
      intro s
      by_cases hx : x.2 = 0
      · rw [List.filter_cons_of_neg (by simp [meanOps, hx]), ih]
        simp [hx]
      · rw [List.filter_cons_of_pos (by simp [meanOps, hx]), List.foldl_cons, ih]
        simp only [meanOps, List.map_cons, List.sum_cons, Prod.mk.injEq]
        constructor <;> rw [add_assoc]
  have := key l (0, 0)
  simpa [sums, meanOps] using this

theorem sums_boolMean (l : List (ℚ × Bool)) :
    sums boolMeanOps (l.filter (fun vw => vw.2)) =
      (((l.filter (fun vw => vw.2)).map (fun vw => vw.1)).sum, (l.filter (fun vw => vw.2)).length) := by
  have key : ∀ (l : List (ℚ × Bool)) (s : ℚ × Nat),
      (l.filter (fun vw => vw.2)).foldl (fun s vw => boolMeanOps.add vw.1 vw.2 s) s =
        (s.1 + ((l.filter (fun vw => vw.2)).map (fun vw => vw.1)).sum,
          s.2 + (l.filter (fun vw => vw.2)).length) := by
    intro l
    induction l with
    | nil => intro s; simp
    | cons x l ih =>
      intro s
      cases hx : x.2 with
      | false => rw [List.filter_cons_of_neg (by simp [hx]), ih]
      | true =>
        rw [List.filter_cons_of_pos (by simp [hx]), List.foldl_cons, ih]
        simp only [boolMeanOps, hx, if_true, List.map_cons, List.sum_cons, List.length_cons,
          Prod.mk.injEq]
        constructor
        · rw [add_assoc]
        · omega
  have := key l (0, 0)
  simpa [sums, boolMeanOps] using this

/-- **C53** in exact arithmetic: each cell becomes the weighted mean of its neighbourhood, if at
least one valid neighbour has a weight that is not zero. -/
theorem C53_weighted_mean {a : ConvolveArgs ℚ ℚ} (keep : Bool) (outp : OutPolicy ℚ) (ha : ArgsOk a)
    {res : List (Cell ℚ)} (hres : res.length = a.rows * a.cols) :
    ∃ result, convolveSequential meanOps a (skipPolicy ℚ keep) outp
        (innerPart meanOps a (skipPolicy ℚ keep) outp) res = some result ∧
      ∀ i < a.rows, ∀ j < a.cols, ∃ c c', res[i * a.cols + j]? = some c ∧
        result[i * a.cols + j]? = some c' ∧
        ((keep = true ∧ NoDataAt a.noData a.source (i * a.cols + j)) → Marked outp c c') ∧
        (¬ (keep = true ∧ NoDataAt a.noData a.source (i * a.cols + j)) →
          (∀ vw ∈ neighbourhood a i j, vw.2 = 0) → Marked outp c c') ∧
        (¬ (keep = true ∧ NoDataAt a.noData a.source (i * a.cols + j)) →
          (∃ vw ∈ neighbourhood a i j, vw.2 ≠ 0) →
          c' = ⟨((neighbourhood a i j).map (fun vw => vw.1 * vw.2)).sum /
            ((neighbourhood a i j).map (fun vw => vw.2)).sum, c.masked⟩) := by
  obtain ⟨result, h1, _, h2, _⟩ := C53_skip meanOps keep outp ha hres
  refine ⟨result, h1, fun i hi j hj => ?_⟩
  obtain ⟨c, c', hc, hc', hcell⟩ := h2 i hi j hj
  refine ⟨c, c', hc, hc', hcell.kept, fun hk hz => hcell.nothing hk ?_, fun hk hz => ?_⟩
  · rw [List.filter_eq_nil_iff]
    intro vw hvw
    simp [meanOps, hz vw hvw]
  · have := hcell.ok hk ?_ rfl
    · rw [sums_mean] at this
      exact this
    · obtain ⟨vw, hvw, hne⟩ := hz
      intro hnil
      rw [List.filter_eq_nil_iff] at hnil
      exact hnil vw hvw (by simp [meanOps, hne])

/-- **C53** in exact arithmetic, boolean kernel: the mean of the valid neighbours that are switched
on. -/
theorem C53_mean {a : ConvolveArgs ℚ Bool} (keep : Bool) (outp : OutPolicy ℚ) (ha : ArgsOk a)
    {res : List (Cell ℚ)} (hres : res.length = a.rows * a.cols) :
    ∃ result, convolveSequential boolMeanOps a (skipPolicy ℚ keep) outp
        (innerPartBool boolMeanOps a (skipPolicy ℚ keep) outp) res = some result ∧
      ∀ i < a.rows, ∀ j < a.cols, ∃ c c', res[i * a.cols + j]? = some c ∧
        result[i * a.cols + j]? = some c' ∧
        ((keep = true ∧ NoDataAt a.noData a.source (i * a.cols + j)) → Marked outp c c') ∧
        (¬ (keep = true ∧ NoDataAt a.noData a.source (i * a.cols + j)) →
          (∀ vw ∈ neighbourhood a i j, vw.2 = false) → Marked outp c c') ∧
        (¬ (keep = true ∧ NoDataAt a.noData a.source (i * a.cols + j)) →
          (∃ vw ∈ neighbourhood a i j, vw.2 = true) →
          c' = ⟨(((neighbourhood a i j).filter (fun vw => vw.2)).map (fun vw => vw.1)).sum /
            ((neighbourhood a i j).filter (fun vw => vw.2)).length, c.masked⟩) := by
  obtain ⟨result, h1, _, h2, _⟩ := C53_skip_boolean (ops := boolMeanOps) keep outp ha
    (fun _ => rfl) hres
  refine ⟨result, h1, fun i hi j hj => ?_⟩
  obtain ⟨c, c', hc, hc', hcell⟩ := h2 i hi j hj
  refine ⟨c, c', hc, hc', hcell.kept, fun hk hz => hcell.nothing hk ?_, fun hk hz => ?_⟩
  · rw [List.filter_eq_nil_iff]
    intro vw hvw
    simp [hz vw hvw]
  · have := hcell.ok hk ?_ rfl
    · rw [sums_boolMean] at this
      exact this
    · obtain ⟨vw, hvw, hon⟩ := hz
      intro hnil
      rw [List.filter_eq_nil_iff] at hnil
      exact hnil vw hvw hon

/-! Non-trivial cases. -/

/-- A 4 x 5 image with no-data cells (-1), kernel of radius 1. -/
def convolveExample : ConvolveArgs Int Int where
  rows := 4
  cols := 5
  source := [1, 2, 3, 4, 5,  6, -1, 8, 9, 10,  11, 12, 13, -1, 15,  16, 17, 18, 19, 20]
  noData := .detect (fun v => decide (v = -1))
  radius := 1
  weights := [1, 2, 1,  0, 3, 0,  1, 1, 1]

def sumOps : ConvolveOps Int Int Int Int where
  zero := 0
  add := fun v w s => s + v * w
  nonZero := fun w => decide (w ≠ 0)
  within := fun _ => true
  normalize := id

example : ArgsOk convolveExample := ⟨rfl, trivial, rfl, by decide, by decide⟩

example : convolveSequential sumOps convolveExample (skipPolicy Int true) .markMask
    (innerPart sumOps convolveExample (skipPolicy Int true) .markMask)
    (List.replicate 20 ⟨0, false⟩) =
    some [⟨9, false⟩, ⟨20, false⟩, ⟨26, false⟩, ⟨39, false⟩, ⟨34, false⟩,
      ⟨45, false⟩, ⟨0, true⟩, ⟨61, false⟩, ⟨71, false⟩, ⟨59, false⟩,
      ⟨78, false⟩, ⟨101, false⟩, ⟨118, false⟩, ⟨0, true⟩, ⟨113, false⟩,
      ⟨82, false⟩, ⟨99, false⟩, ⟨92, false⟩, ⟨85, false⟩, ⟨90, false⟩] := by
  decide +kernel

/-- The rule for boolean kernels depends on the region if no-data cells get a value: a no-data cell
below a kernel cell that is switched off counts as a value near the border (which then is 0 / 0),
but not in the inner part (which is marked as no-data). -/
theorem C53_boolean_alternative_differs :
    let a : ConvolveArgs Int Bool := ⟨3, 3, List.replicate 9 0, .all, 1, List.replicate 9 false⟩
    let ops : ConvolveOps Int Bool (Int × Nat) (Int × Nat) :=
      ⟨(0, 0), fun v w s => if w then (s.1 + v, s.2 + 1) else s, id, fun _ => true, id⟩
    let pol : ConvolvePolicy Int := ⟨fun _ _ => some (some 7), fun _ _ _ _ => some none, false⟩
    convolveSequential ops a pol .markMask (innerPartBool ops a pol .markMask)
      (List.replicate 9 ⟨(5, 5), false⟩) =
    some [⟨(0, 0), false⟩, ⟨(0, 0), false⟩, ⟨(0, 0), false⟩, ⟨(0, 0), false⟩, ⟨(5, 5), true⟩,
      ⟨(0, 0), false⟩, ⟨(0, 0), false⟩, ⟨(0, 0), false⟩, ⟨(0, 0), false⟩] := by
  decide +kernel

end Fern
