import Verif.Lemmas.ConvolveRun
/-
Convolution of images that are smaller than twice the radius of the kernel.
-/
namespace Fern

open Spec

variable {V W A R : Type}

theorem carryLoop_mem {σ β : Type} {next : σ → σ} {body : Nat → σ → Option (List β)} {k i : Nat}
    {s : σ} {l : List β} (h : carryLoop next body k i s = some l) {j : Nat} (hj : j < k) :
    ∃ l', body (i + j) (next^[j] s) = some l' ∧ ∀ x ∈ l', x ∈ l := by
  induction k generalizing i s l j with
  | zero => omega
  | succ k ih =>
    rw [carryLoop] at h
    obtain ⟨l1, h1, h⟩ := Option.bind_eq_some_iff.1 h
    obtain ⟨l2, h2, h⟩ := Option.bind_eq_some_iff.1 h
    obtain rfl := Option.some.inj h
    cases j with
    | zero => exact ⟨l1, h1, fun x hx => by simp [hx]⟩
    | succ j =>
      obtain ⟨l', h3, h4⟩ := ih h2 (j := j) (by omega)
      refine ⟨l', ?_, fun x hx => by simp [h4 x hx]⟩
      rw [Function.iterate_succ_apply, ← h3]
      congr 1
      omega

theorem runActs_out {γ : Type} {l : List (Act γ)} {s : List γ} {x : Act γ} (hx : x ∈ l)
    (h : s.length ≤ x.idx) : runActs l s = none := by
  unfold runActs
  induction l generalizing s with
  | nil => simp at hx
  | cons y l ih =>
    rw [forIn'_cons]
    by_cases hy : y.idx < s.length
    · rw [modifyAt_eq_some hy]
      rcases List.mem_cons.1 hx with rfl | hx
      · omega
      · exact ih hx (by simpa using h)
    · rw [modifyAt, if_neg hy]
      rfl

theorem convolveActs_some {ops : ConvolveOps V W A R} {a : ConvolveArgs V W}
    {pol : ConvolvePolicy V} {outp : OutPolicy R} {side : Option Side} {w : Window} {index : Nat}
    {l : List (Act (Cell R))} (h : convolveActs ops a pol outp side w index = some l) :
    ∃ x ∈ l, x.idx = index := by
  unfold convolveActs at h
  obtain ⟨fs, h1, rfl⟩ := Option.map_eq_some_iff.1 h
  have : ∃ f, fs = [f] := by
    unfold convolveCell at h1
    obtain ⟨k, _, h1⟩ := Option.bind_eq_some_iff.1 h1
    cases k with
    | true => exact ⟨_, (Option.some.inj h1).symm⟩
    | false =>
      obtain ⟨s1, _, h1⟩ := Option.bind_eq_some_iff.1 h1
      obtain ⟨s2, _, h1⟩ := Option.bind_eq_some_iff.1 h1
      rw [← Option.some.inj h1]
      unfold convolveFinish
      split
      · exact ⟨_, rfl⟩
      · exact ⟨_, rfl⟩
  obtain ⟨f, rfl⟩ := this
  exact ⟨⟨index, f⟩, by simp, rfl⟩

theorem mapM_id_mem {α : Type} {l : List (Option α)} {r : List α} (h : l.mapM id = some r)
    {x : Option α} (hx : x ∈ l) : ∃ y ∈ r, x = some y := by
  induction l generalizing r with
  | nil => simp at hx
  | cons a l ih =>
    rw [List.mapM_cons] at h
    obtain ⟨y, h1, h⟩ := Option.bind_eq_some_iff.1 h
    obtain ⟨ys, h2, h⟩ := Option.bind_eq_some_iff.1 h
    obtain rfl := Option.some.inj h
    rcases List.mem_cons.1 hx with rfl | hx
    · exact ⟨y, by simp, h1⟩
    · obtain ⟨z, hz, rfl⟩ := ih h2 hx
      exact ⟨z, by simp [hz], rfl⟩

/-- Fewer rows than the radius: the north-west corner writes below the last row. -/
theorem northWestCorner_small {ops : ConvolveOps V W A R} {a : ConvolveArgs V W}
    {pol : ConvolvePolicy V} {outp : OutPolicy R} (h : a.rows < a.radius)
    {l : List (Act (Cell R))} (hl : northWestCorner ops a pol outp = some l) :
    ∃ x ∈ l, x.idx = a.rows * a.cols := by
  unfold northWestCorner carryFor at hl
  obtain ⟨l', h1, h2⟩ := carryLoop_mem hl (j := a.rows) (by omega)
  obtain ⟨l'', h3, h4⟩ := carryLoop_mem h1 (j := 0) (by omega)
  obtain ⟨x, hx, hidx⟩ := convolveActs_some h3
  refine ⟨x, h2 x (h4 x hx), ?_⟩
  rw [hidx]
  simp [linearIndex]

theorem iterate_index (j index fcs : Nat) :
    (fun (p : Nat × Nat) => (p.1 + 1, p.2 + 1))^[j] (index, fcs) = (index + j, fcs + j) := by
  induction j generalizing index fcs with
  | zero => rfl
  | succ j ih =>
    rw [Function.iterate_succ_apply, ih]
    simp only [Prod.mk.injEq]
    omega

/-- Fewer columns than the radius: the north side does not stop before the end of the image. -/
theorem northSide_small {ops : ConvolveOps V W A R} {a : ConvolveArgs V W}
    {pol : ConvolvePolicy V} {outp : OutPolicy R} (h : a.cols < a.radius)
    (hsize : a.rows * a.cols + 2 * a.radius < 2 ^ 64)
    {l : List (Act (Cell R))} (hl : northSide ops a pol outp = some l) :
    ∃ x ∈ l, a.rows * a.cols ≤ x.idx := by
  unfold northSide carryFor at hl
  obtain ⟨l', h1, h2⟩ := carryLoop_mem hl (j := 0) (by omega)
  have hlt : a.rows * a.cols < usub a.cols a.radius - a.radius := by
    unfold usub
    rw [if_neg (by omega)]
    omega
  obtain ⟨l'', h3, h4⟩ := carryLoop_mem h1 (j := a.rows * a.cols) hlt
  have hit := iterate_index (a.rows * a.cols) (linearIndex a.cols (0 + 0) a.radius) 0
  erw [hit] at h3
  obtain ⟨x, hx, hidx⟩ := convolveActs_some h3
  refine ⟨x, h2 x (h4 x hx), ?_⟩
  rw [hidx]
  exact Nat.le_add_left _ _

theorem small_fails {ops : ConvolveOps V W A R} {a : ConvolveArgs V W}
    {pol : ConvolvePolicy V} {outp : OutPolicy R}
    (inner : IndexRanges2 → Option (List (Act (Cell R))))
    (h : a.rows < 2 * a.radius ∨ a.cols < 2 * a.radius)
    (hsize : a.rows * a.cols + 2 * a.radius < 2 ^ 64) {res : List (Cell R)}
    (hres : res.length = a.rows * a.cols) :
    convolveSequential ops a pol outp inner res = none := by
  by_contra hn
  obtain ⟨o, ho⟩ := Option.ne_none_iff_exists'.1 hn
  unfold convolveSequential at ho
  obtain ⟨rr, hrr, ho⟩ := Option.bind_eq_some_iff.1 ho
  obtain ⟨cr, hcr, ho⟩ := Option.bind_eq_some_iff.1 ho
  obtain ⟨regions, hreg, ho⟩ := Option.bind_eq_some_iff.1 ho
  have hout : ∀ region l, region = some l → region ∈ borderRegions ops a pol outp →
      (∃ x ∈ l, a.rows * a.cols ≤ x.idx) → False := by
    rintro _ l rfl hmem ⟨x, hx, hidx⟩
    obtain ⟨y, hy, he⟩ := mapM_id_mem hreg (x := some l) (by simp [hmem])
    obtain rfl := Option.some.inj he
    rw [runActs_out (List.mem_flatten.2 ⟨l, hy, hx⟩) (by omega)] at ho
    exact absurd ho (by simp)
  have hnw := mapM_id_mem hreg (x := northWestCorner ops a pol outp) (by simp [borderRegions])
  have hns := mapM_id_mem hreg (x := northSide ops a pol outp) (by simp [borderRegions])
  have hmake : ∀ n r, IndexRange.make a.radius (usub n a.radius) = some r → n < 2 * a.radius →
      n < a.radius := by
    intro n r hm hlt
    by_contra hge
    rw [usub_of_le (by omega)] at hm
    unfold IndexRange.make at hm
    rw [if_neg (by omega)] at hm
    exact absurd hm (by simp)
  rcases h with h | h
  · obtain ⟨l, _, hl⟩ := hnw
    obtain ⟨x, hx, hidx⟩ := northWestCorner_small (hmake _ _ hrr h) hl
    exact hout _ l hl (by simp [borderRegions]) ⟨x, hx, by omega⟩
  · obtain ⟨l, _, hl⟩ := hns
    obtain ⟨x, hx, hidx⟩ := northSide_small (hmake _ _ hcr h) hsize hl
    exact hout _ l hl (by simp [borderRegions]) ⟨x, hx, hidx⟩

end Fern
