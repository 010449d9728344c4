import Verif.Props.Convolve
import Verif.Spec.Smooth
import Mathlib.Algebra.BigOperators.Group.List.Lemmas
import Mathlib.Algebra.Order.BigOperators.Group.List
import Mathlib.Tactic.Linarith
import Mathlib.Tactic.Ring
import Mathlib.Tactic.FieldSimp
/-
Lemmas about weighted means of neighbourhoods.
-/
namespace Fern.Smooth

open Spec

variable {V W A R : Type}

theorem mem_kernelCells {radius : Nat} {pq : Nat × Nat} :
    pq ∈ kernelCells radius ↔ pq.1 ≤ 2 * radius ∧ pq.2 ≤ 2 * radius := by
  obtain ⟨p, q⟩ := pq
  simp only [kernelCells, List.mem_flatMap, List.mem_map, List.mem_range, Prod.mk.injEq]
  constructor
  · rintro ⟨p', hp, q', hq, rfl, rfl⟩
    omega
  · rintro ⟨hp, hq⟩
    exact ⟨p, by omega, q, by omega, rfl, rfl⟩

theorem kernelCells_nodup (radius : Nat) : (kernelCells radius).Nodup := by
  have : kernelCells radius = (List.range (2 * radius + 1)).product (List.range (2 * radius + 1)) := rfl
  rw [this]
  exact List.nodup_range.product List.nodup_range

theorem kernelCells_focus (radius : Nat) : (radius, radius) ∈ kernelCells radius :=
  mem_kernelCells.2 ⟨by simp; omega, by simp; omega⟩

theorem below_focus (cols radius i j : Nat) : below cols radius i j (radius, radius) = i * cols + j := by
  simp [below]

theorem inImage_focus {rows cols radius i j : Nat} (hi : i < rows) (hj : j < cols) :
    InImage rows cols radius i j (radius, radius) := by
  simp [InImage]
  omega

/-- The value and weight below a kernel cell, if there are any. -/
noncomputable def neighbour (a : ConvolveArgs V W) (i j : Nat) (pq : Nat × Nat) : Option (V × W) :=
  open Classical in
  if InImage a.rows a.cols a.radius i j pq ∧
      ¬ NoDataAt a.noData a.source (below a.cols a.radius i j pq) then
    (a.source[below a.cols a.radius i j pq]?).bind (fun v =>
      (a.weights[weightAt a.radius pq]?).map (fun w => (v, w)))
  else none

theorem neighbourhood_eq (a : ConvolveArgs V W) (i j : Nat) :
    neighbourhood a i j = (kernelCells a.radius).filterMap (neighbour a i j) := rfl

theorem neighbour_some {a : ConvolveArgs V W} {i j : Nat} {pq : Nat × Nat} {v : V} {w : W}
    (h : neighbour a i j pq = some (v, w)) :
    InImage a.rows a.cols a.radius i j pq ∧ ¬ NoDataAt a.noData a.source (below a.cols a.radius i j pq) ∧
      a.source[below a.cols a.radius i j pq]? = some v ∧ a.weights[weightAt a.radius pq]? = some w := by
  unfold neighbour at h
  split at h
  · next hc =>
    cases hv : a.source[below a.cols a.radius i j pq]? with
    | none => rw [hv] at h; cases h
    | some v' =>
      cases hw : a.weights[weightAt a.radius pq]? with
      | none => rw [hv, hw] at h; cases h
      | some w' =>
        rw [hv, hw] at h
        cases h
        exact ⟨hc.1, hc.2, rfl, rfl⟩
  · cases h

theorem neighbour_mk {a : ConvolveArgs V W} {i j : Nat} {pq : Nat × Nat} {v : V} {w : W}
    (h1 : InImage a.rows a.cols a.radius i j pq)
    (h2 : ¬ NoDataAt a.noData a.source (below a.cols a.radius i j pq))
    (h3 : a.source[below a.cols a.radius i j pq]? = some v) (h4 : a.weights[weightAt a.radius pq]? = some w) :
    neighbour a i j pq = some (v, w) := by
  unfold neighbour
  rw [if_pos ⟨h1, h2⟩, h3, h4]
  rfl

theorem mem_neighbourhood {a : ConvolveArgs V W} {i j : Nat} {vw : V × W} (h : vw ∈ neighbourhood a i j) :
    ∃ pq ∈ kernelCells a.radius, neighbour a i j pq = some vw := by
  rw [neighbourhood_eq, List.mem_filterMap] at h
  exact h

theorem below_lt {a : ConvolveArgs V W} {i j : Nat} {pq : Nat × Nat}
    (h : InImage a.rows a.cols a.radius i j pq) :
    i + pq.1 - a.radius < a.rows ∧ j + pq.2 - a.radius < a.cols := by
  obtain ⟨h1, h2, h3, h4⟩ := h
  omega

/-- Windows that look alike have the same neighbourhood. -/
theorem neighbourhood_alike {a b : ConvolveArgs V W} {i j i' j' : Nat} (h : Alike a b i j i' j') :
    neighbourhood b i' j' = neighbourhood a i j := by
  rw [neighbourhood_eq, neighbourhood_eq, h.radius]
  apply List.filterMap_congr
  intro pq hpq
  unfold neighbour
  rw [h.radius, h.weights]
  by_cases hin : InImage a.rows a.cols a.radius i j pq
  · have hin' := (h.inImage pq hpq).2 hin
    have hnd := h.noData pq hpq hin
    rw [h.values pq hpq hin]
    by_cases hn : NoDataAt a.noData a.source (below a.cols a.radius i j pq)
    · rw [if_neg (by tauto), if_neg (by tauto)]
    · rw [if_pos (by tauto), if_pos (by tauto)]
  · have hin' := (h.inImage pq hpq).not.2 hin
    rw [if_neg (by tauto), if_neg (by tauto)]

theorem marked_unique {outp : OutPolicy R} {c c1 c2 : Cell R} (h1 : Marked outp c c1) (h2 : Marked outp c c2) :
    c1 = c2 := by
  cases outp with
  | dontMark => exact h1.trans h2.symm
  | markValue nd =>
    obtain ⟨h1, h1'⟩ := h1
    obtain ⟨h2, h2'⟩ := h2
    cases c1; cases c2
    simp_all
  | markMask =>
    obtain ⟨h1, h1'⟩ := h1
    obtain ⟨h2, h2'⟩ := h2
    cases c1; cases c2
    simp_all

/-- What is stored is determined by what was there and by the values that count. -/
theorem convolvedCell_unique {ops : ConvolveOps V W A R} {outp : OutPolicy R} {keep : Prop} {l : List (V × W)}
    {c c1 c2 : Cell R} (h1 : ConvolvedCell ops outp keep l c c1) (h2 : ConvolvedCell ops outp keep l c c2) :
    c1 = c2 := by
  by_cases hk : keep
  · exact marked_unique (h1.kept hk) (h2.kept hk)
  · by_cases hl : l = []
    · exact marked_unique (h1.nothing hk hl) (h2.nothing hk hl)
    · cases hw : ops.within (sums ops l) with
      | false => exact marked_unique (h1.outOfRange hk hw) (h2.outOfRange hk hw)
      | true => rw [h1.ok hk hl hw, h2.ok hk hl hw]

/-- Neighbourhoods of images that are moved. -/
theorem neighbour_moved {a b : ConvolveArgs V W} {cell : Nat → Nat → Nat × Nat} {kc : Nat × Nat → Nat × Nat}
    (h : Moved a b cell kc) {i j i' j' : Nat} {pq : Nat × Nat} (hpq : pq ∈ kernelCells a.radius)
    (hin : InImage b.rows b.cols a.radius i j pq ↔ InImage a.rows a.cols a.radius i' j' (kc pq))
    (hcell : InImage b.rows b.cols a.radius i j pq →
      cell (i + pq.1 - a.radius) (j + pq.2 - a.radius) =
        (i' + (kc pq).1 - a.radius, j' + (kc pq).2 - a.radius)) :
    neighbour b i j pq = neighbour a i' j' (kc pq) := by
  unfold neighbour
  rw [h.radius, h.weights pq hpq]
  by_cases hb : InImage b.rows b.cols a.radius i j pq
  · have ha := hin.1 hb
    have hlt : i + pq.1 - a.radius < b.rows ∧ j + pq.2 - a.radius < b.cols := by
      obtain ⟨h1, h2, h3, h4⟩ := hb
      omega
    have hc := hcell hb
    have hv := h.values _ hlt.1 _ hlt.2
    have hn := h.noData _ hlt.1 _ hlt.2
    rw [hc] at hv hn
    have e1 : below b.cols a.radius i j pq = (i + pq.1 - a.radius) * b.cols + (j + pq.2 - a.radius) := rfl
    have e2 : below a.cols a.radius i' j' (kc pq) =
        (i' + (kc pq).1 - a.radius) * a.cols + (j' + (kc pq).2 - a.radius) := rfl
    rw [e1, e2, hv]
    simp only at hn
    by_cases hnd : NoDataAt a.noData a.source
        ((i' + (kc pq).1 - a.radius) * a.cols + (j' + (kc pq).2 - a.radius))
    · rw [if_neg (by tauto), if_neg (by tauto)]
    · rw [if_pos (by tauto), if_pos (by tauto)]
  · have ha := hin.not.1 hb
    rw [if_neg (by tauto), if_neg (by tauto)]

theorem neighbourhood_perm {a b : ConvolveArgs V W} {kc : Nat × Nat → Nat × Nat} {i j i' j' : Nat}
    (hr : b.radius = a.radius)
    (hmem : ∀ pq ∈ kernelCells a.radius, kc pq ∈ kernelCells a.radius)
    (hinv : ∀ pq ∈ kernelCells a.radius, kc (kc pq) = pq)
    (h : ∀ pq ∈ kernelCells a.radius, neighbour b i j pq = neighbour a i' j' (kc pq)) :
    (neighbourhood b i j).Perm (neighbourhood a i' j') := by
  rw [neighbourhood_eq, neighbourhood_eq, hr, List.filterMap_congr h]
  have : (kernelCells a.radius).filterMap (fun pq => neighbour a i' j' (kc pq)) =
      ((kernelCells a.radius).map kc).filterMap (neighbour a i' j') := by
    rw [List.filterMap_map]
    rfl
  rw [this]
  apply List.Perm.filterMap
  rw [List.perm_ext_iff_of_nodup _ (kernelCells_nodup _)]
  · intro pq
    rw [List.mem_map]
    constructor
    · rintro ⟨x, hx, rfl⟩
      exact hmem x hx
    · intro hpq
      exact ⟨kc pq, hmem pq hpq, hinv pq hpq⟩
  · refine List.Nodup.map_on ?_ (kernelCells_nodup _)
    intro x hx y hy hxy
    rw [← hinv x hx, ← hinv y hy, hxy]

/-! Weighted means. -/

/-- The weighted mean. -/
def mean (l : List (ℚ × ℚ)) : ℚ := (l.map (fun vw => vw.1 * vw.2)).sum / (l.map (fun vw => vw.2)).sum

theorem mean_perm {l l' : List (ℚ × ℚ)} (h : l.Perm l') : mean l = mean l' := by
  unfold mean
  rw [(h.map _).sum_eq, (h.map (fun vw : ℚ × ℚ => vw.2)).sum_eq]

theorem sum_mul_bounds (lo hi : ℚ) (l : List (ℚ × ℚ)) (hw : ∀ vw ∈ l, 0 ≤ vw.2)
    (hv : ∀ vw ∈ l, lo ≤ vw.1 ∧ vw.1 ≤ hi) :
    lo * (l.map (fun vw => vw.2)).sum ≤ (l.map (fun vw => vw.1 * vw.2)).sum ∧
      (l.map (fun vw => vw.1 * vw.2)).sum ≤ hi * (l.map (fun vw => vw.2)).sum := by
  induction l with
  | nil => simp
  | cons x l ih =>
    obtain ⟨h1, h2⟩ := ih (fun vw h => hw vw (List.mem_cons_of_mem _ h)) (fun vw h => hv vw (List.mem_cons_of_mem _ h))
    have hx := hw x (List.mem_cons_self ..)
    obtain ⟨hl, hh⟩ := hv x (List.mem_cons_self ..)
    have a1 := mul_le_mul_of_nonneg_right hl hx
    have a2 := mul_le_mul_of_nonneg_right hh hx
    simp only [List.map_cons, List.sum_cons]
    constructor <;> linarith

theorem sum_pos_of (l : List (ℚ × ℚ)) (hw : ∀ vw ∈ l, 0 ≤ vw.2) (h : ∃ vw ∈ l, vw.2 ≠ 0) :
    0 < (l.map (fun vw => vw.2)).sum := by
  have nonneg : ∀ l : List (ℚ × ℚ), (∀ vw ∈ l, 0 ≤ vw.2) → 0 ≤ (l.map (fun vw => vw.2)).sum := by
    intro l hl
    apply List.sum_nonneg
    intro x hx
    obtain ⟨vw, hvw, rfl⟩ := List.mem_map.1 hx
    exact hl vw hvw
  induction l with
  | nil => obtain ⟨_, h, _⟩ := h; cases h
  | cons x l ih =>
    have hx := hw x (List.mem_cons_self ..)
    have hl : ∀ vw ∈ l, 0 ≤ vw.2 := fun vw h => hw vw (List.mem_cons_of_mem _ h)
    rw [List.map_cons, List.sum_cons]
    obtain ⟨vw, hvw, hne⟩ := h
    rcases List.mem_cons.1 hvw with rfl | hvw
    · have := lt_of_le_of_ne hx (Ne.symm hne)
      have := nonneg l hl
      linarith
    · have := ih hl ⟨vw, hvw, hne⟩
      linarith

theorem mean_bounds {lo hi : ℚ} {l : List (ℚ × ℚ)} (hw : ∀ vw ∈ l, 0 ≤ vw.2) (h : ∃ vw ∈ l, vw.2 ≠ 0)
    (hv : ∀ vw ∈ l, lo ≤ vw.1 ∧ vw.1 ≤ hi) : lo ≤ mean l ∧ mean l ≤ hi := by
  have hp := sum_pos_of l hw h
  obtain ⟨h1, h2⟩ := sum_mul_bounds lo hi l hw hv
  unfold mean
  exact ⟨by rw [le_div_iff₀ hp]; exact h1, by rw [div_le_iff₀ hp]; exact h2⟩

theorem mean_const {v : ℚ} {l : List (ℚ × ℚ)} (hs : (l.map (fun vw => vw.2)).sum ≠ 0) (hv : ∀ vw ∈ l, vw.1 = v) :
    mean l = v := by
  have : (l.map (fun vw => vw.1 * vw.2)).sum = v * (l.map (fun vw => vw.2)).sum := by
    clear hs
    induction l with
    | nil => simp
    | cons x l ih =>
      simp only [List.map_cons, List.sum_cons, ih (fun vw h => hv vw (List.mem_cons_of_mem _ h)),
        hv x (List.mem_cons_self ..)]
      ring
  rw [mean, this, mul_div_assoc, div_self hs, mul_one]

theorem mean_affine (m b : ℚ) {l : List (ℚ × ℚ)} (hs : (l.map (fun vw => vw.2)).sum ≠ 0) :
    mean (l.map (fun vw => (m * vw.1 + b, vw.2))) = m * mean l + b := by
  have h1 : ((l.map (fun vw => (m * vw.1 + b, vw.2))).map (fun vw : ℚ × ℚ => vw.2)).sum =
      (l.map (fun vw => vw.2)).sum := by
    rw [List.map_map]; rfl
  have h2 : ((l.map (fun vw => (m * vw.1 + b, vw.2))).map (fun vw : ℚ × ℚ => vw.1 * vw.2)).sum =
      m * (l.map (fun vw => vw.1 * vw.2)).sum + b * (l.map (fun vw => vw.2)).sum := by
    clear hs h1
    induction l with
    | nil => simp
    | cons x l ih =>
      simp only [List.map_cons, List.sum_cons, ih]
      ring
  rw [mean, mean, h1, h2]
  field_simp

theorem mean_scaled {k : ℚ} (hk : k ≠ 0) (l : List (ℚ × ℚ)) :
    mean (l.map (fun vw => (vw.1, k * vw.2))) = mean l := by
  have h1 : ((l.map (fun vw => (vw.1, k * vw.2))).map (fun vw : ℚ × ℚ => vw.2)).sum =
      k * (l.map (fun vw => vw.2)).sum := by
    induction l with
    | nil => simp
    | cons x l ih =>
      simp only [List.map_cons, List.sum_cons, ih]
      ring
  have h2 : ((l.map (fun vw => (vw.1, k * vw.2))).map (fun vw : ℚ × ℚ => vw.1 * vw.2)).sum =
      k * (l.map (fun vw => vw.1 * vw.2)).sum := by
    clear h1
    induction l with
    | nil => simp
    | cons x l ih =>
      simp only [List.map_cons, List.sum_cons, ih]
      ring
  rw [mean, mean, h1, h2]
  exact mul_div_mul_left _ _ hk

theorem mean_nonzero (l : List (ℚ × ℚ)) : mean (l.filter (fun vw => decide (vw.2 ≠ 0))) = mean l := by
  have h1 : ∀ l : List (ℚ × ℚ), ((l.filter (fun vw => decide (vw.2 ≠ 0))).map (fun vw => vw.2)).sum =
      (l.map (fun vw => vw.2)).sum := by
    intro l
    induction l with
    | nil => rfl
    | cons x l ih =>
      by_cases hx : x.2 = 0
      · rw [List.filter_cons_of_neg (by simp [hx]), ih]; simp [hx]
      · rw [List.filter_cons_of_pos (by simp [hx])]; simp only [List.map_cons, List.sum_cons, ih]
  have h2 : ∀ l : List (ℚ × ℚ), ((l.filter (fun vw => decide (vw.2 ≠ 0))).map (fun vw => vw.1 * vw.2)).sum =
      (l.map (fun vw => vw.1 * vw.2)).sum := by
    intro l
    induction l with
    | nil => rfl
    | cons x l ih =>
      by_cases hx : x.2 = 0
      · rw [List.filter_cons_of_neg (by simp [hx]), ih]; simp [hx]
      · rw [List.filter_cons_of_pos (by simp [hx])]; simp only [List.map_cons, List.sum_cons, ih]
  rw [mean, mean, h1, h2]

/-- If only the focus has a weight, only its value counts. -/
theorem mean_focus {a : ConvolveArgs V ℚ} {φ : V × ℚ → ℚ} {i j : Nat} {v : V} {w : ℚ}
    (hf : neighbour a i j (a.radius, a.radius) = some (v, w))
    (hφ : ∀ v, φ (v, 0) = 0)
    (h0 : ∀ pq ∈ kernelCells a.radius, pq ≠ (a.radius, a.radius) → a.weights[weightAt a.radius pq]? = some 0) :
    ((neighbourhood a i j).map φ).sum = φ (v, w) := by
  have key : ∀ l : List (Nat × Nat), ((l.filterMap (neighbour a i j)).map φ).sum =
      (l.map (fun pq => match neighbour a i j pq with | some vw => φ vw | none => 0)).sum := by
    intro l
    induction l with
    | nil => rfl
    | cons x l ih =>
      cases hx : neighbour a i j x with
      | none => rw [List.filterMap_cons_none hx, ih]; simp [hx]
      | some vw => rw [List.filterMap_cons_some hx]; simp only [List.map_cons, List.sum_cons, ih, hx]
  rw [neighbourhood_eq, key, List.sum_map_eq_nsmul_single (a.radius, a.radius)]
  · have hc : ∀ (b : BEq (Nat × Nat)) (_ : LawfulBEq (Nat × Nat)),
        @List.count _ b (a.radius, a.radius) (kernelCells a.radius) = 1 :=
      fun b _ => List.count_eq_one_of_mem (kernelCells_nodup _) (kernelCells_focus _)
    rw [hc, hf, one_nsmul]
    infer_instance
  · intro pq hne hpq
    cases hx : neighbour a i j pq with
    | none => rfl
    | some vw =>
      obtain ⟨v', w'⟩ := vw
      have := (neighbour_some hx).2.2.2
      rw [h0 pq hpq hne] at this
      cases this
      exact hφ v'

end Fern.Smooth
