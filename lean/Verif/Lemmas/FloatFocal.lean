import Verif.Lemmas.FloatConvolve
import Verif.Props.FocalAverage
import Verif.Model.FloatFocal
import Verif.Spec.FloatFocal

/-! # Rounding errors of averages that replace missing values -/

namespace Fern.FloatFocal

open Fern Fern.Domains Fern.Spec Fern.Casts Fern.FloatArith Fern.FloatArith.Spec Fern.FloatConvolve
open Fern.FloatVector (round_represents round_some step_error)
open _root_.Fern.FloatConvolve.Spec _root_.Fern.FloatFocal.Spec

/-- Around a position there are at most nine cells. -/
theorem around_length {V W : Type} (a : ConvolveArgs V W) (x y : Int) : (around a x y).length ≤ 9 := by
  classical
  have h1 : (around a x y).length ≤ ((imageCells a.rows a.cols).filter fun pq => decide (Fern.Spec.Near x y pq)).length := by
    unfold around
    generalize imageCells a.rows a.cols = l
    induction l with
    | nil => simp
    | cons pq l ih =>
      rw [List.filterMap_cons, List.filter_cons]
      by_cases hn : Fern.Spec.Near x y pq
      · simp only [hn, decide_true, if_true, List.length_cons, true_and]
        split
        · exact Nat.le_succ_of_le ih
        · exact Nat.succ_le_succ ih
      · simp only [hn, decide_false, false_and, if_false]
        exact ih
  refine h1.trans ?_
  have hnd : (imageCells a.rows a.cols).Nodup := by
    unfold imageCells
    rw [List.nodup_flatMap]
    refine ⟨fun p _ => (List.nodup_range).map fun q q' h => (Prod.mk.inj h).2, ?_⟩
    refine List.Pairwise.imp ?_ (List.nodup_range (n := a.rows))
    intro p p' hne
    rw [Function.onFun, List.disjoint_left]
    intro z hz hz'
    obtain ⟨q, -, rfl⟩ := List.mem_map.1 hz
    obtain ⟨q', -, h⟩ := List.mem_map.1 hz'
    exact hne (Prod.mk.inj h).1.symm
  have hcard : ((imageCells a.rows a.cols).filter fun pq => decide (Fern.Spec.Near x y pq)).length =
      (((imageCells a.rows a.cols).filter fun pq => decide (Fern.Spec.Near x y pq)).map
        fun pq : Nat × Nat => ((pq.1 : Int), (pq.2 : Int))).toFinset.card := by
    rw [List.toFinset_card_of_nodup, List.length_map]
    refine (hnd.filter _).map ?_
    rintro ⟨p, q⟩ ⟨p', q'⟩ h
    simpa using h
  rw [hcard]
  refine (Finset.card_le_card (t := Finset.Icc (x - 1) (x + 1) ×ˢ Finset.Icc (y - 1) (y + 1)) ?_).trans ?_
  · intro z hz
    rw [List.mem_toFinset] at hz
    obtain ⟨pq, hpq, rfl⟩ := List.mem_map.1 hz
    have hn : Fern.Spec.Near x y pq := by simpa using (List.mem_filter.1 hpq).2
    unfold Fern.Spec.Near at hn
    simp only [Finset.mem_product, Finset.mem_Icc]
    omega
  · rw [Finset.card_product, Int.card_Icc, Int.card_Icc]
    have e1 : (x + 1 + 1 - (x - 1)).toNat = 3 := by omega
    have e2 : (y + 1 + 1 - (y - 1)).toNat = 3 := by omega
    rw [e1, e2]

theorem around_valid {V W : Type} {a : ConvolveArgs V W} {x y : Int} {v : V} (h : v ∈ around a x y) :
    ∃ n, a.source[n]? = some v ∧ ¬ NoDataAt a.noData a.source n := by
  unfold around at h
  obtain ⟨pq, -, hpq⟩ := List.mem_filterMap.1 h
  split at hpq
  · rename_i hc
    exact ⟨_, hpq, hc.2⟩
  · simp at hpq

/-! ### Errors -/

theorem additionError_nonneg (n : Nat) {m : Rat} (h : 0 ≤ m) : 0 ≤ additionError n m := by
  have := additionError_mono n h
  simpa [additionError] using this

theorem additionError_length {n n' : Nat} (h : n ≤ n') {m : Rat} (hm : 0 ≤ m) : additionError n m ≤ additionError n' m := by
  unfold additionError
  refine mul_le_mul_of_nonneg_right ?_ hm
  have : ((1 : Rat) + 1 / 2 ^ 53) ^ n ≤ (1 + 1 / 2 ^ 53) ^ n' := pow_le_pow_right₀ (by norm_num) h
  linarith

theorem roundingError_nonneg (t : FltTy) {b : Rat} (h : 0 ≤ b) : 0 ≤ roundingError t b := by
  have := mul_nonneg (unit_pos t).le h
  have := (tiny_pos t).le
  unfold roundingError
  linarith

theorem quotientError_nonneg {b : Rat} (h : 0 ≤ b) : 0 ≤ quotientError b := by
  have h1 := additionError_nonneg 9 h
  have := roundingError_nonneg .double (b := b + additionError 9 b) (by linarith)
  unfold quotientError
  linarith

theorem averageError_nonneg (v : FltTy) {b : Rat} (h : 0 ≤ b) : 0 ≤ averageError v b := by
  have h1 := quotientError_nonneg h
  have := roundingError_nonneg v (b := b + quotientError b) (by linarith)
  unfold averageError
  linarith

/-- Rounding to a type. -/
theorem rounding {t : FltTy} {q b : Rat} (hq : |q| ≤ b) (hb : b < limit t) :
    ∃ r, t.round q = .fin r ∧ Represents t.num r ∧ |r - q| ≤ roundingError t b := by
  obtain ⟨r, hr⟩ := round_some (t := t) (hq.trans_lt hb)
  refine ⟨r, hr, round_represents hr, ?_⟩
  rw [abs_sub_comm]
  refine (round_error hr).trans (max_le ?_ ?_)
  · have := mul_le_mul_of_nonneg_left hq (unit_pos t).le
    have := (tiny_pos t).le
    unfold roundingError
    linarith
  · have := mul_nonneg (unit_pos t).le ((abs_nonneg q).trans hq)
    unfold roundingError
    linarith

theorem sum_bound (l : List Rat) {b : Rat} (h : ∀ q ∈ l, |q| ≤ b) : (l.map fun q => |q|).sum ≤ l.length * b := by
  induction l with
  | nil => simp
  | cons q l ih =>
    have h1 := h q (by simp)
    have h2 := ih fun q' hq' => h q' (List.mem_cons_of_mem _ hq')
    rw [List.map_cons, List.sum_cons, List.length_cons]
    push_cast
    linarith

theorem abs_sum (l : List Rat) : |l.sum| ≤ (l.map fun q => |q|).sum := by
  induction l with
  | nil => simp
  | cons q l ih =>
    rw [List.map_cons, List.sum_cons, List.sum_cons]
    exact (abs_add_le _ _).trans (by linarith)

theorem count_exact (v : FltTy) {n : Nat} (h : n ≤ 9) : v.round (n : Rat) = .fin n := by
  refine round_exact v ?_
  have := represents_small v (i := (n : Int)) (by
    rw [abs_of_nonneg (by omega)]
    have : (9 : Int) ≤ small v := by cases v <;> decide
    omega)
  simpa using this

/-- The average of at most nine numbers. -/
theorem average_near (v : FltTy) (l : List Rat) (hne : l ≠ []) (hlen : l.length ≤ 9) (hl : ∀ q ∈ l, Represents v.num q) {b : Rat}
    (hb : ∀ q ∈ l, |q| ≤ b) (hlim : 9 * (b + additionError 9 b) < limit .double) (hlim' : b + averageError v b < limit v) :
    ∃ r, (fltAverage v).divide ((l.map Flt.fin).foldl (fltAverage v).add (fltAverage v).zero) l.length = .fin r ∧
      Represents v.num r ∧ |r - l.sum / l.length| ≤ averageError v b := by
  obtain ⟨q0, hq0⟩ := List.exists_mem_of_ne_nil l hne
  have hb0 : 0 ≤ b := (abs_nonneg q0).trans (hb q0 hq0)
  have hn0 : 0 < l.length := List.length_pos_iff.2 hne
  have hn : (0 : Rat) < l.length := by exact_mod_cast hn0
  have hn9 : (l.length : Rat) ≤ 9 := by exact_mod_cast hlen
  have hA := additionError_nonneg 9 hb0
  have hsum := sum_bound l hb
  have hadd : additionError l.length (l.map fun q => |q|).sum ≤ l.length * additionError 9 b := by
    refine (additionError_mono _ hsum).trans ?_
    have : additionError l.length (l.length * b) = l.length * additionError l.length b := by unfold additionError; ring
    rw [this]
    exact mul_le_mul_of_nonneg_left (additionError_length hlen hb0) hn.le
  have hnb : (l.length : Rat) * (b + additionError 9 b) ≤ 9 * (b + additionError 9 b) :=
    mul_le_mul_of_nonneg_right hn9 (by linarith)
  obtain ⟨s, s1, -, s3⟩ := fold_zero l (fun q hq => represents_double (hl q hq)) (by
    refine lt_of_le_of_lt ?_ hlim
    refine le_trans ?_ hnb
    rw [mul_add]
    linarith)
  have hq : |s / l.length - l.sum / l.length| ≤ additionError 9 b := by
    rw [← sub_div, abs_div, abs_of_pos hn, div_le_iff₀ hn, mul_comm]
    exact s3.trans hadd
  have hm : |l.sum / l.length| ≤ b := by
    rw [abs_div, abs_of_pos hn, div_le_iff₀ hn, mul_comm]
    exact (abs_sum l).trans hsum
  have hq' : |s / l.length| ≤ b + additionError 9 b := by
    have : s / l.length = (s / l.length - l.sum / l.length) + l.sum / l.length := by ring
    rw [this]
    exact (abs_add_le _ _).trans (by linarith)
  have hB : b + additionError 9 b < limit .double := by linarith
  obtain ⟨d, d1, -, d3⟩ := rounding hq' hB
  have hQ : |d - l.sum / l.length| ≤ quotientError b := by
    have : d - l.sum / l.length = (d - s / l.length) + (s / l.length - l.sum / l.length) := by ring
    rw [this]
    refine (abs_add_le _ _).trans ?_
    unfold quotientError
    linarith
  have hd : |d| ≤ b + quotientError b := by
    have : d = (d - l.sum / l.length) + l.sum / l.length := by ring
    rw [this]
    exact (abs_add_le _ _).trans (by linarith)
  have hq0' := quotientError_nonneg hb0
  have hR := roundingError_nonneg v (b := b + quotientError b) (by linarith)
  obtain ⟨r, r1, r2, r3⟩ := rounding (t := v) hd (by unfold averageError at hlim'; linarith)
  refine ⟨r, ?_, r2, ?_⟩
  · have e : (l.map Flt.fin).foldl (fltAverage v).add (fltAverage v).zero = .fin s := s1
    rw [e]
    show store v (quotient (.fin s) (v.round (l.length : Rat))) = _
    rw [count_exact v hlen]
    have : quotient (.fin s) (.fin (l.length : Rat)) = FltTy.double.round (s / l.length) := by
      simp [quotient, over, hn.ne']
    rw [this, d1, store_fin, r1]
  · have : r - l.sum / l.length = (r - d) + (d - l.sum / l.length) := by ring
    rw [this]
    refine (abs_add_le _ _).trans ?_
    unfold averageError
    linarith

theorem mean_bound {l : List Rat} {b m : Rat} (h : ∀ q ∈ l, |q| ≤ b) (hm : mean l = some m) : |m| ≤ b := by
  unfold mean at hm
  split at hm
  · simp at hm
  · rename_i hne
    cases hm
    have hn : (0 : Rat) < l.length := by exact_mod_cast List.length_pos_iff.2 hne
    rw [abs_div, abs_of_pos hn, div_le_iff₀ hn, mul_comm]
    exact (abs_sum l).trans (sum_bound l h)

/-- A number instead of another one. -/
structure Replaces (v : FltTy) (b : Rat) (x : Flt) (m : Rat) : Prop where
  value : ∃ r, x = .fin r ∧ Represents v.num r ∧ |r - m| ≤ averageError v b
  bound : |m| ≤ b

/-- The value of a position and the mean of the cells around it. -/
theorem focal_near {W : Type} (v : FltTy) {a : ConvolveArgs Flt W} (hv : Values v a.noData a.source) {b : Rat}
    (hb : Bounded b a.noData a.source) (hlim : 9 * (b + additionError 9 b) < limit .double)
    (hlim' : b + averageError v b < limit v) (x y : Int) :
    (meanAround a x y = none ∧ focalAverage (fltAverage v) a x y = none) ∨
    ∃ m f, meanAround a x y = some m ∧ focalAverage (fltAverage v) a x y = some f ∧ Replaces v b f m := by
  have hval : ∀ f ∈ around a x y, f = .fin (number f) ∧ Represents v.num (number f) ∧ |number f| ≤ b := by
    intro f hf
    obtain ⟨n, h1, h2⟩ := around_valid hf
    obtain ⟨q, rfl, hq⟩ := hv n f h1 h2
    exact ⟨rfl, hq, hb n _ h1 h2⟩
  have hlen := around_length a x y
  unfold meanAround focalAverage
  generalize around a x y = l at hval hlen
  by_cases hl : l = []
  · subst hl
    exact .inl ⟨rfl, rfl⟩
  · right
    have hne : l.map number ≠ [] := by simpa using hl
    have hm : mean (l.map number) = some ((l.map number).sum / (l.map number).length) := by simp [mean, hl]
    have e : (l.map number).map Flt.fin = l := by
      rw [List.map_map]
      conv_rhs => rw [← List.map_id l]
      exact List.map_congr_left fun f hf => (hval f hf).1.symm
    have hb' : ∀ q ∈ l.map number, |q| ≤ b := by
      intro q hq
      obtain ⟨f, hf, rfl⟩ := List.mem_map.1 hq
      exact (hval f hf).2.2
    obtain ⟨r, r1, r2, r3⟩ := average_near v (l.map number) hne (by simpa using hlen) (by
      intro q hq
      obtain ⟨f, hf, rfl⟩ := List.mem_map.1 hq
      exact (hval f hf).2.1) hb' hlim hlim'
    rw [e, List.length_map] at r1
    refine ⟨_, .fin r, hm, ?_, ⟨r, rfl, r2, r3⟩, mean_bound hb' hm⟩
    rw [← r1]
    cases l with
    | nil => exact absurd rfl hl
    | cons f l => rfl

/-! ### What counts -/

/-- Elements that belong together. -/
theorem filterMap_forall {α β γ : Type} {R : β → γ → Prop} {f : α → Option β} {g : α → Option γ} (l : List α)
    (h : ∀ z ∈ l, (f z = none ∧ g z = none) ∨ ∃ y w, f z = some y ∧ g z = some w ∧ R y w) :
    List.Forall₂ R (l.filterMap f) (l.filterMap g) := by
  induction l with
  | nil => simp
  | cons z l ih =>
    have h2 := ih fun z' hz' => h z' (List.mem_cons_of_mem _ hz')
    rcases h z (by simp) with ⟨h1, h1'⟩ | ⟨y, w, h1, h1', h3⟩
    · rw [List.filterMap_cons_none h1, List.filterMap_cons_none h1']
      exact h2
    · rw [List.filterMap_cons_some h1, List.filterMap_cons_some h1']
      exact .cons h3 h2

variable {W C : Type}

/-- A value and a weight instead of numbers. -/
def Instead (k : Weights W C) (v : FltTy) (b : Rat) (a : ConvolveArgs Flt W) (vw : Flt × W) (xw : Rat × Rat) : Prop :=
  Replaces v b vw.1 xw.1 ∧ vw.2 ∈ a.weights ∧ number (k.value vw.2) = xw.2

theorem terms_filled (k : Weights W C) (v r : FltTy) (checkRange divide : Bool) {a : ConvolveArgs Flt W} (ha : ArgsOk a)
    (hv : Values v a.noData a.source) (hw : ∀ w ∈ a.weights, ∃ y, k.value w = .fin y) {b : Rat}
    (hb : Bounded b a.noData a.source) (hb0 : 0 ≤ b) (hlim : 9 * (b + additionError 9 b) < limit .double)
    (hlim' : b + averageError v b < limit v) (i j : Nat) :
    List.Forall₂ (Instead k v b a)
      (terms (weightedOps k v r checkRange divide) a (fun x y => focalAverage (fltAverage v) a x y)
        (focalAverage (fltAverage v) a) i j)
      (filled (fun w => number (k.value w)) a i j) := by
  unfold terms filled
  refine List.rel_append (filterMap_forall _ ?_) (filterMap_forall _ ?_)
  · intro pq hpq
    obtain ⟨h1, h2⟩ := List.mem_filter.1 hpq
    have hout : ¬ InImage a.rows a.cols a.radius i j pq := by simpa using h2
    obtain ⟨w, hw'⟩ := weights_get ha (mem_kernelCells.1 h1).1 (mem_kernelCells.1 h1).2
    unfold outsideTerm filledTerm
    rw [hw', Option.bind_some, if_neg fun h => hout h.1]
    rcases focal_near v hv hb hlim hlim' ((i : Int) + pq.1 - a.radius) ((j : Int) + pq.2 - a.radius) with
      ⟨e1, e2⟩ | ⟨m, f, e1, e2, e3⟩
    · exact .inl ⟨by rw [e2]; rfl, by rw [e1]; rfl⟩
    · exact .inr ⟨_, _, by rw [e2]; rfl, by rw [e1]; rfl, e3, List.mem_of_getElem? hw', rfl⟩
  · intro pq hpq
    obtain ⟨h1, h2⟩ := List.mem_filter.1 hpq
    have hin : InImage a.rows a.cols a.radius i j pq := by simpa using h2
    obtain ⟨w, hw'⟩ := weights_get ha (mem_kernelCells.1 h1).1 (mem_kernelCells.1 h1).2
    unfold imageTerm filledTerm
    rw [hw', Option.bind_some]
    by_cases hnd : NoDataAt a.noData a.source (below a.cols a.radius i j pq)
    · rw [if_pos hnd, if_neg fun h => h.2 hnd]
      have e : (((i + pq.1 - a.radius : Nat) : Int)) = (i : Int) + pq.1 - a.radius := by unfold InImage at hin; omega
      have e' : (((j + pq.2 - a.radius : Nat) : Int)) = (j : Int) + pq.2 - a.radius := by unfold InImage at hin; omega
      beta_reduce
      rw [e, e']
      rcases focal_near v hv hb hlim hlim' ((i : Int) + pq.1 - a.radius) ((j : Int) + pq.2 - a.radius) with
        ⟨e1, e2⟩ | ⟨m, f, e1, e2, e3⟩
      · exact .inl ⟨by rw [e2]; rfl, by rw [e1]; rfl⟩
      · exact .inr ⟨_, _, by rw [e2]; rfl, by rw [e1]; rfl, e3, List.mem_of_getElem? hw', rfl⟩
    · rw [if_neg hnd, if_pos ⟨hin, hnd⟩]
      have hlt : below a.cols a.radius i j pq < a.source.length := by
        rw [ha.source]
        unfold InImage at hin
        unfold Fern.Spec.below
        have h3 : i + pq.1 - a.radius + 1 ≤ a.rows := by omega
        have h4 := Nat.mul_le_mul_right a.cols h3
        rw [Nat.add_mul, Nat.one_mul] at h4
        omega
      obtain ⟨y, hy⟩ := hw w (List.mem_of_getElem? hw')
      have hz : (weightedOps k v r checkRange divide).nonZero w = decide (number (k.value w) ≠ 0) := by
        simp [weightedOps, hy, number, Flt.eq]
      rw [List.getElem?_eq_getElem hlt, Option.bind_some, Option.bind_some, hz]
      by_cases h0 : number (k.value w) = 0
      · exact .inl ⟨by simp [h0], by rw [if_pos h0]⟩
      · refine .inr ⟨(a.source[Fern.Spec.below a.cols a.radius i j pq], w), _, by simp [h0], by rw [if_neg h0]; rfl, ?_,
          List.mem_of_getElem? hw', rfl⟩
        obtain ⟨q, q1, q2⟩ := hv _ _ (List.getElem?_eq_getElem hlt) hnd
        have q3 := hb _ _ (List.getElem?_eq_getElem hlt) hnd
        refine ⟨⟨q, q1, q2, ?_⟩, q3⟩
        have := averageError_nonneg v hb0
        simpa [q1, number] using this

/-- Sums of numbers that are near to others. -/
theorem filled_sums (k : Weights W C) (v : FltTy) {b : Rat} {a : ConvolveArgs Flt W} {l' : List (Flt × W)} {l : List (Rat × Rat)}
    (h : List.Forall₂ (Instead k v b a) l' l) :
    |FloatConvolve.Spec.weightedSum (l'.map (pairOf k)) - FloatConvolve.Spec.weightedSum l| ≤ averageError v b * weightMagnitudes l ∧
    magnitudes (l'.map (pairOf k)) ≤ (b + averageError v b) * weightMagnitudes l ∧
    (l'.map Prod.snd).map (fun w => number (k.value w)) = l.map Prod.snd ∧ l'.length = l.length := by
  induction h with
  | nil => simp [FloatConvolve.Spec.weightedSum, magnitudes, weightMagnitudes]
  | @cons vw xw l' l h1 h2 ih =>
    obtain ⟨i1, i2, i3, i4⟩ := ih
    obtain ⟨⟨⟨r, r1, -, r3⟩, hm⟩, -, hw⟩ := h1
    have ep : pairOf k vw = (r, xw.2) := by rw [pairOf, r1, hw]; rfl
    have hr : |r| ≤ b + averageError v b := by
      have : r = (r - xw.1) + xw.1 := by ring
      rw [this]
      exact (abs_add_le _ _).trans (by linarith)
    have hy := abs_nonneg xw.2
    simp only [FloatConvolve.Spec.weightedSum, magnitudes, weightMagnitudes, List.map_cons, List.sum_cons, List.length_cons, ep] at i1 i2 ⊢
    refine ⟨?_, ?_, by rw [hw, i3], by rw [i4]⟩
    · have : r * xw.2 + ((l'.map (pairOf k)).map fun xw => xw.1 * xw.2).sum -
          (xw.1 * xw.2 + (l.map fun xw => xw.1 * xw.2).sum) = (r - xw.1) * xw.2 +
          (((l'.map (pairOf k)).map fun xw => xw.1 * xw.2).sum - (l.map fun xw => xw.1 * xw.2).sum) := by ring
      rw [this]
      refine (abs_add_le _ _).trans ?_
      rw [abs_mul, mul_add]
      have := mul_le_mul_of_nonneg_right r3 hy
      linarith
    · rw [abs_mul, mul_add]
      have := mul_le_mul_of_nonneg_right hr hy
      linarith

theorem convolutionError_mono (p : FltTy) (n : Nat) {m m' : Rat} (h : m ≤ m') :
    convolutionError p n m ≤ convolutionError p n m' := by
  have h1 : productError p n m ≤ productError p n m' := by
    unfold productError
    have := mul_le_mul_of_nonneg_left h (unit_pos p).le
    linarith
  unfold convolutionError
  have := additionError_mono n (add_le_add h h1)
  linarith

/-- All runs of a convolution with averages give the same raster. -/
theorem gives_focal (k : Weights W C) (v r : FltTy) (checkRange divide keep : Bool) (outp : OutPolicy Flt)
    {a : ConvolveArgs Flt W} (ha : ArgsOk a) (hr : 2 * a.radius + 1 ≤ a.rows) (hc : 2 * a.radius + 1 ≤ a.cols)
    (hno : NoneIsolated a (focalPolicy v a keep)) {res : List (Cell Flt)} (hres : res.length = a.rows * a.cols) :
    ∃ out, (∀ m : Execution, m.Ok → ∀ o, convolveRun m (weightedOps k v r checkRange divide) a (focalPolicy v a keep) outp
        (a.rows, a.cols) res o ↔ o = some out) ∧ out.length = res.length ∧
      ∀ i < a.rows, ∀ j < a.cols, ∃ c c', res[i * a.cols + j]? = some c ∧ out[i * a.cols + j]? = some c' ∧
        ConvolvedCell (weightedOps k v r checkRange divide) outp (KeptAt keep a i j)
          (terms (weightedOps k v r checkRange divide) a (fun x y => focalAverage (fltAverage v) a x y)
            (focalAverage (fltAverage v) a) i j) c c' := by
  obtain ⟨out, h1, h2, h3, h4⟩ := C71_convolve (weightedOps k v r checkRange divide) (fltAverage v) keep outp ha hr hc hno hres
  refine ⟨out, fun m hm => ?_, h2, h3⟩
  cases m with
  | sequential => exact Gives.one h1
  | parallel t => exact h4 t hm

/-- Convolution with averages, in terms of sums. -/
theorem focal_raster (k : Weights W C) (v r : FltTy) (checkRange divide keep : Bool) (outp : OutPolicy Flt)
    {a : ConvolveArgs Flt W} (ha : ArgsOk a) (hr : 2 * a.radius + 1 ≤ a.rows) (hc : 2 * a.radius + 1 ≤ a.cols)
    (hno : NoneIsolated a (focalPolicy v a keep)) (hv : Values v a.noData a.source)
    (hw : ∀ w ∈ a.weights, ∃ y, k.value w = .fin y ∧ Represents (productType v k.type).num y)
    {b : Rat} (hb : Bounded b a.noData a.source) (hb0 : 0 ≤ b) (hlim : 9 * (b + additionError 9 b) < limit .double)
    (hlim' : b + averageError v b < limit v)
    (hprod : ∀ w ∈ a.weights, (b + averageError v b) * |number (k.value w)| < limit (productType v k.type))
    {res : List (Cell Flt)} (hres : res.length = a.rows * a.cols) :
    ∃ out, (∀ m : Execution, m.Ok → ∀ o, convolveRun m (weightedOps k v r checkRange divide) a (focalPolicy v a keep) outp
        (a.rows, a.cols) res o ↔ o = some out) ∧ out.length = res.length ∧
      ∀ i < a.rows, ∀ j < a.cols, ∃ c c', res[i * a.cols + j]? = some c ∧ out[i * a.cols + j]? = some c' ∧
        (KeptAt keep a i j → Marked outp c c') ∧
        (¬ KeptAt keep a i j → filled (fun w => number (k.value w)) a i j = [] → Marked outp c c') ∧
        (¬ KeptAt keep a i j → ∀ l, l = filled (fun w => number (k.value w)) a i j → l ≠ [] →
          (b + averageError v b) * weightMagnitudes l +
            convolutionError (productType v k.type) l.length ((b + averageError v b) * weightMagnitudes l) < limit .double →
          ∃ ws : List W, (∀ w ∈ ws, w ∈ a.weights) ∧ ws.map (fun w => number (k.value w)) = l.map Prod.snd ∧
            ∃ s, |s - FloatConvolve.Spec.weightedSum l| ≤
                convolutionError (productType v k.type) l.length ((b + averageError v b) * weightMagnitudes l) +
                averageError v b * weightMagnitudes l ∧
              ∀ w, k.total (ws.foldl k.count k.none) = .fin w → Stored outp r checkRange divide s w c c') := by
  obtain ⟨out, h1, h2, h3⟩ := gives_focal k v r checkRange divide keep outp ha hr hc hno hres
  refine ⟨out, h1, h2, fun i hi j hj => ?_⟩
  obtain ⟨c, c', hc1, hc2, hcell⟩ := h3 i hi j hj
  have hf := terms_filled k v r checkRange divide ha hv (fun w hw' => (hw w hw').imp fun _ h => h.1) hb hb0 hlim hlim' i j
  generalize terms (weightedOps k v r checkRange divide) a (fun x y => focalAverage (fltAverage v) a x y)
    (focalAverage (fltAverage v) a) i j = l' at hcell hf
  refine ⟨c, c', hc1, hc2, hcell.kept, fun hk hnil => ?_, fun hk l hl hne hsum => ?_⟩
  · rw [hnil] at hf
    cases hf
    exact hcell.nothing hk rfl
  · subst hl
    obtain ⟨f1, f2, f3, f4⟩ := filled_sums k v hf
    have hmem : ∀ vw ∈ l', ∃ xw, Instead k v b a vw xw := by
      intro vw hvw
      obtain ⟨n, hn, rfl⟩ := List.getElem_of_mem hvw
      exact ⟨_, (List.forall₂_iff_get.1 hf).2 n hn (f4 ▸ hn)⟩
    have hsums := FloatConvolve.sums_weighted k v r checkRange divide l' (by
      intro vw hvw
      obtain ⟨xw, ⟨⟨q, q1, q2, -⟩, -⟩, m2, -⟩ := hmem vw hvw
      obtain ⟨y, y1, y2⟩ := hw _ m2
      exact ⟨q, y, q1, q2, y1, y2⟩)
    have hlen : (l'.map (pairOf k)).length = (filled (fun w => number (k.value w)) a i j).length := by
      rw [List.length_map, f4]
    obtain ⟨s, s1, -, s3⟩ := products_near (productType v k.type) (l'.map (pairOf k)) (by
      intro xw hxw
      obtain ⟨vw, hvw, rfl⟩ := List.mem_map.1 hxw
      obtain ⟨xw, ⟨⟨q, q1, -, q3⟩, q4⟩, m2, -⟩ := hmem vw hvw
      refine not_le.2 (lt_of_le_of_lt ?_ (hprod _ m2))
      show |number vw.1 * number (k.value vw.2)| ≤ _
      rw [abs_mul, q1]
      refine mul_le_mul_of_nonneg_right ?_ (abs_nonneg _)
      show |q| ≤ _
      have : q = (q - xw.1) + xw.1 := by ring
      rw [this]
      exact (abs_add_le _ _).trans (by linarith)) (by
      rw [hlen]
      exact lt_of_le_of_lt (add_le_add f2 (convolutionError_mono _ _ f2)) hsum)
    rw [s1] at hsums
    refine ⟨l'.map Prod.snd, ?_, f3, s, ?_, fun w hw' => ?_⟩
    · intro w hw'
      obtain ⟨vw, hvw, rfl⟩ := List.mem_map.1 hw'
      obtain ⟨xw, -, m2, -⟩ := hmem vw hvw
      exact m2
    · have : s - FloatConvolve.Spec.weightedSum (filled (fun w => number (k.value w)) a i j) = (s - FloatConvolve.Spec.weightedSum (l'.map (pairOf k))) +
          (FloatConvolve.Spec.weightedSum (l'.map (pairOf k)) - FloatConvolve.Spec.weightedSum (filled (fun w => number (k.value w)) a i j)) := by ring
      rw [this]
      refine (abs_add_le _ _).trans ?_
      rw [hlen] at s3
      have := s3.trans (convolutionError_mono _ _ f2)
      linarith
    · refine stored_of hcell hk (fun h => hne ?_) r checkRange divide s w ?_ ?_
      · rw [← List.length_eq_zero_iff, ← f4, h, List.length_nil]
      · exact (congrArg _ hsums).trans rfl
      · refine (congrArg _ hsums).trans ?_
        simp only [weightedOps]
        rw [hw']

/-! ### Kernels of booleans -/

/-- A value and a weight instead of numbers. -/
def InsteadB (v : FltTy) (b : Rat) (vw : Flt × Bool) (xw : Rat × Rat) : Prop :=
  Replaces v b vw.1 xw.1 ∧ oneIf vw.2 = xw.2

theorem sums_boolean_all (r : FltTy) (checkRange divide : Bool) (l : List (Flt × Bool)) :
    sums (booleanOps r checkRange divide) l =
      (((l.filter fun vw => vw.2).map Prod.fst).foldl (plus .double) (.fin 0), (l.filter fun vw => vw.2).length) := by
  have key : ∀ (l : List (Flt × Bool)) (s : Flt × Nat),
      l.foldl (fun s vw => (booleanOps r checkRange divide).add vw.1 vw.2 s) s =
        (((l.filter fun vw => vw.2).map Prod.fst).foldl (plus .double) s.1, s.2 + (l.filter fun vw => vw.2).length) := by
    intro l
    induction l with
    | nil => intro s; rfl
    | cons vw l ih =>
      intro s
      obtain ⟨x, w⟩ := vw
      rw [List.foldl_cons, ih]
      cases w
      · rfl
      · simp only [List.filter_cons_of_pos, List.map_cons, List.foldl_cons, List.length_cons]
        show (_, s.2 + 1 + _) = (_, s.2 + (_ + 1))
        rw [Nat.add_assoc, Nat.add_comm 1]
        rfl
  have := key l (.fin 0, 0)
  rw [Nat.zero_add] at this
  exact this

theorem filled_boolean {v : FltTy} {b : Rat} {l' : List (Flt × Bool)} {l : List (Rat × Rat)}
    (h : List.Forall₂ (InsteadB v b) l' l) :
    ∃ ps : List Rat, (l'.filter fun vw => vw.2).map Prod.fst = ps.map Flt.fin ∧ (∀ p ∈ ps, Represents .f64 p) ∧
      |ps.sum - FloatConvolve.Spec.weightedSum l| ≤ averageError v b * weights l ∧
      (ps.map fun p => |p|).sum ≤ (b + averageError v b) * weights l ∧ (ps.length : Rat) = weights l ∧
      ps.length ≤ l.length := by
  induction h with
  | nil => exact ⟨[], rfl, by simp, by simp [FloatConvolve.Spec.weightedSum, weights], by simp [weights], by simp [weights], by simp⟩
  | @cons vw xw l' l h1 h2 ih =>
    obtain ⟨ps, i1, i2, i3, i4, i5, i6⟩ := ih
    obtain ⟨⟨⟨q, q1, q2, q3⟩, hm⟩, hw⟩ := h1
    obtain ⟨x, w⟩ := vw
    obtain ⟨m, y⟩ := xw
    simp only at q1 q3 hm hw
    subst q1 hw
    cases w
    · refine ⟨ps, i1, i2, ?_, ?_, ?_, by rw [List.length_cons]; omega⟩
      · simpa [FloatConvolve.Spec.weightedSum, weights, oneIf] using i3
      · simpa [weights, oneIf] using i4
      · simpa [weights, oneIf] using i5
    · refine ⟨q :: ps, ?_, ?_, ?_, ?_, ?_, by simp only [List.length_cons]; omega⟩
      · simp [i1]
      · intro p hp
        rcases List.mem_cons.1 hp with rfl | hp
        · exact represents_double q2
        · exact i2 p hp
      · simp only [FloatConvolve.Spec.weightedSum, weights, oneIf, List.map_cons, List.sum_cons, if_true, mul_one] at i3 ⊢
        have : q + ps.sum - (m + (l.map fun xw => xw.1 * xw.2).sum) = (q - m) + (ps.sum - (l.map fun xw => xw.1 * xw.2).sum) := by
          ring
        rw [this, mul_add, mul_one]
        exact (abs_add_le _ _).trans (by linarith)
      · simp only [weights, oneIf, List.map_cons, List.sum_cons, if_true] at i4 ⊢
        have hq : |q| ≤ b + averageError v b := by
          have : q = (q - m) + m := by ring
          rw [this]
          exact (abs_add_le _ _).trans (by linarith)
        rw [mul_add, mul_one]
        linarith
      · simp only [weights, oneIf, List.map_cons, List.sum_cons, List.length_cons, if_true] at i5 ⊢
        push_cast
        linarith

theorem outsidePolicy_is (v : FltTy) {a : ConvolveArgs Flt W} (ha : ArgsOk a) (keep : Bool)
    (hr : 2 * a.radius + 1 ≤ a.rows) (hc : 2 * a.radius + 1 ≤ a.cols) :
    PolicyIs a (outsidePolicy v a keep) (fun _ _ => none) (focalAverage (fltAverage v) a) where
  alternative := fun _ _ _ _ _ _ _ _ _ => rfl
  outOfImage := by
    intro i hi j hj side hs pq hpq hout
    exact C71_out_of_image (fltAverage v) ha hr hc hi hj hs hpq hout

theorem terms_outside (r : FltTy) (checkRange divide : Bool) (v : FltTy) {a : ConvolveArgs Flt Bool} (ha : ArgsOk a)
    (hv : Values v a.noData a.source) {b : Rat} (hb : Bounded b a.noData a.source) (hb0 : 0 ≤ b)
    (hlim : 9 * (b + additionError 9 b) < limit .double) (hlim' : b + averageError v b < limit v) (i j : Nat) :
    List.Forall₂ (InsteadB v b)
      (terms (booleanOps r checkRange divide) a (fun _ _ => none) (focalAverage (fltAverage v) a) i j)
      (filledOutside oneIf a i j) := by
  have hsplit : terms (booleanOps r checkRange divide) a (fun _ _ => none) (focalAverage (fltAverage v) a) i j =
      ((kernelCells a.radius).filter fun pq => !decide (InImage a.rows a.cols a.radius i j pq)).filterMap
        (outsideTerm a (focalAverage (fltAverage v) a) i j) ++ (neighbourhood a i j).filter fun vw => vw.2 := by
    have h0 := terms_skip (booleanOps r checkRange divide) a i j
    have hnil : ∀ l : List (Nat × Nat), l.filterMap (outsideTerm a (fun _ _ => (none : Option Flt)) i j) = [] := by
      intro l
      induction l with
      | nil => rfl
      | cons x l ih => rw [List.filterMap_cons_none rfl, ih]
    unfold terms at h0 ⊢
    rw [hnil, List.nil_append] at h0
    rw [h0]
    rfl
  rw [hsplit]
  unfold filledOutside
  rw [counted_boolean]
  refine List.rel_append (filterMap_forall _ ?_) ?_
  · intro pq hpq
    obtain ⟨h1, h2⟩ := List.mem_filter.1 hpq
    have hout : ¬ InImage a.rows a.cols a.radius i j pq := by simpa using h2
    obtain ⟨w, hw'⟩ := weights_get ha (mem_kernelCells.1 h1).1 (mem_kernelCells.1 h1).2
    unfold outsideTerm filledTerm
    rw [hw', Option.bind_some, if_neg fun h => hout h.1]
    rcases focal_near v hv hb hlim hlim' ((i : Int) + pq.1 - a.radius) ((j : Int) + pq.2 - a.radius) with
      ⟨e1, e2⟩ | ⟨m, f, e1, e2, e3⟩
    · exact .inl ⟨by rw [e2]; rfl, by rw [e1]; rfl⟩
    · exact .inr ⟨_, _, by rw [e2]; rfl, by rw [e1]; rfl, e3, rfl⟩
  · rw [List.forall₂_map_right_iff, List.forall₂_same]
    intro vw hvw
    obtain ⟨h1, h2⟩ := List.mem_filter.1 hvw
    obtain ⟨-, n, m2, m3⟩ := neighbourhood_mem h1
    obtain ⟨q, q1, q2⟩ := hv n _ m2 m3
    have q3 := hb n _ m2 m3
    refine ⟨⟨⟨q, q1, q2, ?_⟩, q3⟩, ?_⟩
    · have := averageError_nonneg v hb0
      simpa [q1, number] using this
    · simp [h2, oneIf]

/-- Convolution with averages outside of the raster, in terms of sums. -/
theorem outside_raster (v r : FltTy) (checkRange divide keep : Bool) (outp : OutPolicy Flt)
    {a : ConvolveArgs Flt Bool} (ha : ArgsOk a) (hr : 2 * a.radius + 1 ≤ a.rows) (hc : 2 * a.radius + 1 ≤ a.cols)
    (hv : Values v a.noData a.source) {b : Rat} (hb : Bounded b a.noData a.source) (hb0 : 0 ≤ b)
    (hlim : 9 * (b + additionError 9 b) < limit .double) (hlim' : b + averageError v b < limit v)
    {res : List (Cell Flt)} (hres : res.length = a.rows * a.cols) :
    ∃ out, (∀ m : Execution, m.Ok → ∀ o, convolveBooleanRun m (booleanOps r checkRange divide) a (outsidePolicy v a keep) outp
        (a.rows, a.cols) res o ↔ o = some out) ∧ out.length = res.length ∧
      ∀ i < a.rows, ∀ j < a.cols, ∃ c c', res[i * a.cols + j]? = some c ∧ out[i * a.cols + j]? = some c' ∧
        (KeptAt keep a i j → Marked outp c c') ∧
        (¬ KeptAt keep a i j → filledOutside oneIf a i j = [] → Marked outp c c') ∧
        (¬ KeptAt keep a i j → ∀ l, l = filledOutside oneIf a i j → l ≠ [] → l.length < 2 ^ 53 →
          (b + averageError v b) * weights l + additionError l.length ((b + averageError v b) * weights l) < limit .double →
          ∃ s, |s - FloatConvolve.Spec.weightedSum l| ≤
              additionError l.length ((b + averageError v b) * weights l) + averageError v b * weights l ∧
            Stored outp r checkRange divide s (weights l) c c') := by
  obtain ⟨out, h1, h2, h3, h4⟩ := C53_policies_boolean (ops := booleanOps r checkRange divide) outp ha
    (outsidePolicy_is v ha keep hr hc) (fun _ => rfl) hres
  refine ⟨out, fun m hm => ?_, h2, fun i hi j hj => ?_⟩
  · cases m with
    | sequential => exact Gives.one h1
    | parallel t => exact h4 t hm
  obtain ⟨c, c', hc1, hc2, hcell⟩ := h3 i hi j hj
  have hcell' : ConvolvedCell (booleanOps r checkRange divide) outp (KeptAt keep a i j)
    (terms (booleanOps r checkRange divide) a (fun _ _ => none) (focalAverage (fltAverage v) a) i j) c c' := hcell
  have hf := terms_outside r checkRange divide v ha hv hb hb0 hlim hlim' i j
  clear hcell
  generalize terms (booleanOps r checkRange divide) a (fun _ _ => none) (focalAverage (fltAverage v) a) i j = l' at hcell' hf
  refine ⟨c, c', hc1, hc2, hcell'.kept, fun hk hnil => ?_, fun hk l hl hne hlen hsum => ?_⟩
  · rw [hnil] at hf
    cases hf
    exact hcell'.nothing hk rfl
  · rw [← hl] at hf
    obtain ⟨ps, p1, p2, p3, p4, p5, p6⟩ := filled_boolean hf
    have hnn : 0 ≤ (ps.map fun p => |p|).sum :=
      List.sum_nonneg (by intro y hy; obtain ⟨z, -, rfl⟩ := List.mem_map.1 hy; exact abs_nonneg _)
    have hadd : additionError ps.length (ps.map fun p => |p|).sum ≤
        additionError l.length ((b + averageError v b) * weights l) :=
      (additionError_length p6 hnn).trans (additionError_mono _ p4)
    obtain ⟨s, s1, -, s3⟩ := fold_zero ps p2 (by linarith)
    have hsums := sums_boolean_all r checkRange divide l'
    have hn : (l'.filter fun vw => vw.2).length = ps.length := by
      have := congrArg List.length p1
      simpa using this
    rw [p1, s1, hn] at hsums
    refine ⟨s, ?_, ?_⟩
    · have : s - FloatConvolve.Spec.weightedSum l = (s - ps.sum) + (ps.sum - FloatConvolve.Spec.weightedSum l) := by ring
      rw [this]
      exact (abs_add_le _ _).trans (by linarith)
    · refine stored_of hcell' hk (fun h => hne ?_) r checkRange divide s _ ?_ ?_
      · subst h
        cases hf
        rfl
      · exact (congrArg _ hsums).trans rfl
      · refine (congrArg _ hsums).trans ?_
        simp only [booleanOps]
        have : FltTy.double.round (ps.length : Rat) = .fin (weights l) := by
          have h := PyFloat.round_scaled (t := .double) (e := 0) ⟨by decide, by decide⟩ (k := ps.length) (by
            rw [Nat.abs_cast]
            have : ps.length < 2 ^ 53 := by omega
            exact_mod_cast this)
          rw [← p5]
          simpa [PyFloat.scaled] using h
        rw [this]

end Fern.FloatFocal
