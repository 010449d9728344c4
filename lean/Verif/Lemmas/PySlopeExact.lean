import Verif.Lemmas.PySlope
import Mathlib.Tactic.Linarith
import Mathlib.Tactic.Ring
import Mathlib.Tactic.FieldSimp

/-! # Sums of slopes without rounding -/

namespace Fern.PyFloat

open Fern Fern.Spec Fern.Domains Fern.Casts Fern.FloatArith
open _root_.Fern.PyFloat.Spec (weightedSum weightsX weightsY)

/-- A multiple of a power of two. -/
def scaled (e : Int) (k : Int) : Flt := .fin ((k : Rat) * 2 ^ e)

/-- The power of two is one of the type. -/
def Scale (t : FltTy) (e : Int) : Prop := t.lo ≤ e ∧ e ≤ t.hi

theorem round_scaled {t : FltTy} {e : Int} (he : Scale t e) {k : Int} (hk : |k| < 2 ^ t.bits) :
    t.round ((k : Rat) * 2 ^ e) = scaled e k := by
  refine round_exact t ?_
  rw [represents_num]
  obtain ⟨h1, h2⟩ := abs_lt.1 hk
  rcases Int.eq_nat_or_neg e with ⟨n, rfl | rfl⟩
  · exact ⟨k, n, h1, h2, he.1, he.2, n, .inl ⟨rfl, by rw [zpow_natCast]⟩⟩
  · refine ⟨k, -n, h1, h2, he.1, he.2, n, .inr ⟨rfl, ?_⟩⟩
    rw [zpow_neg, zpow_natCast, mul_assoc, inv_mul_cancel₀ (by positivity), mul_one]

theorem ofInt_exact {t : FltTy} {k : Int} (hk : |k| < 2 ^ t.bits) : (arithmetic t).ofInt k = .fin k := by
  have he : Scale t 0 := by cases t <;> exact ⟨by decide, by decide⟩
  have := round_scaled he hk
  show t.round (k : Rat) = .fin k
  simpa [scaled] using this

theorem add_scaled {t : FltTy} {e : Int} (he : Scale t e) {a b : Int} (h : |a + b| < 2 ^ t.bits) :
    (arithmetic t).add (scaled e a) (scaled e b) = scaled e (a + b) := by
  have : (arithmetic t).add (scaled e a) (scaled e b) = t.round ((a : Rat) * 2 ^ e + (b : Rat) * 2 ^ e) := rfl
  rw [this, ← round_scaled he h]
  congr 1
  push_cast
  ring

theorem Scale.double {t : FltTy} {e : Int} (he : Scale t e) : Scale .double e := by
  cases t
  · exact ⟨le_trans (by decide) he.1, he.2.trans (by decide)⟩
  · exact he

theorem bits_double (t : FltTy) : (2 : Int) ^ t.bits ≤ 2 ^ FltTy.double.bits := by cases t <;> decide

theorem mul_scaled {t : FltTy} {e : Int} (he : Scale t e) {a w : Int} (h : |a * w| < 2 ^ t.bits) :
    (arithmetic t).mul (scaled e a) (.fin w) = scaled e (a * w) := by
  have : (arithmetic t).mul (scaled e a) (.fin w) = t.round ((a : Rat) * 2 ^ e * w) := rfl
  rw [this, ← round_scaled he h]
  congr 1
  push_cast
  ring

theorem accDiv_scaled {t : FltTy} {e : Int} (he : Scale t e) {a w : Int} (hw : w ≠ 0) (h : |a| < 2 ^ t.bits) :
    (arithmetic t).accDiv (scaled e (w * a)) (.fin w) = scaled e a := by
  have hw' : (w : Rat) ≠ 0 := by exact_mod_cast hw
  have : (arithmetic t).accDiv (scaled e (w * a)) (.fin w) = FltTy.double.round (((w * a : Int) : Rat) * 2 ^ e / w) := by
    simp [arithmetic, scaled, over, hw]
  rw [this, ← round_scaled he.double (h.trans_le (bits_double t))]
  congr 1
  push_cast
  field_simp

/-- A value and a weight. -/
def pair (e : Int) (kw : Int × Int) : Flt × Flt := (scaled e kw.1, .fin kw.2)

/-- Sums of the type of the values. -/
theorem sum_scaled {t : FltTy} {e : Int} (he : Scale t e) (l : List (Int × Int)) (s : Int)
    (h : |s| + (l.map fun kw => |kw.1 * kw.2|).sum < 2 ^ t.bits) :
    (l.map (pair e)).foldl (fun s vw => (arithmetic t).add s ((arithmetic t).mul vw.1 vw.2)) (scaled e s) =
      scaled e (s + (l.map fun kw => kw.1 * kw.2).sum) := by
  induction l generalizing s with
  | nil => simp
  | cons kw l ih =>
    have hpos : 0 ≤ (l.map fun kw : Int × Int => |kw.1 * kw.2|).sum :=
      List.sum_nonneg (by intro x hx; obtain ⟨y, -, rfl⟩ := List.mem_map.1 hx; exact abs_nonneg _)
    rw [List.map_cons, List.sum_cons] at h
    have hs := abs_nonneg s
    have hadd := abs_add_le s (kw.1 * kw.2)
    rw [List.map_cons, List.foldl_cons]
    have e1 : (arithmetic t).mul (pair e kw).1 (pair e kw).2 = scaled e (kw.1 * kw.2) :=
      mul_scaled he (by linarith)
    rw [e1, add_scaled he (by linarith), ih _ (by linarith), List.map_cons, List.sum_cons, add_assoc]

theorem abs_products (l : List (Int × Int)) :
    |(l.map fun kw => kw.1 * kw.2).sum| ≤ (l.map fun kw => |kw.1 * kw.2|).sum := by
  induction l with
  | nil => simp
  | cons kw l ih =>
    simp only [List.map_cons, List.sum_cons]
    exact (abs_add_le _ _).trans (by linarith)

/-- Neither the number nor its double is rounded. -/
def Twice (t : FltTy) (e k : Int) : Prop :=
  Represents t.num ((k : Rat) * 2 ^ e) ∧ Represents t.num (2 * ((k : Rat) * 2 ^ e))

theorem scaled_represents {t : FltTy} {e : Int} (he : Scale t e) {k : Int} (hk : |k| < 2 ^ t.bits) :
    Represents t.num ((k : Rat) * 2 ^ e) := by
  rw [represents_num]
  obtain ⟨h1, h2⟩ := abs_lt.1 hk
  rcases Int.eq_nat_or_neg e with ⟨n, rfl | rfl⟩
  · exact ⟨k, n, h1, h2, he.1, he.2, n, .inl ⟨rfl, by rw [zpow_natCast]⟩⟩
  · refine ⟨k, -n, h1, h2, he.1, he.2, n, .inr ⟨rfl, ?_⟩⟩
    rw [zpow_neg, zpow_natCast, mul_assoc, inv_mul_cancel₀ (by positivity), mul_one]

theorem Twice.of {t : FltTy} {e : Int} (he : Scale t e) {k : Int} (hk : 2 * |k| < 2 ^ t.bits) : Twice t e k := by
  have h0 := abs_nonneg k
  refine ⟨scaled_represents he (by linarith), ?_⟩
  have := scaled_represents he (k := 2 * k) (by rw [abs_mul]; simpa using hk)
  push_cast at this
  rwa [mul_assoc] at this

theorem mul_twice {t : FltTy} {e k : Int} (h : Twice t e k) {w : Int} (hw : |w| ≤ 2) :
    (arithmetic t).mul (scaled e k) (.fin w) = scaled e (k * w) := by
  have e1 : (arithmetic t).mul (scaled e k) (.fin w) = t.round ((k : Rat) * 2 ^ e * w) := rfl
  have e2 : (k : Rat) * 2 ^ e * w = ((k * w : Int) : Rat) * 2 ^ e := by push_cast; ring
  rw [e1, e2, scaled]
  refine round_exact t ?_
  rw [← e2]
  obtain ⟨h1, h2⟩ := abs_le.1 hw
  have : w = -2 ∨ w = -1 ∨ w = 0 ∨ w = 1 ∨ w = 2 := by omega
  rcases this with rfl | rfl | rfl | rfl | rfl
  · have := represents_neg h.2
    convert this using 1
    push_cast
    ring
  · have := represents_neg h.1
    convert this using 1
    push_cast
    ring
  · have := scaled_represents (t := t) (e := 0) (k := 0) (by cases t <;> exact ⟨by decide, by decide⟩) (by simp)
    simpa using this
  · simpa using h.1
  · have := h.2
    convert this using 1
    push_cast
    ring

theorem accAdd_wide {t : FltTy} {e : Int} (he : Scale .double e) {a b : Int} (h : |a + b| < 2 ^ 53) :
    (arithmetic t).accAdd (scaled e a) (scaled e b) = scaled e (a + b) :=
  add_scaled (t := .double) he h

theorem narrow_round (t : FltTy) (q : Rat) : (arithmetic t).narrow (.fin q) = t.round q := by
  cases t <;> rfl

/-- Sums of type `double` are not rounded until the end. -/
theorem sum_wide {t : FltTy} {e : Int} (he : Scale .double e) (l : List (Int × Int)) (s : Int)
    (hl : ∀ kw ∈ l, Twice t e kw.1 ∧ |kw.2| ≤ 2) (h : |s| + (l.map fun kw => |kw.1 * kw.2|).sum < 2 ^ 53) :
    (l.map (pair e)).foldl (fun s vw => (arithmetic t).accAdd s ((arithmetic t).mul vw.1 vw.2)) (scaled e s) =
      scaled e (s + (l.map fun kw => kw.1 * kw.2).sum) := by
  induction l generalizing s with
  | nil => simp
  | cons kw l ih =>
    have hpos : 0 ≤ (l.map fun kw : Int × Int => |kw.1 * kw.2|).sum :=
      List.sum_nonneg (by intro x hx; obtain ⟨y, -, rfl⟩ := List.mem_map.1 hx; exact abs_nonneg _)
    rw [List.map_cons, List.sum_cons] at h
    have hadd := abs_add_le s (kw.1 * kw.2)
    rw [List.map_cons, List.foldl_cons]
    obtain ⟨h1, h2⟩ := hl kw (by simp)
    have e1 : (arithmetic t).mul (pair e kw).1 (pair e kw).2 = scaled e (kw.1 * kw.2) := mul_twice h1 h2
    rw [e1, accAdd_wide he (by linarith), ih _ (fun kw hkw => hl kw (List.mem_cons_of_mem _ hkw)) (by linarith),
      List.map_cons, List.sum_cons, add_assoc]

theorem productSum_wide {t : FltTy} {e : Int} (he : Scale .double e) (l : List (Int × Int))
    (hl : ∀ kw ∈ l, Twice t e kw.1 ∧ |kw.2| ≤ 2) (h : (l.map fun kw => |kw.1 * kw.2|).sum < 2 ^ 53) :
    productSum (arithmetic t) (l.map (pair e)) = t.round (((l.map fun kw => kw.1 * kw.2).sum : Int) * 2 ^ e) := by
  have h0 : (arithmetic t).ofInt 0 = scaled e 0 := by
    rw [ofInt_exact (by simp)]
    simp [scaled]
  have := sum_wide he l 0 hl (by simpa using h)
  rw [zero_add] at this
  rw [productSum, h0, this, scaled, narrow_round]

/-- The average of the same values is this value. -/
theorem average_wide {t : FltTy} {e : Int} (he : Scale .double e) {k : Int} {l : List Flt} (hl : l ≠ [])
    (hall : ∀ v ∈ l, v = scaled e k) (hlen : l.length ≤ 9) (hr : Represents t.num ((k : Rat) * 2 ^ e))
    (h : 9 * |k| < 2 ^ 53) :
    averageOf (arithmetic t).averageOps l = some (scaled e k) := by
  have hk := abs_nonneg k
  have key : ∀ (l : List Flt) (m : Nat), (∀ v ∈ l, v = scaled e k) → m + l.length ≤ 9 →
      l.foldl (arithmetic t).accAdd (scaled e (m * k)) = scaled e ((m + l.length : Nat) * k) := by
    intro l
    induction l with
    | nil => intro m _ _; simp
    | cons v l ih =>
      intro m ha hm
      rw [List.length_cons] at hm
      have hb : |(m : Int) * k + k| < 2 ^ 53 := by
        have : (m : Int) * k + k = (m + 1 : Nat) * k := by push_cast; ring
        rw [this, abs_mul, Nat.abs_cast]
        have h9 : ((m + 1 : Nat) : Int) ≤ 9 := by omega
        nlinarith
      rw [List.foldl_cons, ha v (by simp), accAdd_wide he hb]
      have : (m : Int) * k + k = (m + 1 : Nat) * k := by push_cast; ring
      rw [this, ih (m + 1) (fun u hu => ha u (List.mem_cons_of_mem _ hu)) (by omega), List.length_cons]
      congr 2
      omega
  cases l with
  | nil => exact absurd rfl hl
  | cons v l =>
    have h0 : (arithmetic t).ofInt 0 = scaled e ((0 : Nat) * k) := by
      rw [ofInt_exact (by simp)]
      simp [scaled]
    have h1 := key (v :: l) 0 hall (by omega)
    have h2 : averageOf (arithmetic t).averageOps (v :: l) =
        some ((arithmetic t).narrow ((arithmetic t).accDiv ((v :: l).foldl (arithmetic t).accAdd ((arithmetic t).ofInt 0))
          ((arithmetic t).ofInt ((v :: l).length : Nat)))) := rfl
    have hb : |(((v :: l).length : Nat) : Int)| < 2 ^ t.bits := by
      rw [Nat.abs_cast]
      have : (((v :: l).length : Nat) : Int) ≤ 9 := by exact_mod_cast hlen
      have : (9 : Int) < 2 ^ t.bits := by cases t <;> decide
      omega
    rw [h2, h0, h1, ofInt_exact hb, Nat.zero_add]
    have e3 : (arithmetic t).accDiv (scaled e (((v :: l).length : Nat) * k)) (.fin (((v :: l).length : Nat) : Int)) =
        scaled e k :=
      accDiv_scaled (t := .double) he (by simp; omega) (h := by show |k| < 2 ^ 53; linarith)
    rw [e3, scaled, narrow_round, round_exact t hr]

/-- The number of cells around a position. -/
theorem around_length {V W : Type} (a : ConvolveArgs V W) (x y : Int) : (around a x y).length ≤ 9 := by
  classical
  have h1 : (around a x y).length ≤ ((imageCells a.rows a.cols).filter fun pq => decide (Near x y pq)).length := by
    unfold around
    generalize imageCells a.rows a.cols = l
    induction l with
    | nil => simp
    | cons pq l ih =>
      rw [List.filterMap_cons, List.filter_cons]
      by_cases hn : Near x y pq
      · have : (if decide (Near x y pq) = true then pq :: l.filter (fun pq => decide (Near x y pq))
            else l.filter fun pq => decide (Near x y pq)) = pq :: l.filter fun pq => decide (Near x y pq) :=
          if_pos (by simpa using hn)
        rw [this, List.length_cons]
        split
        · omega
        · rw [List.length_cons]; omega
      · have : (if decide (Near x y pq) = true then pq :: l.filter (fun pq => decide (Near x y pq))
            else l.filter fun pq => decide (Near x y pq)) = l.filter fun pq => decide (Near x y pq) :=
          if_neg (by simpa using hn)
        rw [this, if_neg (by tauto)]
        exact ih
  refine h1.trans ?_
  have hnd : (imageCells a.rows a.cols).Nodup := List.nodup_range.product List.nodup_range
  have hnd' := hnd.filter fun pq => decide (Near x y pq)
  rw [← List.toFinset_card_of_nodup hnd']
  let f : Nat × Nat → Int × Int := fun pq => (pq.1, pq.2)
  have hf : Function.Injective f := by
    intro p q h
    simp only [f, Prod.mk.injEq, Nat.cast_inj] at h
    exact Prod.ext h.1 h.2
  rw [← Finset.card_image_of_injective _ hf]
  have hsub : (((imageCells a.rows a.cols).filter fun pq => decide (Near x y pq)).toFinset.image f) ⊆
      Finset.Icc (x - 1) (x + 1) ×ˢ Finset.Icc (y - 1) (y + 1) := by
    intro p hp
    simp only [Finset.mem_image, List.mem_toFinset, List.mem_filter, decide_eq_true_eq] at hp
    obtain ⟨q, ⟨-, hq⟩, rfl⟩ := hp
    rw [Finset.mem_product, Finset.mem_Icc, Finset.mem_Icc]
    exact hq
  refine (Finset.card_le_card hsub).trans ?_
  rw [Finset.card_product, Int.card_Icc, Int.card_Icc]
  have e1 : (x + 1 + 1 - (x - 1)).toNat = 3 := by omega
  have e2 : (y + 1 + 1 - (y - 1)).toNat = 3 := by omega
  rw [e1, e2]

/-- The values below the kernel, if they are multiples of a power of two. -/
theorem slopeTerms_scaled {t : FltTy} {e : Int} (isNo : Flt → Bool) (weights : List Int) (hlen : weights.length = 9)
    (hsmall : ∀ w ∈ weights, |w| < 2 ^ t.bits) (rows cols : Nat) (value : List Flt) (i j : Nat) (z : Nat × Nat → Int)
    (hz : ∀ pq ∈ kernelCells 1, surface (arithmetic t).averageOps rows cols (.detect isNo) value
      ((i : Int) + pq.1 - 1) ((j : Int) + pq.2 - 1) = some (scaled e (z pq))) :
    ∃ l : List (Int × Int), slopeTerms (arithmetic t) (arithmetic t).averageOps (weights.map (arithmetic t).ofInt) rows cols (.detect isNo)
        value i j = l.map (pair e) ∧
      (l.map fun kw => kw.1 * kw.2).sum = ((kernelCells 1).map fun pq => z pq * (weights[weightAt 1 pq]?).getD 0).sum ∧
      (l.map fun kw => |kw.1 * kw.2|).sum =
        ((kernelCells 1).map fun pq => |z pq * (weights[weightAt 1 pq]?).getD 0|).sum ∧
      ∀ kw ∈ l, ∃ pq ∈ kernelCells 1, kw.1 = z pq ∧ kw.2 ∈ weights := by
  classical
  have hw : ∀ pq ∈ kernelCells 1, ∃ w, weights[weightAt 1 pq]? = some w ∧
      (weights.map (arithmetic t).ofInt)[weightAt 1 pq]? = some (.fin w) := by
    intro pq hpq
    have hlt : weightAt 1 pq < weights.length := by
      rw [hlen]
      have := mem_kernelCells.1 hpq
      unfold weightAt
      omega
    refine ⟨weights[weightAt 1 pq], List.getElem?_eq_getElem hlt, ?_⟩
    rw [List.getElem?_map, List.getElem?_eq_getElem hlt, Option.map_some,
      ofInt_exact (hsmall _ (List.getElem_mem hlt))]
  unfold slopeTerms terms
  simp only []
  generalize kernelCells 1 = cells at hz hw
  induction cells with
  | nil => exact ⟨[], by simp⟩
  | cons pq cells ih =>
    obtain ⟨l, e1, e2, e3, e4⟩ := ih (fun p hp => hz p (List.mem_cons_of_mem _ hp))
      (fun p hp => hw p (List.mem_cons_of_mem _ hp))
    obtain ⟨w, hw1, hw2⟩ := hw pq (by simp)
    have hwm : w ∈ weights := List.mem_of_getElem? hw1
    have hz1 := hz pq (by simp)
    have he1 := e1
    rw [List.append_eq_map_iff] at he1
    obtain ⟨l1, l2, rfl, g1, g2⟩ := he1
    simp only [List.map_append, List.sum_append] at e2 e3
    have e5 : ∀ kw ∈ l1 ++ l2, ∃ p ∈ pq :: cells, kw.1 = z p ∧ kw.2 ∈ weights := by
      intro kw hkw
      obtain ⟨p, hp, h⟩ := e4 kw hkw
      exact ⟨p, List.mem_cons_of_mem _ hp, h⟩
    have e6 : ∀ kw ∈ l1 ++ (z pq, w) :: l2, ∃ p ∈ pq :: cells, kw.1 = z p ∧ kw.2 ∈ weights := by
      intro kw hkw
      rcases List.mem_append.1 hkw with hkw | hkw
      · exact e5 kw (List.mem_append_left _ hkw)
      · rcases List.mem_cons.1 hkw with rfl | hkw
        · exact ⟨pq, by simp, rfl, hwm⟩
        · exact e5 kw (List.mem_append_right _ hkw)
    have e7 : ∀ kw ∈ (z pq, w) :: (l1 ++ l2), ∃ p ∈ pq :: cells, kw.1 = z p ∧ kw.2 ∈ weights := by
      intro kw hkw
      rcases List.mem_cons.1 hkw with rfl | hkw
      · exact ⟨pq, by simp, rfl, hwm⟩
      · exact e5 kw hkw
    by_cases hin : InImage rows cols 1 i j pq
    · rw [List.filter_cons_of_neg (by simpa using hin), List.filter_cons_of_pos (by simpa using hin)]
      have hin' := hin
      unfold InImage at hin'
      have a1 : ((i : Int) + pq.1 - 1).toNat = i + pq.1 - 1 := by omega
      have a2 : ((j : Int) + pq.2 - 1).toNat = j + pq.2 - 1 := by omega
      have hb : ((i : Int) + pq.1 - 1).toNat * cols + ((j : Int) + pq.2 - 1).toNat =
          below cols 1 i j pq := by rw [a1, a2]; rfl
      have c1 : ((i + pq.1 - 1 : Nat) : Int) = (i : Int) + pq.1 - 1 := by omega
      have c2 : ((j + pq.2 - 1 : Nat) : Int) = (j : Int) + pq.2 - 1 := by omega
      rw [List.filterMap_cons]
      by_cases hnd : NoDataAt (.detect isNo) value (below cols 1 i j pq)
      · unfold surface at hz1
        rw [hb, if_neg (by tauto)] at hz1
        have ht : imageTerm (arithmetic t).accOps
            (⟨rows, cols, value, .detect isNo, 1, weights.map (arithmetic t).ofInt⟩ : ConvolveArgs Flt Flt)
            (fun x y => focalAverage (arithmetic t).averageOps
              (⟨rows, cols, value, .detect isNo, 1, weights.map (arithmetic t).ofInt⟩ : ConvolveArgs Flt Flt) x y)
            i j pq = some (pair e (z pq, w)) := by
          unfold imageTerm
          simp only []
          rw [if_pos hnd, c1, c2]
          have : focalAverage (arithmetic t).averageOps
              (⟨rows, cols, value, .detect isNo, 1, weights.map (arithmetic t).ofInt⟩ : ConvolveArgs Flt Flt)
              ((i : Int) + pq.1 - 1) ((j : Int) + pq.2 - 1) = some (scaled e (z pq)) := hz1
          rw [this, hw2]
          rfl
        rw [ht]
        refine ⟨l1 ++ (z pq, w) :: l2, by simp [g1, g2], ?_, ?_, e6⟩
        · simp only [List.map_append, List.sum_append, List.map_cons, List.sum_cons, hw1, Option.getD_some]
          linarith
        · simp only [List.map_append, List.sum_append, List.map_cons, List.sum_cons, hw1, Option.getD_some]
          linarith
      · unfold surface at hz1
        rw [hb, if_pos ⟨by omega, by omega, by omega, by omega, hnd⟩] at hz1
        have ht : imageTerm (arithmetic t).accOps
            (⟨rows, cols, value, .detect isNo, 1, weights.map (arithmetic t).ofInt⟩ : ConvolveArgs Flt Flt)
            (fun x y => focalAverage (arithmetic t).averageOps
              (⟨rows, cols, value, .detect isNo, 1, weights.map (arithmetic t).ofInt⟩ : ConvolveArgs Flt Flt) x y)
            i j pq = if w = 0 then none else some (pair e (z pq, w)) := by
          unfold imageTerm
          simp only []
          rw [if_neg hnd, hz1, hw2, Option.bind_some, Option.bind_some]
          by_cases h0 : w = 0
          · subst h0
            simp [NumOps.accOps, arithmetic, Flt.eq]
          · have : (w : Rat) ≠ 0 := by exact_mod_cast h0
            simp [NumOps.accOps, arithmetic, Flt.eq, h0, pair]
        rw [ht]
        by_cases h0 : w = 0
        · rw [if_pos h0]
          refine ⟨l1 ++ l2, by simp [g1, g2], ?_, ?_, e5⟩
          · simp only [List.map_append, List.sum_append, List.map_cons, List.sum_cons, hw1, Option.getD_some, h0]
            linarith
          · simp only [List.map_append, List.sum_append, List.map_cons, List.sum_cons, hw1, Option.getD_some, h0,
              mul_zero, abs_zero]
            linarith
        · rw [if_neg h0]
          refine ⟨l1 ++ (z pq, w) :: l2, by simp [g1, g2], ?_, ?_, e6⟩
          · simp only [List.map_append, List.sum_append, List.map_cons, List.sum_cons, hw1, Option.getD_some]
            linarith
          · simp only [List.map_append, List.sum_append, List.map_cons, List.sum_cons, hw1, Option.getD_some]
            linarith
    · rw [List.filter_cons_of_pos (by simpa using hin), List.filter_cons_of_neg (by simpa using hin)]
      unfold surface at hz1
      unfold InImage at hin
      rw [if_neg (by omega)] at hz1
      rw [List.filterMap_cons]
      have ht : outsideTerm
            (⟨rows, cols, value, .detect isNo, 1, weights.map (arithmetic t).ofInt⟩ : ConvolveArgs Flt Flt)
            (focalAverage (arithmetic t).averageOps
              (⟨rows, cols, value, .detect isNo, 1, weights.map (arithmetic t).ofInt⟩ : ConvolveArgs Flt Flt))
            i j pq = some (pair e (z pq, w)) := by
        unfold outsideTerm
        simp only [Nat.cast_one]
        have : focalAverage (arithmetic t).averageOps
            (⟨rows, cols, value, .detect isNo, 1, weights.map (arithmetic t).ofInt⟩ : ConvolveArgs Flt Flt)
            ((i : Int) + pq.1 - 1) ((j : Int) + pq.2 - 1) = some (scaled e (z pq)) := hz1
        rw [this, hw2]
        rfl
      rw [ht]
      refine ⟨(z pq, w) :: (l1 ++ l2), by simp [g1, g2], ?_, ?_, e7⟩
      · simp only [List.map_append, List.sum_append, List.map_cons, List.sum_cons, hw1, Option.getD_some]
        linarith
      · simp only [List.map_append, List.sum_append, List.map_cons, List.sum_cons, hw1, Option.getD_some]
        linarith

end Fern.PyFloat
