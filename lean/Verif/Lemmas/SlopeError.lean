import Verif.Lemmas.FloatFocal
import Verif.Lemmas.FloatGradient
import Verif.Lemmas.PySlopeExact
import Verif.Lemmas.FloatSpread
import Verif.Spec.SlopeError

/-! # Rounding errors of slopes -/

namespace Fern.SlopeError

open Fern Fern.Domains Fern.Spec Fern.Casts Fern.FloatArith Fern.FloatArith.Spec Fern.FloatConvolve Fern.FloatFocal
open Fern.PyFloat (arithmetic)
open Fern.FloatVector (round_represents round_some)
open _root_.Fern.FloatConvolve.Spec (Values additionError productError convolutionError weightMagnitudes magnitudes)
open _root_.Fern.FloatFocal.Spec (mean meanAround Bounded averageError quotientError roundingError filled filledTerm)
open _root_.Fern.PyFloat.Spec (valueAt reserved weightsX weightsY WellFormed)
open _root_.Fern.SlopeError.Spec

/-! ### Sums over kernels -/

theorem weightedSum_filterMap {α : Type} (f : α → Option (Rat × Rat)) (l : List α) :
    FloatConvolve.Spec.weightedSum (l.filterMap f) = (l.map fun z => (f z).elim 0 fun xw => xw.1 * xw.2).sum := by
  unfold FloatConvolve.Spec.weightedSum
  induction l with
  | nil => simp
  | cons z l ih =>
    rw [List.filterMap_cons, List.map_cons, List.sum_cons, ← ih]
    cases f z <;> simp

theorem weightMagnitudes_filterMap {α : Type} (f : α → Option (Rat × Rat)) (g : α → Rat) (l : List α)
    (h : ∀ z ∈ l, 0 ≤ g z ∧ ∀ xw, f z = some xw → |xw.2| ≤ g z) : weightMagnitudes (l.filterMap f) ≤ (l.map g).sum := by
  unfold weightMagnitudes
  induction l with
  | nil => simp
  | cons z l ih =>
    have ih' := ih fun z' hz' => h z' (List.mem_cons_of_mem _ hz')
    obtain ⟨h1, h2⟩ := h z (by simp)
    rw [List.filterMap_cons, List.map_cons, List.sum_cons]
    cases hf : f z with
    | none => simp only; linarith
    | some xw =>
      simp only [List.map_cons, List.sum_cons]
      have := h2 xw hf
      linarith

theorem sum_split {α : Type} (p : α → Bool) (g : α → Rat) (l : List α) :
    ((l.filter fun z => !p z).map g).sum + ((l.filter p).map g).sum = (l.map g).sum := by
  induction l with
  | nil => simp
  | cons z l ih =>
    cases hp : p z
    · rw [List.filter_cons_of_pos (by simp [hp]), List.filter_cons_of_neg (by simp [hp])]
      simp only [List.map_cons, List.sum_cons]
      linarith
    · rw [List.filter_cons_of_neg (by simp [hp]), List.filter_cons_of_pos (by simp [hp])]
      simp only [List.map_cons, List.sum_cons]
      linarith

theorem weightedSum_append (l l' : List (Rat × Rat)) :
    FloatConvolve.Spec.weightedSum (l ++ l') = FloatConvolve.Spec.weightedSum l + FloatConvolve.Spec.weightedSum l' := by
  simp [FloatConvolve.Spec.weightedSum]

theorem weightMagnitudes_append (l l' : List (Rat × Rat)) :
    weightMagnitudes (l ++ l') = weightMagnitudes l + weightMagnitudes l' := by
  simp [weightMagnitudes]

/-- The exact sum, over the cells of the kernel. -/
theorem filled_sum {W : Type} (number' : W → Rat) (a : ConvolveArgs Flt W) (i j : Nat) :
    FloatConvolve.Spec.weightedSum (filled number' a i j) =
      ((kernelCells a.radius).map fun pq => (filledTerm number' a i j pq).elim 0 fun xw => xw.1 * xw.2).sum := by
  unfold filled
  rw [weightedSum_append, weightedSum_filterMap, weightedSum_filterMap]
  exact sum_split (fun pq => decide (InImage a.rows a.cols a.radius i j pq)) _ _

theorem filled_magnitudes {W : Type} (number' : W → Rat) (a : ConvolveArgs Flt W) (i j : Nat) (g : Nat × Nat → Rat)
    (h : ∀ z ∈ kernelCells a.radius, 0 ≤ g z ∧ ∀ xw, filledTerm number' a i j z = some xw → |xw.2| ≤ g z) :
    weightMagnitudes (filled number' a i j) ≤ ((kernelCells a.radius).map g).sum := by
  unfold filled
  rw [weightMagnitudes_append, ← sum_split (fun pq => decide (InImage a.rows a.cols a.radius i j pq))]
  exact add_le_add (weightMagnitudes_filterMap _ g _ fun z hz => h z (List.mem_of_mem_filter hz))
    (weightMagnitudes_filterMap _ g _ fun z hz => h z (List.mem_of_mem_filter hz))

theorem filled_length {W : Type} (number' : W → Rat) (a : ConvolveArgs Flt W) (i j : Nat) :
    (filled number' a i j).length ≤ (kernelCells a.radius).length := by
  unfold filled
  rw [List.length_append]
  refine (add_le_add (List.length_filterMap_le _ _) (List.length_filterMap_le _ _)).trans ?_
  have : ∀ (p : Nat × Nat → Bool) (l : List (Nat × Nat)),
      (l.filter fun z => !p z).length + (l.filter p).length ≤ l.length := by
    intro p l
    induction l with
    | nil => simp
    | cons z l ih =>
      cases hp : p z
      · rw [List.filter_cons_of_pos (by simp [hp]), List.filter_cons_of_neg (by simp [hp])]
        simp only [List.length_cons]
        omega
      · rw [List.filter_cons_of_neg (by simp [hp]), List.filter_cons_of_pos (by simp [hp])]
        simp only [List.length_cons]
        omega
  exact this (fun pq => decide (InImage a.rows a.cols a.radius i j pq)) _

/-! ### The arithmetic of slopes -/

theorem ofInt_small (t : FltTy) {i : Int} (h : |i| ≤ 9) : (arithmetic t).ofInt i = .fin i := by
  have : (9 : Int) ≤ small t := by cases t <;> decide
  exact round_exact t (represents_small t (by omega))

theorem average_ops (t : FltTy) (l : List Flt) (h : l.length ≤ 9) :
    averageOf (arithmetic t).averageOps l = averageOf (fltAverage t) l := by
  cases l with
  | nil => rfl
  | cons f l =>
    have hz : (arithmetic t).averageOps.zero = (fltAverage t).zero := ofInt_small t (i := 0) (by decide)
    show some _ = some _
    congr 1
    rw [hz]
    show (arithmetic t).narrow ((arithmetic t).accDiv _ ((arithmetic t).ofInt ((f :: l).length : Nat))) =
      store t (quotient _ (t.round (((f :: l).length : Nat) : Rat)))
    rw [ofInt_small t (i := ((f :: l).length : Nat)) (by rw [Nat.abs_cast]; exact_mod_cast h), count_exact t h]
    have hn : (((f :: l).length : Nat) : Rat) ≠ 0 := by simp only [List.length_cons]; positivity
    have hfin : Flt.fin (((((f :: l).length : Nat) : Int)) : Rat) = .fin (((f :: l).length : Nat) : Rat) := by push_cast; rfl
    rw [hfin]
    obtain ⟨z, hz'⟩ := FloatRaster.over_isSome .double
      (a := (f :: l).foldl (fltAverage t).add (fltAverage t).zero) (b := .fin (((f :: l).length : Nat) : Rat)) (by
        intro h0
        exact hn (Flt.fin.inj h0))
    have e1 : (arithmetic t).accDiv ((f :: l).foldl (fltAverage t).add (fltAverage t).zero)
        (.fin (((f :: l).length : Nat) : Rat)) = z := by
      show (over .double _ _).getD .nan = z
      rw [hz']
      rfl
    have e2 : quotient ((f :: l).foldl (fltAverage t).add (fltAverage t).zero)
        (.fin (((f :: l).length : Nat) : Rat)) = z := by
      unfold quotient
      rw [hz']
    have e3 : (f :: l).foldl (arithmetic t).averageOps.add (fltAverage t).zero =
      (f :: l).foldl (fltAverage t).add (fltAverage t).zero := rfl
    rw [e3, e1, e2]
    rfl

theorem focal_ops {W : Type} (t : FltTy) (a : ConvolveArgs Flt W) :
    focalAverage (arithmetic t).averageOps a = focalAverage (fltAverage t) a := by
  funext x y
  exact average_ops t _ (around_length a x y)

theorem terms_ops (t : FltTy) (a : ConvolveArgs Flt Flt) (alt : Nat → Nat → Option Flt) (out : Int → Int → Option Flt)
    (i j : Nat) :
    terms (arithmetic t).accOps a alt out i j = terms (weightedOps (fltWeights t) t t true false) a alt out i j := rfl

/-- The converted sum of products. -/
theorem productSum_near (t : FltTy) {b : Rat} {a : ConvolveArgs Flt Flt} {l' : List (Flt × Flt)} {l : List (Rat × Rat)}
    (h : List.Forall₂ (Instead (fltWeights t) t b a) l' l)
    (hw : ∀ w ∈ a.weights, ∃ q, w = .fin q ∧ Represents t.num q)
    (hprod : ∀ w ∈ a.weights, (b + averageError t b) * |number w| < limit t)
    (hsum : (b + averageError t b) * weightMagnitudes l +
      convolutionError t l.length ((b + averageError t b) * weightMagnitudes l) < limit .double) :
    ∃ s, productSum (arithmetic t) l' = t.round s ∧ |s - FloatConvolve.Spec.weightedSum l| ≤
      convolutionError t l.length ((b + averageError t b) * weightMagnitudes l) + averageError t b * weightMagnitudes l := by
  obtain ⟨f1, f2, f3, f4⟩ := filled_sums (fltWeights t) t h
  have hmem : ∀ vw ∈ l', ∃ xw, Instead (fltWeights t) t b a vw xw := by
    intro vw hvw
    obtain ⟨n, hn, rfl⟩ := List.getElem_of_mem hvw
    exact ⟨_, (List.forall₂_iff_get.1 h).2 n hn (f4 ▸ hn)⟩
  have hlen : (l'.map (pairOf (fltWeights t))).length = l.length := by rw [List.length_map, f4]
  obtain ⟨s, s1, -, s3⟩ := products_near t (l'.map (pairOf (fltWeights t))) (by
    intro xw hxw
    obtain ⟨vw, hvw, rfl⟩ := List.mem_map.1 hxw
    obtain ⟨xw, ⟨⟨q, q1, -, q3⟩, q4⟩, m2, -⟩ := hmem vw hvw
    refine not_le.2 (lt_of_le_of_lt ?_ (hprod _ m2))
    show |number vw.1 * number vw.2| ≤ _
    rw [abs_mul, q1]
    refine mul_le_mul_of_nonneg_right ?_ (abs_nonneg _)
    show |q| ≤ _
    have : q = (q - xw.1) + xw.1 := by ring
    rw [this]
    exact (abs_add_le _ _).trans (by linarith)) (by
    rw [hlen]
    exact lt_of_le_of_lt (add_le_add f2 (convolutionError_mono _ _ f2)) hsum)
  have hfold : ∀ (m : List (Flt × Flt)) (s0 : Flt), (∀ vw ∈ m, ∃ xw, Instead (fltWeights t) t b a vw xw) →
      m.foldl (fun s vw => (arithmetic t).accAdd s ((arithmetic t).mul vw.1 vw.2)) s0 =
        ((m.map (pairOf (fltWeights t))).map fun xw => t.round (xw.1 * xw.2)).foldl (plus .double) s0 := by
    intro m
    induction m with
    | nil => intro s0 _; rfl
    | cons vw m ih =>
      intro s0 hm
      obtain ⟨xw, ⟨⟨q, q1, -, -⟩, -⟩, m2, -⟩ := hm vw (by simp)
      obtain ⟨y, y1, -⟩ := hw _ m2
      have e : (arithmetic t).mul vw.1 vw.2 = t.round (number vw.1 * number vw.2) := by rw [q1, y1]; rfl
      rw [List.foldl_cons, e, ih _ fun u hu => hm u (List.mem_cons_of_mem _ hu)]
      rfl
  refine ⟨s, ?_, ?_⟩
  · unfold productSum
    rw [hfold l' _ hmem, ofInt_small t (i := 0) (by decide)]
    have : Flt.fin (((0 : Int)) : Rat) = .fin 0 := rfl
    rw [this, s1]
    exact store_fin t s
  · have : s - FloatConvolve.Spec.weightedSum l = (s - FloatConvolve.Spec.weightedSum (l'.map (pairOf (fltWeights t)))) +
        (FloatConvolve.Spec.weightedSum (l'.map (pairOf (fltWeights t))) - FloatConvolve.Spec.weightedSum l) := by ring
    rw [this]
    refine (abs_add_le _ _).trans ?_
    rw [hlen] at s3
    have := s3.trans (convolutionError_mono _ _ f2)
    linarith

/-! ### Bounds of the errors -/

theorem unit_double_le (t : FltTy) : (1 : Rat) / 2 ^ 53 ≤ unit t := by cases t <;> norm_num [unit]

theorem unit_le (t : FltTy) : unit t ≤ 1 / 2 ^ 24 := by cases t <;> norm_num [unit]

theorem tiny_double_le' (t : FltTy) : tiny .double ≤ tiny t := by
  cases t
  · have := FloatGradient.tiny_double_le
    have := tiny_pos .single
    linarith
  · exact le_rfl

theorem addition_bound (t : FltTy) {n : Nat} (hn : n ≤ 9) {m : Rat} (hm : 0 ≤ m) : additionError n m ≤ 10 * (unit t * m) := by
  refine (additionError_length hn hm).trans ?_
  unfold additionError
  have h1 : ((1 : Rat) + 1 / 2 ^ 53) ^ 9 - 1 ≤ 10 * (1 / 2 ^ 53) := by norm_num
  have h2 : 10 * ((1 : Rat) / 2 ^ 53) ≤ 10 * unit t := by have := unit_double_le t; linarith
  calc _ ≤ 10 * unit t * m := mul_le_mul_of_nonneg_right (h1.trans h2) hm
    _ = _ := by ring

/-- Products with units are small. -/
theorem unit_mul (t : FltTy) {x : Rat} (h : 0 ≤ x) : 0 ≤ unit t * x ∧ unit t * x ≤ x / 2 ^ 24 := by
  refine ⟨mul_nonneg (unit_pos t).le h, ?_⟩
  have := mul_le_mul_of_nonneg_right (unit_le t) h
  rw [div_eq_inv_mul]
  linarith

theorem average_bound (t : FltTy) {b : Rat} (hb : 0 ≤ b) : averageError t b ≤ 14 * (unit t * b) + 3 * tiny t := by
  have hτ := tiny_pos t
  have hτd := tiny_double_le' t
  have hτd0 := tiny_pos .double
  have h1 := addition_bound t (n := 9) le_rfl hb
  have h1' := additionError_nonneg 9 hb
  obtain ⟨u1, u2⟩ := unit_mul t hb
  have hq : quotientError b ≤ 12 * (unit t * b) + tiny t := by
    unfold quotientError roundingError
    have e : unit .double * (b + additionError 9 b) ≤ unit t * (b + additionError 9 b) :=
      mul_le_mul_of_nonneg_right (unit_double_le t) (by linarith)
    have e' : unit t * additionError 9 b ≤ unit t * b := by
      refine mul_le_mul_of_nonneg_left ?_ (unit_pos t).le
      linarith
    rw [mul_add] at e
    linarith
  have hq0 := quotientError_nonneg hb
  unfold averageError
  have e : roundingError t (b + quotientError b) ≤ unit t * b + unit t * b + 2 * tiny t := by
    unfold roundingError
    have e' : unit t * quotientError b ≤ unit t * (b + tiny t) := by
      refine mul_le_mul_of_nonneg_left ?_ (unit_pos t).le
      linarith
    obtain ⟨-, u3⟩ := unit_mul t hτ.le
    rw [mul_add] at e' ⊢
    linarith
  linarith

theorem convolution_bound (t : FltTy) {n : Nat} (hn : n ≤ 9) {b m : Rat} (hb : 0 ≤ b) (hm : 0 ≤ m)
    (hmb : m ≤ 8 * (b + averageError t b)) : convolutionError t n m ≤ 99 * (unit t * b) + 11 * tiny t := by
  have hτ := tiny_pos t
  have hE := average_bound t hb
  have hE0 := averageError_nonneg t hb
  obtain ⟨u1, u2⟩ := unit_mul t hb
  obtain ⟨v1, v2⟩ := unit_mul t u1
  obtain ⟨w1, w2⟩ := unit_mul t hτ.le
  have hn' : (n : Rat) ≤ 9 := by exact_mod_cast hn
  have hm' : m ≤ 8 * b + 112 * (unit t * b) + 24 * tiny t := by linarith
  have hp : productError t n m ≤ 9 * (unit t * b) + 10 * tiny t := by
    unfold productError
    have e1 : unit t * m ≤ unit t * (8 * b + 112 * (unit t * b) + 24 * tiny t) :=
      mul_le_mul_of_nonneg_left hm' (unit_pos t).le
    have e2 : (n : Rat) * tiny t ≤ 9 * tiny t := mul_le_mul_of_nonneg_right hn' hτ.le
    have e3 : unit t * (8 * b + 112 * (unit t * b) + 24 * tiny t) =
      8 * (unit t * b) + 112 * (unit t * (unit t * b)) + 24 * (unit t * tiny t) := by ring
    rw [e3] at e1
    linarith
  have hp0 : 0 ≤ productError t n m := by
    unfold productError
    have := (unit_mul t hm).1
    have := mul_nonneg (Nat.cast_nonneg (α := Rat) n) hτ.le
    linarith
  have ha := addition_bound t hn (m := m + productError t n m) (by linarith)
  have hmp : m + productError t n m ≤ 8 * b + 121 * (unit t * b) + 34 * tiny t := by linarith
  have ha' : unit t * (m + productError t n m) ≤ 8 * (unit t * b) + 121 * (unit t * (unit t * b)) + 34 * (unit t * tiny t) := by
    refine (mul_le_mul_of_nonneg_left hmp (unit_pos t).le).trans (le_of_eq ?_)
    ring
  unfold convolutionError
  linarith

/-- Magnitudes that aren't too large. -/
structure Fine (t : FltTy) (b : Rat) : Prop where
  nonneg : 0 ≤ b
  sum : 9 * (b + additionError 9 b) < limit .double
  average : b + averageError t b < limit t
  product : (b + averageError t b) * 2 < limit t
  sums : 9 * b + 99 * tiny t < limit t

theorem fine {t : FltTy} {b : Rat} (hb : 0 ≤ b) (hlim : 64 * b ≤ limit t) : Fine t b := by
  have hτ := tiny_pos t
  have hτl : 1000 * tiny t < limit t := by
    have h1 : tiny t ≤ 1 / 2 ^ 150 := by
      cases t
      · exact le_rfl
      · have := tiny_double_le' .single
        exact this
    have h2 := FloatSpread.limit_one t
    have : (1000 : Rat) * (1 / 2 ^ 150) < 1 := by norm_num
    linarith
  have hld := FloatGradient.limit_le_double t
  have hE := average_bound t hb
  have hA := addition_bound t (n := 9) le_rfl hb
  obtain ⟨u1, u2⟩ := unit_mul t hb
  refine ⟨hb, ?_, ?_, ?_, ?_⟩ <;> linarith

/-! ### The heights -/

/-- The arguments of the convolutions. -/
abbrev demArgs (t : FltTy) (kernel : List Int) (dem : PyFloat.Raster) : ConvolveArgs Flt Flt :=
  ⟨dem.rows, dem.cols, dem.values, .detect fun v => decide (v = reserved t.num), 1, kernel.map (arithmetic t).ofInt⟩

theorem noData_iff (t : FltTy) (values : List Flt) (i : Nat) :
    NoDataAt (.detect fun v => decide (v = reserved t.num)) values i ↔ values[i]? = some (reserved t.num) := by
  show (∃ v, values[i]? = some v ∧ decide (v = reserved t.num) = true) ↔ _
  constructor
  · rintro ⟨v, h1, h2⟩
    rw [h1, of_decide_eq_true h2]
  · intro h
    exact ⟨_, h, by simp⟩

theorem valueAt_eq {t : FltTy} {dem : PyFloat.Raster} (ht : dem.type = t.num) (i : Nat) :
    valueAt dem i = open Classical in
      if NoDataAt (.detect fun v => decide (v = reserved t.num)) dem.values i then none else dem.values[i]? := by
  unfold valueAt
  rw [ht]
  cases h : dem.values[i]? with
  | none => rw [if_neg]; · rfl
            · rw [noData_iff, h]; simp
  | some v =>
    by_cases hv : v = reserved t.num
    · rw [if_pos]
      · simp [hv]
      · rw [noData_iff, h, hv]
    · rw [if_neg]
      · simp [hv]
      · rw [noData_iff, h]
        simpa using hv

theorem around_eq {t : FltTy} (kernel : List Int) {dem : PyFloat.Raster} (ht : dem.type = t.num) (x y : Int) :
    meanAround (demArgs t kernel dem) x y = mean (validAround dem x y) := by
  unfold meanAround around validAround
  rw [List.map_filterMap]
  congr 2
  funext pq
  rw [valueAt_eq ht]
  by_cases h1 : Fern.Spec.Near x y pq
  · by_cases h2 : NoDataAt (.detect fun v => decide (v = reserved t.num)) dem.values (pq.1 * dem.cols + pq.2)
    · rw [if_neg fun h => h.2 h2, if_pos h1, if_pos h2]
    · rw [if_pos ⟨h1, h2⟩, if_pos h1, if_neg h2]
  · rw [if_neg fun h => h1 h.1, if_neg h1]
    rfl

/-- What counts for a cell of the kernel is the height times the weight. -/
theorem term_height {t : FltTy} (kernel : List Int) {dem : PyFloat.Raster} (h : WellFormed dem) (ht : dem.type = t.num)
    (i j : Nat) (pq : Nat × Nat) {w : Int} (hw : kernel[weightAt 1 pq]? = some w) (h9 : |w| ≤ 9) :
    ((filledTerm number (demArgs t kernel dem) i j pq).elim 0 fun xw => xw.1 * xw.2) =
      heightAt dem ((i : Int) + pq.1 - 1) ((j : Int) + pq.2 - 1) * w := by
  have hw' : (demArgs t kernel dem).weights[weightAt 1 pq]? = some (.fin (w : Rat)) := by
    show (kernel.map (arithmetic t).ofInt)[weightAt 1 pq]? = _
    rw [List.getElem?_map, hw, Option.map_some, ofInt_small t h9]
  unfold filledTerm heightAt
  rw [hw', Option.bind_some, around_eq kernel ht]
  have hin : InImage dem.rows dem.cols 1 i j pq ↔ 0 ≤ (i : Int) + pq.1 - 1 ∧ (i : Int) + pq.1 - 1 < dem.rows ∧
      0 ≤ (j : Int) + pq.2 - 1 ∧ (j : Int) + pq.2 - 1 < dem.cols := by
    unfold InImage
    omega
  have hbelow : Fern.Spec.below dem.cols 1 i j pq = ((i : Int) + pq.1 - 1).toNat * dem.cols + ((j : Int) + pq.2 - 1).toNat := by
    unfold Fern.Spec.below
    congr 2 <;> omega
  have hmean : ∀ m : Option Rat, ((m.map fun m => (m, number (.fin (w : Rat)))).elim 0 fun xw => xw.1 * xw.2) =
      m.getD 0 * (w : Rat) := by
    intro m
    cases m
    · simp
    · rfl
  by_cases h1 : InImage dem.rows dem.cols 1 i j pq
  · have hv : validAt dem ((i : Int) + pq.1 - 1) ((j : Int) + pq.2 - 1) =
        (valueAt dem (Fern.Spec.below dem.cols 1 i j pq)).map number := by
      unfold validAt
      rw [if_pos (hin.1 h1), hbelow]
    rw [hv, valueAt_eq ht]
    by_cases h2 : NoDataAt (.detect fun v => decide (v = reserved t.num)) dem.values (Fern.Spec.below dem.cols 1 i j pq)
    · rw [if_neg fun h => h.2 h2, if_pos h2]
      exact hmean _
    · rw [if_pos ⟨h1, h2⟩, if_neg h2]
      have hlt : Fern.Spec.below dem.cols 1 i j pq < dem.values.length := by
        rw [h.size, hbelow]
        obtain ⟨a1, a2, a3, a4⟩ := hin.1 h1
        generalize hx : ((i : Int) + pq.1 - 1).toNat = x
        generalize hy : ((j : Int) + pq.2 - 1).toNat = y
        have : (x + 1) * dem.cols ≤ dem.rows * dem.cols := Nat.mul_le_mul_right _ (by omega)
        rw [Nat.add_mul] at this
        omega
      show Option.elim (if number (.fin (w : Rat)) = 0 then none else
        (dem.values[Fern.Spec.below dem.cols 1 i j pq]?).map fun x => (number x, number (.fin (w : Rat)))) 0 _ = _
      rw [List.getElem?_eq_getElem hlt]
      have hn : number (.fin (w : Rat)) = (w : Rat) := rfl
      rw [hn]
      by_cases h3 : (w : Rat) = 0
      · rw [if_pos h3, h3]
        simp
      · rw [if_neg h3]
        rfl
  · have hv : validAt dem ((i : Int) + pq.1 - 1) ((j : Int) + pq.2 - 1) = none := by
      unfold validAt
      rw [if_neg fun h => h1 (hin.2 h)]
    rw [hv, if_neg fun h => h1 h.1]
    exact hmean _

theorem getD_lt {l : List Int} {n : Nat} (h : n < l.length) : l.getD n 0 = l[n] := by
  rw [List.getD_eq_getElem?_getD, List.getElem?_eq_getElem h]
  rfl

theorem kernelCells_one : kernelCells 1 = [(0, 0), (0, 1), (0, 2), (1, 0), (1, 1), (1, 2), (2, 0), (2, 1), (2, 2)] := by decide

theorem sum_heights {t : FltTy} (kernel : List Int) (hk : kernel.length = 9) (h9 : ∀ w ∈ kernel, |w| ≤ 9) {dem : PyFloat.Raster}
    (h : WellFormed dem) (ht : dem.type = t.num) (i j : Nat) :
    FloatConvolve.Spec.weightedSum (filled number (demArgs t kernel dem) i j) =
      ((kernelCells 1).map fun pq => heightAt dem ((i : Int) + pq.1 - 1) ((j : Int) + pq.2 - 1) *
        ((kernel.getD (weightAt 1 pq) 0 : Int) : Rat)).sum := by
  rw [filled_sum]
  congr 1
  refine List.map_congr_left fun pq hpq => ?_
  have hlt : weightAt 1 pq < kernel.length := by
    rw [kernelCells_one] at hpq
    rw [hk]
    fin_cases hpq <;> decide
  refine (term_height kernel h ht i j pq (w := kernel[weightAt 1 pq]) (List.getElem?_eq_getElem hlt)
    (h9 _ (List.getElem_mem _))).trans ?_
  rw [getD_lt hlt]

theorem sum_westEast {t : FltTy} {dem : PyFloat.Raster} (h : WellFormed dem) (ht : dem.type = t.num) (i j : Nat) :
    FloatConvolve.Spec.weightedSum (filled number (demArgs t weightsX dem) i j) = westEast dem i j := by
  rw [sum_heights weightsX rfl (by decide) h ht, kernelCells_one]
  have e0 : ∀ n : Nat, (n : Int) + ((0 : Nat) : Int) - 1 = n - 1 := by intro n; omega
  have e1 : ∀ n : Nat, (n : Int) + ((1 : Nat) : Int) - 1 = n := by intro n; omega
  have e2 : ∀ n : Nat, (n : Int) + ((2 : Nat) : Int) - 1 = n + 1 := by intro n; omega
  simp only [List.map_cons, List.map_nil, List.sum_cons, List.sum_nil, e0, e1, e2]
  unfold westEast
  norm_num [weightsX, weightAt]
  ring

theorem sum_southNorth {t : FltTy} {dem : PyFloat.Raster} (h : WellFormed dem) (ht : dem.type = t.num) (i j : Nat) :
    FloatConvolve.Spec.weightedSum (filled number (demArgs t weightsY dem) i j) = southNorth dem i j := by
  rw [sum_heights weightsY rfl (by decide) h ht, kernelCells_one]
  have e0 : ∀ n : Nat, (n : Int) + ((0 : Nat) : Int) - 1 = n - 1 := by intro n; omega
  have e1 : ∀ n : Nat, (n : Int) + ((1 : Nat) : Int) - 1 = n := by intro n; omega
  have e2 : ∀ n : Nat, (n : Int) + ((2 : Nat) : Int) - 1 = n + 1 := by intro n; omega
  simp only [List.map_cons, List.map_nil, List.sum_cons, List.sum_nil, e0, e1, e2]
  unfold southNorth
  norm_num [weightsY, weightAt]
  ring

/-- The sum of the magnitudes of the weights. -/
theorem magnitudes_le {t : FltTy} (kernel : List Int) (hk : kernel.length = 9) (h9 : ∀ w ∈ kernel, |w| ≤ 9)
    (h8 : (kernel.map fun w => |w|).sum = 8) (dem : PyFloat.Raster) (i j : Nat) :
    weightMagnitudes (filled number (demArgs t kernel dem) i j) ≤ 8 := by
  refine (filled_magnitudes number (demArgs t kernel dem) i j
    (fun pq => ((|kernel.getD (weightAt 1 pq) 0| : Int) : Rat)) ?_).trans (le_of_eq ?_)
  · intro pq hpq
    refine ⟨by positivity, fun xw hxw => ?_⟩
    have hlt : weightAt 1 pq < kernel.length := by
      have hpq' : pq ∈ kernelCells 1 := hpq
      rw [kernelCells_one] at hpq'
      rw [hk]
      clear hxw hpq
      fin_cases hpq' <;> decide
    have hw' : (demArgs t kernel dem).weights[weightAt 1 pq]? = some (.fin (kernel[weightAt 1 pq] : Rat)) := by
      show (kernel.map (arithmetic t).ofInt)[weightAt 1 pq]? = _
      rw [List.getElem?_map, List.getElem?_eq_getElem hlt, Option.map_some, ofInt_small t (h9 _ (List.getElem_mem _))]
    have e : xw.2 = (kernel[weightAt 1 pq] : Rat) := by
      unfold filledTerm at hxw
      rw [hw', Option.bind_some] at hxw
      split_ifs at hxw
      · obtain ⟨_, -, rfl⟩ := Option.map_eq_some_iff.1 hxw
        rfl
      · obtain ⟨_, -, rfl⟩ := Option.map_eq_some_iff.1 hxw
        rfl
    rw [e, getD_lt hlt]
    push_cast
    exact le_rfl
  · show ((kernelCells 1).map fun pq => ((|kernel.getD (weightAt 1 pq) 0| : Int) : Rat)).sum = 8
    match kernel, hk with
    | [a, b, c, d, e, f, g, k, l], _ =>
      rw [kernelCells_one]
      simp only [List.map_cons, List.map_nil, List.sum_cons, List.sum_nil] at h8 ⊢
      have : (((|a| + (|b| + (|c| + (|d| + (|e| + (|f| + (|g| + (|k| + (|l| + 0)))))))) : Int)) : Rat) = 8 := by
        exact_mod_cast h8
      push_cast at this
      simpa [weightAt] using this

/-- The magnitude of a sum. -/
theorem weightedSum_le {b : Rat} (l : List (Rat × Rat)) (h : ∀ xw ∈ l, |xw.1| ≤ b) :
    |FloatConvolve.Spec.weightedSum l| ≤ b * weightMagnitudes l := by
  unfold FloatConvolve.Spec.weightedSum weightMagnitudes
  induction l with
  | nil => simp
  | cons xw l ih =>
    have ih' := ih fun z hz => h z (List.mem_cons_of_mem _ hz)
    simp only [List.map_cons, List.sum_cons]
    refine (abs_add_le _ _).trans ?_
    rw [abs_mul, mul_add]
    exact add_le_add (mul_le_mul_of_nonneg_right (h xw (by simp)) (abs_nonneg _)) ih'

/-- The rounded differences. -/
theorem difference_near {t : FltTy} (kernel : List Int) (hk : kernel.length = 9) (h2 : ∀ w ∈ kernel, |w| ≤ 2)
    (h8 : (kernel.map fun w => |w|).sum = 8) {dem : PyFloat.Raster} (h : WellFormed dem) (ht : dem.type = t.num)
    (hr : 3 ≤ dem.rows) (hc : 3 ≤ dem.cols) {b : Rat} (hb : Heights b dem) (hf : Fine t b) (i j : Nat) :
    ∃ g, PyFloat.Spec.weightedSum (arithmetic t) (fun v => decide (v = reserved t.num)) kernel dem.rows dem.cols dem.values
        i j = .fin g ∧ Represents t.num g ∧
      |g - FloatConvolve.Spec.weightedSum (filled number (demArgs t kernel dem) i j)| ≤ differenceError t b ∧
      |FloatConvolve.Spec.weightedSum (filled number (demArgs t kernel dem) i j)| ≤ 8 * b := by
  have h9 : ∀ w ∈ kernel, |w| ≤ 9 := fun w hw => (h2 w hw).trans (by decide)
  have hvalid : ∀ i v, dem.values[i]? = some v →
      ¬ NoDataAt (.detect fun v => decide (v = reserved t.num)) dem.values i → ∃ q, v = .fin q ∧ |q| ≤ b := by
    intro i v hv hn
    refine hb i v ?_
    rw [valueAt_eq ht, if_neg hn, hv]
  have hV : Values t (demArgs t kernel dem).noData (demArgs t kernel dem).source := by
    intro i v hv hn
    obtain ⟨q, rfl, -⟩ := hvalid i v hv hn
    refine ⟨q, rfl, ?_⟩
    have := h.fits _ (List.mem_of_getElem? hv)
    rwa [ht] at this
  have hB : Bounded b (demArgs t kernel dem).noData (demArgs t kernel dem).source := by
    intro i v hv hn
    obtain ⟨q, rfl, hq⟩ := hvalid i v hv hn
    exact hq
  have hok : ArgsOk (demArgs t kernel dem) := by
    refine ⟨h.size, trivial, ?_, ?_, ?_⟩
    · show (kernel.map _).length = 9
      rw [List.length_map, hk]
    · show 2 ≤ dem.rows
      omega
    · show 2 ≤ dem.cols
      omega
  have hw : ∀ w ∈ (demArgs t kernel dem).weights, ∃ q : Int, w = .fin q ∧ |q| ≤ 2 ∧ Represents t.num q := by
    intro w hw
    obtain ⟨q, hq, rfl⟩ := List.mem_map.1 hw
    refine ⟨q, ofInt_small t (h9 q hq), h2 q hq, represents_small t ((h2 q hq).trans ?_)⟩
    cases t <;> decide
  have hterms := terms_filled (fltWeights t) t t true false hok hV (by
    intro w hw'
    obtain ⟨q, rfl, -⟩ := hw w hw'
    exact ⟨q, rfl⟩) hB hf.nonneg hf.sum hf.average i j
  have hM := magnitudes_le (t := t) kernel hk h9 h8 dem i j
  have hM0 : 0 ≤ weightMagnitudes (filled number (demArgs t kernel dem) i j) := by
    unfold weightMagnitudes
    refine List.sum_nonneg ?_
    intro x hx
    obtain ⟨y, -, rfl⟩ := List.mem_map.1 hx
    exact abs_nonneg _
  have hE := average_bound t hf.nonneg
  have hE0 := averageError_nonneg t hf.nonneg
  obtain ⟨u1, u2⟩ := unit_mul t hf.nonneg
  have hτ := tiny_pos t
  have hlen : (filled number (demArgs t kernel dem) i j).length ≤ 9 := filled_length number (demArgs t kernel dem) i j
  have hnum : (fun w => number ((fltWeights t).value w)) = number := rfl
  rw [hnum] at hterms
  generalize hl : filled number (demArgs t kernel dem) i j = l at hterms hM hM0 hlen ⊢
  have hbM : (b + averageError t b) * weightMagnitudes l ≤ 8 * (b + averageError t b) := by
    rw [mul_comm 8]
    exact mul_le_mul_of_nonneg_left hM (by linarith [hf.nonneg])
  have hconv := convolution_bound t hlen hf.nonneg (mul_nonneg (by linarith [hf.nonneg]) hM0) hbM
  obtain ⟨s, s1, s2⟩ := productSum_near t hterms (by
    intro w hw'
    obtain ⟨q, rfl, -, hq⟩ := hw w hw'
    exact ⟨q, rfl, hq⟩) (by
    intro w hw'
    obtain ⟨q, rfl, hq, -⟩ := hw w hw'
    refine lt_of_le_of_lt (mul_le_mul_of_nonneg_left ?_ (by linarith [hf.nonneg])) hf.product
    show |(q : Rat)| ≤ 2
    exact_mod_cast hq) (by
    have := hf.sums
    have := FloatGradient.limit_le_double t
    linarith)
  have hEM : averageError t b * weightMagnitudes l ≤ 8 * averageError t b := by
    rw [mul_comm 8]
    exact mul_le_mul_of_nonneg_left hM hE0
  have hS : |FloatConvolve.Spec.weightedSum l| ≤ 8 * b := by
    refine (weightedSum_le (b := b) l ?_).trans ?_
    · intro xw hxw
      obtain ⟨n, hn, rfl⟩ := List.getElem_of_mem hxw
      have hl' := (List.forall₂_iff_get.1 hterms)
      exact (hl'.2 n (hl'.1 ▸ hn) hn).1.2
    · rw [mul_comm 8]
      exact mul_le_mul_of_nonneg_left hM hf.nonneg
  have hs : |s - FloatConvolve.Spec.weightedSum l| ≤ 211 * (unit t * b) + 35 * tiny t := by linarith
  have hs' : |s| ≤ 8 * b + 211 * (unit t * b) + 35 * tiny t := by
    have : s = (s - FloatConvolve.Spec.weightedSum l) + FloatConvolve.Spec.weightedSum l := by ring
    rw [this]
    exact (abs_add_le _ _).trans (by linarith)
  obtain ⟨g, g1, g2, g3⟩ := rounding (t := t) hs' (by have := hf.sums; linarith [hf.nonneg])
  refine ⟨g, ?_, g2, ?_, hS⟩
  · rw [← g1, ← s1]
    unfold PyFloat.Spec.weightedSum slopeTerms
    have := focal_ops t (demArgs t kernel dem)
    show productSum (arithmetic t) (terms (arithmetic t).accOps (demArgs t kernel dem)
      (fun x y => focalAverage (arithmetic t).averageOps (demArgs t kernel dem) x y)
      (focalAverage (arithmetic t).averageOps (demArgs t kernel dem)) i j) = _
    rw [this, terms_ops]
  · have : g - FloatConvolve.Spec.weightedSum l = (g - s) + (s - FloatConvolve.Spec.weightedSum l) := by ring
    rw [this]
    refine (abs_add_le _ _).trans ?_
    have e : roundingError t (8 * b + 211 * (unit t * b) + 35 * tiny t) ≤ 9 * (unit t * b) + 2 * tiny t := by
      unfold roundingError
      obtain ⟨-, v2⟩ := unit_mul t u1
      obtain ⟨-, w2⟩ := unit_mul t hτ.le
      have : unit t * (8 * b + 211 * (unit t * b) + 35 * tiny t) =
        8 * (unit t * b) + 211 * (unit t * (unit t * b)) + 35 * (unit t * tiny t) := by ring
      rw [this]
      linarith
    unfold differenceError
    have : 224 * unit t * b = 224 * (unit t * b) := by ring
    rw [this]
    linarith

/-- The rounded quotients. -/
theorem gradient_near {t : FltTy} {b g d w q : Rat} (hb : 0 ≤ b) (hg : |g - d| ≤ differenceError t b) (hd : |d| ≤ 8 * b)
    (h : t.round (g / w) = .fin q) : |q - d / w| ≤ gradientError t b w := by
  obtain ⟨u1, u2⟩ := unit_mul t hb
  have hτ := tiny_pos t
  obtain ⟨w1, w2⟩ := unit_mul t hτ.le
  obtain ⟨v1, v2⟩ := unit_mul t u1
  have hde : differenceError t b = 224 * (unit t * b) + 40 * tiny t := by unfold differenceError; ring
  rw [hde] at hg
  have hg' : |g| ≤ 8 * b + 224 * (unit t * b) + 40 * tiny t := by
    have : g = (g - d) + d := by ring
    rw [this]
    exact (abs_add_le _ _).trans (by linarith)
  have e1 : |q - g / w| ≤ unit t * |g| / |w| + tiny t := by
    rw [abs_sub_comm]
    refine (round_error h).trans (max_le ?_ ?_)
    · rw [abs_div, mul_div_assoc]
      linarith
    · have : 0 ≤ unit t * |g| / |w| := div_nonneg (mul_nonneg (unit_pos t).le (abs_nonneg _)) (abs_nonneg _)
      linarith
  have e2 : unit t * |g| ≤ 9 * (unit t * b) + tiny t := by
    have := mul_le_mul_of_nonneg_left hg' (unit_pos t).le
    have e : unit t * (8 * b + 224 * (unit t * b) + 40 * tiny t) =
      8 * (unit t * b) + 224 * (unit t * (unit t * b)) + 40 * (unit t * tiny t) := by ring
    rw [e] at this
    linarith
  have e3 : |g / w - d / w| = |g - d| / |w| := by rw [← sub_div, abs_div]
  have : q - d / w = (q - g / w) + (g / w - d / w) := by ring
  rw [this]
  refine (abs_add_le _ _).trans ?_
  rw [e3]
  have e4 : unit t * |g| / |w| + |g - d| / |w| ≤ (240 * unit t * b + 48 * tiny t) / |w| := by
    rw [← add_div]
    refine div_le_div_of_nonneg_right ?_ (abs_nonneg _)
    have : 240 * unit t * b = 240 * (unit t * b) := by ring
    rw [this]
    linarith
  unfold gradientError
  linarith

/-! ### Square roots -/

theorem root_near {r n u k : Real} (hr : 0 ≤ r) (hn : 0 ≤ n) (hu : 0 ≤ u) (hu' : u ≤ 1 / 100) (hk : 0 ≤ k)
    (h : |r - n ^ 2| ≤ (3 * u + 2 * u ^ 2) * n ^ 2 + 5 * k ^ 2) : |√r - n| ≤ 2 * u * n + 3 * k := by
  obtain ⟨h1, h2⟩ := abs_le.1 h
  have a1 : 0 ≤ u * n ^ 2 := mul_nonneg hu (sq_nonneg n)
  have a2 : 0 ≤ n * k := mul_nonneg hn hk
  have a3 : 0 ≤ u * (n * k) := mul_nonneg hu a2
  have a4 : 0 ≤ u * (u * n ^ 2) := mul_nonneg hu a1
  have a5 : u * (u * n ^ 2) ≤ 1 / 100 * (u * n ^ 2) := mul_le_mul_of_nonneg_right hu' a1
  have a6 : 0 ≤ k ^ 2 := sq_nonneg k
  refine abs_le.2 ⟨?_, ?_⟩
  · have : (1 - 2 * u) * n - 3 * k ≤ √r := by
      by_cases hneg : (1 - 2 * u) * n - 3 * k ≤ 0
      · exact hneg.trans (Real.sqrt_nonneg _)
      · have hpos := (not_le.1 hneg).le
        rw [Real.le_sqrt hpos hr]
        have a7 : 0 ≤ ((1 - 2 * u) * n - 3 * k) * k := mul_nonneg hpos hk
        nlinarith
    linarith
  · have : √r ≤ (1 + 2 * u) * n + 3 * k := by
      rw [Real.sqrt_le_iff]
      refine ⟨by nlinarith, ?_⟩
      nlinarith
    linarith

theorem norm_le (x y x' y' : Real) : √(x ^ 2 + y ^ 2) ≤ √(x' ^ 2 + y' ^ 2) + (|x - x'| + |y - y'|) := by
  have hS := Real.sqrt_nonneg (x' ^ 2 + y' ^ 2)
  have hS2 := Real.sq_sqrt (add_nonneg (sq_nonneg x') (sq_nonneg y'))
  have hx : |x'| ≤ √(x' ^ 2 + y' ^ 2) := Real.abs_le_sqrt (by nlinarith [sq_nonneg y'])
  have hy : |y'| ≤ √(x' ^ 2 + y' ^ 2) := Real.abs_le_sqrt (by nlinarith [sq_nonneg x'])
  rw [Real.sqrt_le_iff]
  refine ⟨by positivity, ?_⟩
  generalize √(x' ^ 2 + y' ^ 2) = S at *
  have key : ∀ p p' : Real, |p'| ≤ S → p ^ 2 ≤ p' ^ 2 + 2 * (S * |p - p'|) + |p - p'| ^ 2 := by
    intro p p' hp
    have e1 : p' * (p - p') ≤ S * |p - p'| := by
      refine (le_abs_self _).trans ?_
      rw [abs_mul]
      exact mul_le_mul_of_nonneg_right hp (abs_nonneg _)
    rw [sq_abs]
    nlinarith
  have k1 := key x x' hx
  have k2 := key y y' hy
  have := mul_nonneg (abs_nonneg (x - x')) (abs_nonneg (y - y'))
  nlinarith

theorem norm_near (x y x' y' : Real) : |√(x ^ 2 + y ^ 2) - √(x' ^ 2 + y' ^ 2)| ≤ |x - x'| + |y - y'| := by
  have h1 := norm_le x y x' y'
  have h2 := norm_le x' y' x y
  rw [abs_sub_comm x', abs_sub_comm y'] at h2
  exact abs_le.2 ⟨by linarith, by linarith⟩

/-- The number whose square isn't smaller than what rounding of small numbers loses. -/
theorem lost_square (t : FltTy) : tiny t ≤ (lost t / 4) ^ 2 := by
  have e : ∀ n : Nat, ((1 : Rat) / 2 ^ n / 4) ^ 2 = 1 / 2 ^ (2 * n + 4) := by
    intro n
    rw [show 2 * n + 4 = (n + 2) * 2 by ring, pow_mul, pow_add, div_div, div_pow, one_pow]
    norm_num
  cases t
  · show (1 : Rat) / 2 ^ 150 ≤ (1 / 2 ^ 73 / 4) ^ 2
    rw [e]
  · show (1 : Rat) / 2 ^ 1075 ≤ (1 / 2 ^ 535 / 4) ^ 2
    rw [e]
    exact one_div_le_one_div_of_le (by positivity) (pow_le_pow_right₀ (by norm_num) (by norm_num))

theorem lost_nonneg (t : FltTy) : 0 ≤ lost t := by cases t <;> norm_num [lost]

/-- Slopes of gradients that are close. -/
theorem slope_near {t : FltTy} {x y px py r : Rat} {s : Real} (hx : |px - x ^ 2| ≤ 2 * unit t * x ^ 2 + 2 * tiny t)
    (hy : |py - y ^ 2| ≤ 2 * unit t * y ^ 2 + 2 * tiny t) (hr0 : 0 ≤ r) (hr : |r - (px + py)| ≤ unit t * |px + py|)
    (hs : |s - √(r : Real)| ≤ 2 * (unit t : Real) * √(r : Real)) {x' y' gx gy : Rat} (hgx : |x - x'| ≤ gx)
    (hgy : |y - y'| ≤ gy) :
    |s - √((x' : Real) ^ 2 + (y' : Real) ^ 2)| ≤
      2 * ((gx : Real) + gy) + 5 * (unit t : Real) * √((x' : Real) ^ 2 + (y' : Real) ^ 2) + lost t := by
  have hτ := tiny_pos t
  have hu0 := unit_pos t
  have hu := unit_le t
  have hn : 0 ≤ x ^ 2 + y ^ 2 := by positivity
  have h1 : |px + py - (x ^ 2 + y ^ 2)| ≤ 2 * unit t * (x ^ 2 + y ^ 2) + 4 * tiny t := by
    have : px + py - (x ^ 2 + y ^ 2) = (px - x ^ 2) + (py - y ^ 2) := by ring
    rw [this]
    refine (abs_add_le _ _).trans ?_
    linarith
  have h2 : |px + py| ≤ (x ^ 2 + y ^ 2) + (2 * unit t * (x ^ 2 + y ^ 2) + 4 * tiny t) := by
    have : px + py = (px + py - (x ^ 2 + y ^ 2)) + (x ^ 2 + y ^ 2) := by ring
    rw [this]
    refine (abs_add_le _ _).trans ?_
    rw [abs_of_nonneg hn]
    linarith
  have h3 : |r - (x ^ 2 + y ^ 2)| ≤ (3 * unit t + 2 * unit t ^ 2) * (x ^ 2 + y ^ 2) + 5 * (lost t / 4) ^ 2 := by
    have : r - (x ^ 2 + y ^ 2) = (r - (px + py)) + (px + py - (x ^ 2 + y ^ 2)) := by ring
    rw [this]
    refine (abs_add_le _ _).trans ?_
    have e := hr.trans (mul_le_mul_of_nonneg_left h2 hu0.le)
    have e' := lost_square t
    obtain ⟨-, e''⟩ := unit_mul t hτ.le
    have : unit t * (x ^ 2 + y ^ 2 + (2 * unit t * (x ^ 2 + y ^ 2) + 4 * tiny t)) =
      (unit t + 2 * unit t ^ 2) * (x ^ 2 + y ^ 2) + 4 * (unit t * tiny t) := by ring
    rw [this] at e
    have : (3 * unit t + 2 * unit t ^ 2) * (x ^ 2 + y ^ 2) =
      (unit t + 2 * unit t ^ 2) * (x ^ 2 + y ^ 2) + 2 * unit t * (x ^ 2 + y ^ 2) := by ring
    rw [this]
    linarith
  have hk := lost_nonneg t
  have hu0' : (0 : Real) ≤ unit t := by exact_mod_cast hu0.le
  have hu' : (unit t : Real) ≤ 1 / 100 := by
    have : unit t ≤ 1 / 100 := hu.trans (by norm_num)
    have : ((unit t : Rat) : Real) ≤ ((1 / 100 : Rat) : Real) := by exact_mod_cast this
    refine this.trans (le_of_eq ?_)
    norm_num
  have hk' : (0 : Real) ≤ (lost t : Real) / 4 := by
    have : (0 : Real) ≤ lost t := by exact_mod_cast hk
    linarith
  have hr' : (0 : Real) ≤ r := by exact_mod_cast hr0
  have hN := Real.sqrt_nonneg ((x : Real) ^ 2 + (y : Real) ^ 2)
  have hN2 := Real.sq_sqrt (add_nonneg (sq_nonneg (x : Real)) (sq_nonneg (y : Real)))
  have h4 : |√(r : Real) - √((x : Real) ^ 2 + (y : Real) ^ 2)| ≤
      2 * (unit t : Real) * √((x : Real) ^ 2 + (y : Real) ^ 2) + 3 * ((lost t : Real) / 4) := by
    refine root_near hr' hN hu0' hu' hk' ?_
    rw [hN2]
    have : ((|r - (x ^ 2 + y ^ 2)| : Rat) : Real) ≤
        (((3 * unit t + 2 * unit t ^ 2) * (x ^ 2 + y ^ 2) + 5 * (lost t / 4) ^ 2 : Rat) : Real) := by exact_mod_cast h3
    push_cast at this
    exact this
  have h5 := norm_near x y x' y'
  have hgx' : |(x : Real) - x'| ≤ gx := by exact_mod_cast hgx
  have hgy' : |(y : Real) - y'| ≤ gy := by exact_mod_cast hgy
  have hS := Real.sqrt_nonneg ((x' : Real) ^ 2 + (y' : Real) ^ 2)
  generalize √((x : Real) ^ 2 + (y : Real) ^ 2) = N at *
  generalize √((x' : Real) ^ 2 + (y' : Real) ^ 2) = S at *
  generalize √(r : Real) = R at *
  generalize (unit t : Real) = u at *
  obtain ⟨k, hlost⟩ : ∃ k : Real, (lost t : Real) = 4 * k := ⟨(lost t : Real) / 4, by ring⟩
  have hk4 : (lost t : Real) / 4 = k := by rw [hlost]; ring
  rw [hk4] at hk' h4
  have hNS : N ≤ S + (gx + gy) := by have := (abs_le.1 h5).2; linarith
  have hG : 0 ≤ (gx : Real) + gy := by have := abs_nonneg ((x : Real) - x'); have := abs_nonneg ((y : Real) - y'); linarith
  have hR : R ≤ N + (2 * u * N + 3 * k) := by have := (abs_le.1 h4).2; linarith
  have hRu : u * R ≤ u * (N + (2 * u * N + 3 * k)) := mul_le_mul_of_nonneg_left hR hu0'
  have b1 : 0 ≤ u * N := mul_nonneg hu0' hN
  have b2 : u * (u * N) ≤ 1 / 100 * (u * N) := mul_le_mul_of_nonneg_right hu' b1
  have b3 : u * k ≤ 1 / 100 * k := mul_le_mul_of_nonneg_right hu' hk'
  have b4 : u * N ≤ u * (S + (gx + gy)) := mul_le_mul_of_nonneg_left hNS hu0'
  have b5 : u * ((gx : Real) + gy) ≤ 1 / 100 * (gx + gy) := mul_le_mul_of_nonneg_right hu' hG
  have e0 : u * (N + (2 * u * N + 3 * k)) = u * N + 2 * (u * (u * N)) + 3 * (u * k) := by ring
  rw [e0] at hRu
  have e1 : u * (S + (gx + gy)) = u * S + u * ((gx : Real) + gy) := by ring
  rw [e1] at b4
  have : s - S = (s - R) + (R - N) + (N - S) := by ring
  rw [this]
  refine (abs_add_le _ _).trans ?_
  have := abs_add_le (s - R) (R - N)
  have hs' : |s - R| ≤ 2 * (u * R) := by rw [← mul_assoc]; exact hs
  have h4' : |R - N| ≤ 2 * (u * N) + 3 * k := by rw [← mul_assoc]; exact h4
  have e2 : 5 * u * S = 5 * (u * S) := by ring
  rw [e2, hlost]
  linarith

end Fern.SlopeError
