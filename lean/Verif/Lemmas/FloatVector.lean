import Verif.Lemmas.PySlopeExact
import Verif.Lemmas.FloatSum
import Verif.Lemmas.Vector
import Verif.Model.FloatVector
import Verif.Spec.FloatVector

/-! # Rounding errors of weighted sums -/

namespace Fern.FloatVector

open Fern Fern.Domains Fern.Spec Fern.Casts Fern.Casts.Spec Fern.FloatArith Fern.FloatArith.Spec
open Fern.PyFloat (arithmetic ofInt_exact)
open _root_.Fern.FloatVector.Spec

variable {t : FltTy}

theorem round_represents {q r : Rat} (h : t.round q = .fin r) : Represents t.num r :=
  (represents_num t r).2 (C91_round_nearest t.bits_pos t.lo_le_hi _ _ h).1

/-- The error of a product with an integer is relatively small, even if the product is very small. -/
theorem product_error {x r : Rat} {w : Int} (hx : Represents t.num x) (h : t.round (x * w) = .fin r) :
    |x * w - r| ≤ unit t * |x * w| := by
  obtain ⟨m, rfl⟩ := floatValue_multiple ((represents_num t x).1 hx)
  have e : (m : Rat) * 2 ^ t.lo * w = ((m * w : Int) : Rat) * 2 ^ t.lo := by push_cast; ring
  rw [e] at h ⊢
  have := rounded_multiple_relative (p := t.bits) (lo := t.lo) (m * w)
  rw [round_eq_fin h, unit_eq]
  exact this.trans (le_of_eq (by ring))

/-- The numbers and weights in a list of values. -/
def numbers (l : List (Flt × Int)) : List (Rat × Int) := l.map fun vw => (number vw.1, vw.2)

/-- The sum of the products. -/
def products (l : List (Rat × Int)) : Rat := (l.map fun vw => vw.1 * (vw.2 : Rat)).sum

/-- The sum of the magnitudes of the products. -/
def magnitudes (l : List (Rat × Int)) : Rat := (l.map fun vw => |vw.1 * (vw.2 : Rat)|).sum

theorem magnitudes_nonneg (l : List (Rat × Int)) : 0 ≤ magnitudes l := by
  refine List.sum_nonneg fun x hx => ?_
  obtain ⟨y, -, rfl⟩ := List.mem_map.1 hx
  exact abs_nonneg _

theorem products_le (l : List (Rat × Int)) : |products l| ≤ magnitudes l := by
  induction l with
  | nil => simp [products, magnitudes]
  | cons vw l ih =>
    have : products (vw :: l) = vw.1 * (vw.2 : Rat) + products l := by simp [products]
    rw [this]
    refine (abs_add_le _ _).trans ?_
    have : magnitudes (vw :: l) = |vw.1 * (vw.2 : Rat)| + magnitudes l := by simp [magnitudes]
    rw [this]
    linarith

/-- Values of the type, and small weights. -/
def Terms (t : FltTy) (l : List (Flt × Int)) : Prop :=
  ∀ vw ∈ l, (∃ q, vw.1 = .fin q ∧ Represents t.num q) ∧ |vw.2| < 2 ^ t.bits

/-- Adding to a sum. -/
abbrev addTo (t : FltTy) (l : List (Flt × Int)) (s : Flt) : Flt :=
  l.foldl (fun s vw => (arithmetic t).add s ((arithmetic t).mul vw.1 ((arithmetic t).ofInt vw.2))) s

theorem addTo_finite {l : List (Flt × Int)} {s : Flt} (h : (addTo t l s).isFinite = true) : s.isFinite = true := by
  induction l generalizing s with
  | nil => exact h
  | cons vw l ih =>
    obtain ⟨a, b, rfl, -, -⟩ := plus_finite (ih h)
    rfl

theorem step_error {u k x y m1 m2 s p s1 : Rat} (hu : 0 < u) (hm1 : |x| ≤ m1) (hm2 : |y| ≤ m2)
    (hs : |s - x| ≤ (k - 1) * m1) (hp : |p - y| ≤ (k - 1) * m2) (h1 : |s + p - s1| ≤ u * |s + p|) :
    |s1 - (x + y)| ≤ ((1 + u) * k - 1) * (m1 + m2) := by
  have h0 : 0 ≤ m1 := (abs_nonneg x).trans hm1
  have h0' : 0 ≤ m2 := (abs_nonneg y).trans hm2
  have a1 : |s + p - (x + y)| ≤ (k - 1) * (m1 + m2) := by
    have : s + p - (x + y) = (s - x) + (p - y) := by ring
    rw [this]
    refine (abs_add_le _ _).trans ?_
    linarith
  have a2 : |s + p| ≤ k * (m1 + m2) := by
    have : s + p = (s + p - (x + y)) + (x + y) := by ring
    rw [this]
    refine (abs_add_le _ _).trans ?_
    have := abs_add_le x y
    linarith
  have a3 : |s1 - (x + y)| ≤ |s + p - s1| + |s + p - (x + y)| := by
    have : s1 - (x + y) = -(s + p - s1) + (s + p - (x + y)) := by ring
    rw [this]
    refine (abs_add_le _ _).trans ?_
    rw [abs_neg]
  have a4 := mul_le_mul_of_nonneg_left a2 hu.le
  nlinarith

theorem addTo_error {l : List (Flt × Int)} (hl : Terms t l) {s r x m k : Rat} (hrep : Represents t.num s)
    (hk : 1 + unit t ≤ k) (hx : |x| ≤ m) (hs : |s - x| ≤ (k - 1) * m) (h : addTo t l (.fin s) = .fin r) :
    Represents t.num r ∧
    |r - (x + products (numbers l))| ≤ ((1 + unit t) ^ l.length * k - 1) * (m + magnitudes (numbers l)) := by
  have hu := unit_pos t
  induction l generalizing s x m k with
  | nil =>
    have : s = r := by simpa [addTo] using h
    subst this
    exact ⟨hrep, by simpa [products, magnitudes, numbers] using hs⟩
  | cons vw l ih =>
    obtain ⟨⟨q, hq, hqrep⟩, hw⟩ := hl vw (by simp)
    have hfin : (addTo t (vw :: l) (.fin s)).isFinite = true := by rw [h]; rfl
    obtain ⟨a, p, ha, hp, hsum⟩ := plus_finite (addTo_finite (l := l) hfin)
    cases ha
    have hstep : ((arithmetic t).add (.fin s) ((arithmetic t).mul vw.1 ((arithmetic t).ofInt vw.2))).isFinite = true :=
      addTo_finite (l := l) hfin
    have hsum' : (arithmetic t).add (.fin s) ((arithmetic t).mul vw.1 ((arithmetic t).ofInt vw.2)) =
        t.round (s + p) := hsum
    rw [hsum'] at hstep
    obtain ⟨s1, hs1⟩ : ∃ s1, t.round (s + p) = .fin s1 := by
      cases hc : t.round (s + p) with
      | fin s1 => exact ⟨s1, rfl⟩
      | _ => rw [hc] at hstep; cases hstep
    have hmul : t.round (q * vw.2) = .fin p := by
      rw [ofInt_exact hw, hq] at hp
      exact hp
    have hprep := round_represents hmul
    have hm0 : 0 ≤ m := (abs_nonneg x).trans hx
    have hp1 : |p - q * vw.2| ≤ (k - 1) * |q * vw.2| := by
      rw [abs_sub_comm]
      refine (product_error hqrep hmul).trans ?_
      exact mul_le_mul_of_nonneg_right (by linarith) (abs_nonneg _)
    have herr := step_error hu hx (le_refl _) hs hp1 (sum_error hrep hprep hs1)
    have h' : addTo t l (.fin s1) = .fin r := by
      rw [← h, ← hs1, ← hsum']
      rfl
    have hk' : 1 + unit t ≤ (1 + unit t) * k := by nlinarith
    have hx' : |x + q * vw.2| ≤ m + |q * vw.2| := (abs_add_le _ _).trans (by linarith)
    obtain ⟨c1, c2⟩ := ih (fun v hv => hl v (List.mem_cons_of_mem _ hv)) (round_represents hs1) hk' hx' herr h'
    refine ⟨c1, ?_⟩
    have e1 : products (numbers (vw :: l)) = q * vw.2 + products (numbers l) := by
      simp [products, numbers, hq, number]
    have e2 : magnitudes (numbers (vw :: l)) = |q * vw.2| + magnitudes (numbers l) := by
      simp [magnitudes, numbers, hq, number]
    rw [e1, e2, List.length_cons, pow_succ, ← add_assoc, ← add_assoc, mul_assoc]
    exact c2

theorem weightedSum_error {l : List (Flt × Int)} (hl : Terms t l) {s : Rat}
    (h : Fern.Spec.weightedSum (arithmetic t) l = .fin s) :
    Represents t.num s ∧
    |s - products (numbers l)| ≤ ((1 + unit t) ^ (l.length + 1) - 1) * magnitudes (numbers l) := by
  have h0 : (arithmetic t).ofInt 0 = .fin 0 := by rw [ofInt_exact (by simp)]; simp
  have hrep : Represents t.num (0 : Rat) := by
    have := represents_small t (i := 0) (by cases t <;> decide)
    simpa using this
  have h' : addTo t l (.fin 0) = .fin s := by rw [← h, ← h0]; rfl
  have := addTo_error (k := 1 + unit t) (x := 0) (m := 0) hl hrep le_rfl (by simp) (by simp) h'
  rw [zero_add, zero_add, ← pow_succ] at this
  exact this

/-! ### The Laplacian -/

theorem minus_fin {a b : Flt} {r : Rat} (h : minus t a b = .fin r) :
    ∃ x y, a = .fin x ∧ b = .fin y ∧ t.round (x + -y) = .fin r := by
  obtain ⟨x, y, rfl, hy, hr⟩ := plus_finite (t := t) (x := a) (y := negate b) (by rw [← minus, h]; rfl)
  rw [minus, hr] at h
  cases b <;> simp [negate] at hy
  case fin z => subst hy; exact ⟨x, z, rfl, rfl, h⟩

theorem over_fin {a b : Flt} {r : Rat} (hb : (arithmetic t).isZero b = false) (ha : a.isFinite = true)
    (h : (arithmetic t).div a b = .fin r) :
    ∃ x, a = .fin x ∧ ((∃ y, b = .fin y ∧ y ≠ 0 ∧ t.round (x / y) = .fin r) ∨ (b.isFinite = false ∧ r = 0)) := by
  cases a <;> cases ha
  rename_i x
  refine ⟨x, rfl, ?_⟩
  cases b with
  | fin y =>
    have hy : y ≠ 0 := by
      rintro rfl
      simp [arithmetic, Flt.eq] at hb
    refine .inl ⟨y, rfl, hy, ?_⟩
    rw [← h]
    simp [arithmetic, over, hy]
  | inf => exact .inr ⟨rfl, by have : Flt.fin 0 = .fin r := h; cases this; rfl⟩
  | negInf => exact .inr ⟨rfl, by have : Flt.fin 0 = .fin r := h; cases this; rfl⟩
  | nan => cases h

theorem products_eq (l : List (Rat × Int)) (a v : Rat) :
    exactLaplacian a v l = (products l + -(((l.map Prod.snd).sum : Int) * v)) / a := by
  rw [exactLaplacian]
  congr 1
  induction l with
  | nil => simp [products]
  | cons vw l ih =>
    rw [List.map_cons, List.sum_cons, ih]
    simp only [products, List.map_cons, List.sum_cons]
    push_cast
    ring

theorem magnitudes_eq {l : List (Rat × Int)} (hw : ∀ vw ∈ l, 0 < vw.2) (a v : Rat) :
    laplacianScale a v l = (magnitudes l + |((l.map Prod.snd).sum : Int) * v|) / |a| := by
  have h0 : 0 ≤ (l.map Prod.snd).sum := by
    refine List.sum_nonneg fun x hx => ?_
    obtain ⟨y, hy, rfl⟩ := List.mem_map.1 hx
    exact (hw y hy).le
  have h0' : (0 : Rat) ≤ ((l.map Prod.snd).sum : Int) := by exact_mod_cast h0
  rw [laplacianScale, abs_mul, abs_of_nonneg h0']
  congr 1
  clear h0 h0'
  induction l with
  | nil => simp [magnitudes]
  | cons vw l ih =>
    have := hw vw (by simp)
    have hpos : (0 : Rat) ≤ vw.2 := by exact_mod_cast this.le
    rw [List.map_cons, List.sum_cons, ih (fun x hx => hw x (List.mem_cons_of_mem _ hx))]
    simp only [magnitudes, List.map_cons, List.sum_cons, abs_mul, abs_of_nonneg hpos]
    push_cast
    ring

theorem numbers_weights (l : List (Flt × Int)) : (numbers l).map Prod.snd = l.map Prod.snd := by simp [numbers]

theorem round_near {x y e m r : Rat} (h : t.round y = .fin r) (he : |y - x| ≤ e) (hm : |x| ≤ m) :
    |r - x| ≤ (1 + unit t) * e + unit t * m + tiny t := by
  have hu := unit_pos t
  have h1 := (round_error h).trans (max_le_add_of_nonneg (by positivity) (tiny_pos t).le)
  have h2 : |y| ≤ m + e := by
    have : y = (y - x) + x := by ring
    rw [this]
    exact (abs_add_le _ _).trans (by linarith)
  have h3 : |r - x| ≤ |y - r| + |y - x| := by
    have : r - x = -(y - r) + (y - x) := by ring
    rw [this]
    refine (abs_add_le _ _).trans ?_
    rw [abs_neg]
  have h4 := mul_le_mul_of_nonneg_left h2 hu.le
  linarith

theorem sum_near {x a b e m r : Rat} (ha : Represents t.num a) (hb : Represents t.num b) (h : t.round (a + b) = .fin r)
    (he : |a + b - x| ≤ e) (hm : |x| ≤ m) : |r - x| ≤ (1 + unit t) * e + unit t * m := by
  have hu := unit_pos t
  have h1 := sum_error ha hb h
  have h2 : |a + b| ≤ m + e := by
    have : a + b = (a + b - x) + x := by ring
    rw [this]
    exact (abs_add_le _ _).trans (by linarith)
  have h3 : |r - x| ≤ |a + b - r| + |a + b - x| := by
    have : r - x = -(a + b - r) + (a + b - x) := by ring
    rw [this]
    refine (abs_add_le _ _).trans ?_
    rw [abs_neg]
  have h4 := mul_le_mul_of_nonneg_left h2 hu.le
  linarith

theorem weightSum_small {l : List (Flt × Int)} (hw : ∀ vw ∈ l, 0 < vw.2) (h : weightSum l ≤ 20) :
    |weightSum l| < 2 ^ t.bits := by
  rw [abs_of_nonneg (weightSum_nonneg hw)]
  have : (20 : Int) < 2 ^ t.bits := by cases t <;> decide
  omega

theorem pow_le_nine {n : Nat} (hn : n ≤ 8) : (1 + unit t) ^ (n + 1) ≤ (1 + unit t) ^ 9 :=
  pow_le_pow_right₀ (by have := unit_pos t; linarith) (by omega)

theorem laplacian_error {l : List (Flt × Int)} (hl : Terms t l) (hw : ∀ vw ∈ l, 0 < vw.2) (h20 : weightSum l ≤ 20)
    (h8 : l.length ≤ 8) {q a r : Rat} (hq : Represents t.num q)
    (hlap : HasLaplacian (arithmetic t) (.fin a) (.fin q) l)
    (hr : laplacianValue (arithmetic t) (.fin a) (.fin q) l = .fin r) :
    Represents t.num r ∧
    |r - exactLaplacian a q (numbers l)| ≤ 12 * unit t * laplacianScale a q (numbers l) + tiny t := by
  have hu := unit_pos t
  obtain ⟨d, hd, hdiv⟩ := over_fin hlap.notZero hlap.difference hr
  rcases hdiv with ⟨a', ha', ha0, hround⟩ | ⟨hinf, -⟩
  swap
  · cases hinf
  cases ha'
  obtain ⟨s, p, hs, hp, hdr⟩ := minus_fin hd
  obtain ⟨hsrep, hserr⟩ := weightedSum_error hl hs
  have hp' : t.round (q * (weightSum l : Int)) = .fin p := by
    rw [ofInt_exact (weightSum_small hw h20)] at hp
    rw [mul_comm]
    exact hp
  have hperr := product_error hq hp'
  have hk := pow_le_nine (t := t) h8
  have hk9 : 1 + unit t ≤ (1 + unit t) ^ 9 := by
    have := pow_le_pow_right₀ (a := 1 + unit t) (by linarith) (show 1 ≤ 9 by omega)
    simpa using this
  have hm := magnitudes_nonneg (numbers l)
  have e1 : |s - products (numbers l)| ≤ ((1 + unit t) ^ 9 - 1) * magnitudes (numbers l) :=
    hserr.trans (mul_le_mul_of_nonneg_right (by linarith) hm)
  have e2 : |-p - -((weightSum l : Int) * q)| ≤ ((1 + unit t) ^ 9 - 1) * |((weightSum l : Int) : Rat) * q| := by
    have : -p - -((weightSum l : Int) * q) = q * (weightSum l : Int) - p := by ring
    rw [this, mul_comm ((weightSum l : Int) : Rat) q]
    exact hperr.trans (mul_le_mul_of_nonneg_right (by linarith) (abs_nonneg _))
  have e3 := step_error hu (products_le (numbers l)) (le_of_eq (abs_neg _)) e1 e2
    (sum_error hsrep (represents_neg (round_represents hp')) hdr)
  refine ⟨round_represents hround, ?_⟩
  have hwn : ∀ vw ∈ numbers l, 0 < vw.2 := by
    intro vw hvw
    obtain ⟨x, hx, rfl⟩ := List.mem_map.1 hvw
    exact hw x hx
  rw [products_eq, magnitudes_eq hwn, numbers_weights]
  have hW : (l.map Prod.snd).sum = weightSum l := rfl
  rw [hW]
  have hX : |products (numbers l) + -((weightSum l : Int) * q)| ≤
      magnitudes (numbers l) + |((weightSum l : Int) : Rat) * q| := by
    refine (abs_add_le _ _).trans ?_
    rw [abs_neg]
    have := products_le (numbers l)
    linarith
  generalize magnitudes (numbers l) + |((weightSum l : Int) : Rat) * q| = X at e3 hX ⊢
  generalize products (numbers l) + -((weightSum l : Int) * q) = D at e3 hX ⊢
  have ha : 0 < |a| := abs_pos.2 ha0
  have b1 : |d / a - D / a| ≤ ((1 + unit t) * (1 + unit t) ^ 9 - 1) * (X / |a|) := by
    rw [← sub_div, abs_div, ← mul_div_assoc]
    exact div_le_div_of_nonneg_right e3 ha.le
  have b2 : |D / a| ≤ X / |a| := by
    rw [abs_div]
    exact div_le_div_of_nonneg_right hX ha.le
  have b3 := round_near hround b1 b2
  have hXa : 0 ≤ X / |a| := (abs_nonneg _).trans b2
  have hnum : (1 + unit t) * ((1 + unit t) * (1 + unit t) ^ 9 - 1) + unit t ≤ 12 * unit t := by
    cases t <;> norm_num [unit]
  have := mul_le_mul_of_nonneg_right hnum hXa
  linarith

/-! ### The Lax average -/

theorem lax_numbers (t : FltTy) {f b τ : Rat} (hf0 : 0 ≤ f) (hf1 : f ≤ 1) (hb : 0 ≤ b) (hτ : 0 ≤ τ) :
    (1 + unit t) * (((1 + unit t) * (unit t * ((1 - f) * b)) + unit t * ((1 - f) * b) + τ) +
      ((1 + unit t) * (f * ((1 + unit t) * (((1 + unit t) ^ 9 - 1) * b) + unit t * b + τ)) + unit t * (f * b) + τ)) +
      unit t * b ≤ 13 * unit t * b + 4 * τ := by
  have g0 : 0 ≤ f * b := mul_nonneg hf0 hb
  have g1 : f * b ≤ b := by nlinarith
  have h0 : 0 ≤ f * τ := mul_nonneg hf0 hτ
  have h1 : f * τ ≤ τ := by nlinarith
  cases t <;> simp only [unit] <;> norm_num <;> nlinarith

theorem times_fin {a b : Flt} {r : Rat} (h : times t a b = .fin r) :
    ∃ x y, a = .fin x ∧ b = .fin y ∧ t.round (x * y) = .fin r := by
  have hi : ∀ s, infinite s ≠ .fin r := by
    intro s
    unfold infinite
    split
    · simp
    · split <;> simp
  cases a <;> cases b <;> first | exact ⟨_, _, rfl, rfl, h⟩ | (exact absurd h (hi _)) | cases h

theorem exactMean_eq (l : List (Rat × Int)) : exactMean l = products l / ((l.map Prod.snd).sum : Int) := by
  rw [exactMean, products]
  congr 1
  · congr 1
    refine List.map_congr_left fun vw _ => mul_comm _ _
  · induction l with
    | nil => simp
    | cons vw l ih =>
      rw [List.map_cons, List.sum_cons, ih, List.map_cons, List.sum_cons]
      push_cast
      rfl

theorem magnitudes_le {l : List (Rat × Int)} (hw : ∀ vw ∈ l, 0 < vw.2) {b : Rat} (hb : ∀ vw ∈ l, |vw.1| ≤ b) :
    magnitudes l ≤ ((l.map Prod.snd).sum : Int) * b := by
  induction l with
  | nil => simp [magnitudes]
  | cons vw l ih =>
    have h1 := ih (fun x hx => hw x (List.mem_cons_of_mem _ hx)) (fun x hx => hb x (List.mem_cons_of_mem _ hx))
    have hpos : (0 : Rat) ≤ vw.2 := by exact_mod_cast (hw vw (by simp)).le
    have h2 := mul_le_mul_of_nonneg_left (hb vw (by simp)) hpos
    have e1 : magnitudes (vw :: l) = |vw.1| * vw.2 + magnitudes l := by
      simp [magnitudes, abs_mul, abs_of_nonneg hpos]
    rw [e1, List.map_cons, List.sum_cons, Int.cast_add]
    linarith

theorem lax_error {l : List (Flt × Int)} (hl : Terms t l) (hw : ∀ vw ∈ l, 0 < vw.2) (h20 : weightSum l ≤ 20)
    (h8 : l.length ≤ 8) (hne : l ≠ []) {q f r b : Rat} (hq : Represents t.num q) (hf : Represents t.num f)
    (hf0 : 0 ≤ f) (hf1 : f ≤ 1) (hb : BoundedBy b q (numbers l))
    (hsum : (Fern.Spec.weightedSum (arithmetic t) l).isFinite = true)
    (hr : laxValue (arithmetic t) (.fin f) (minus t (.fin 1) (.fin f)) (.fin q) l = .fin r) :
    Represents t.num r ∧ |r - exactLax f q (numbers l)| ≤ 13 * unit t * b + 4 * tiny t := by
  have hu := unit_pos t
  have hτ := (tiny_pos t).le
  have hwn : ∀ vw ∈ numbers l, 0 < vw.2 := by
    intro vw hvw
    obtain ⟨x, hx, rfl⟩ := List.mem_map.1 hvw
    exact hw x hx
  have hW : (0 : Rat) < (weightSum l : Int) := by exact_mod_cast weightSum_pos hw hne
  have hb0 : 0 ≤ b := (abs_nonneg _).trans hb.1
  obtain ⟨s, hs⟩ : ∃ s, Fern.Spec.weightedSum (arithmetic t) l = .fin s := by
    cases hc : Fern.Spec.weightedSum (arithmetic t) l with
    | fin s => exact ⟨s, rfl⟩
    | _ => rw [hc] at hsum; cases hsum
  obtain ⟨hsrep, hserr⟩ := weightedSum_error hl hs
  obtain ⟨L, R, hL, hR, hLR⟩ := plus_finite (t := t)
    (x := (arithmetic t).mul (minus t (.fin 1) (.fin f)) (.fin q))
    (y := (arithmetic t).mul (.fin f) ((arithmetic t).div (Fern.Spec.weightedSum (arithmetic t) l)
      ((arithmetic t).ofInt (weightSum l)))) (by
        have : (laxValue (arithmetic t) (.fin f) (minus t (.fin 1) (.fin f)) (.fin q) l).isFinite = true := by
          rw [hr]; rfl
        exact this)
  have hrr : t.round (L + R) = .fin r := by rw [← hr, ← hLR]; rfl
  obtain ⟨om, q', hom, hq', hLr⟩ := times_fin hL
  cases hq'
  obtain ⟨o1, f', ho1, hf', homr⟩ := minus_fin hom
  cases ho1
  cases hf'
  obtain ⟨f'', mean, hf'', hmean, hRr⟩ := times_fin hR
  cases hf''
  have hmean' : t.round (s / (weightSum l : Int)) = .fin mean := by
    rw [← hmean, hs, ofInt_exact (weightSum_small hw h20)]
    simp [arithmetic, over, hW.ne']
  have hW' : ((numbers l).map Prod.snd).sum = weightSum l := by rw [numbers_weights]; rfl
  have hmag : magnitudes (numbers l) ≤ (weightSum l : Int) * b := by
    rw [← hW']; exact magnitudes_le hwn hb.2
  have hmag0 := magnitudes_nonneg (numbers l)
  have hk := pow_le_nine (t := t) h8
  have hk9 : 1 ≤ (1 + unit t) ^ 9 := one_le_pow₀ (by linarith)
  -- the mean
  have a1 : |s / (weightSum l : Int) - exactMean (numbers l)| ≤ ((1 + unit t) ^ 9 - 1) * b := by
    rw [exactMean_eq, hW', ← sub_div, abs_div, abs_of_pos hW, div_le_iff₀ hW]
    refine hserr.trans ((mul_le_mul_of_nonneg_right (sub_le_sub_right hk 1) hmag0).trans ?_)
    have := mul_le_mul_of_nonneg_left hmag (sub_nonneg.2 hk9)
    linarith
  have a2 : |exactMean (numbers l)| ≤ b := by
    rw [exactMean_eq, hW', abs_div, abs_of_pos hW, div_le_iff₀ hW]
    have := products_le (numbers l)
    linarith
  have a3 := round_near hmean' a1 a2
  rw [exactLax]
  generalize exactMean (numbers l) = M at a1 a2 a3 ⊢
  have a4 : |f * mean - f * M| ≤ f * ((1 + unit t) * (((1 + unit t) ^ 9 - 1) * b) + unit t * b + tiny t) := by
    rw [← mul_sub, abs_mul, abs_of_nonneg hf0]
    exact mul_le_mul_of_nonneg_left a3 hf0
  have a5 : |f * M| ≤ f * b := by
    rw [abs_mul, abs_of_nonneg hf0]
    exact mul_le_mul_of_nonneg_left a2 hf0
  have a6 := round_near hRr a4 a5
  -- the value
  have hone : Represents t.num (1 : Rat) := by
    have := represents_small t (i := 1) (by cases t <;> decide)
    simpa using this
  have hom1 := sum_error hone (represents_neg hf) homr
  have h1f : 0 ≤ 1 - f := by linarith
  have c1 : |om * q - (1 - f) * q| ≤ unit t * ((1 - f) * b) := by
    rw [← sub_mul, abs_mul]
    have : |om - (1 - f)| ≤ unit t * (1 - f) := by
      rw [abs_sub_comm]
      have e : (1 : Rat) + -f = 1 - f := by ring
      rw [e, abs_of_nonneg h1f] at hom1
      exact hom1
    have := mul_le_mul this hb.1 (abs_nonneg _) (by positivity)
    linarith
  have c2 : |(1 - f) * q| ≤ (1 - f) * b := by
    rw [abs_mul, abs_of_nonneg h1f]
    exact mul_le_mul_of_nonneg_left hb.1 h1f
  have c3 := round_near hLr c1 c2
  -- the sum
  have d1 := (abs_add_le (L - (1 - f) * q) (R - f * M)).trans (add_le_add c3 a6)
  have d2 : (L - (1 - f) * q) + (R - f * M) = L + R - ((1 - f) * q + f * M) := by ring
  rw [d2] at d1
  have d3 : |(1 - f) * q + f * M| ≤ b := (abs_add_le _ _).trans (by linarith)
  have d4 := sum_near (round_represents hLr) (round_represents hRr) hrr d1 d3
  exact ⟨round_represents hrr, d4.trans (lax_numbers t hf0 hf1 hb0 hτ)⟩

/-! ### Values that are not too large -/

theorem round_some {x : Rat} (h : |x| < limit t) : ∃ r, t.round x = .fin r := by
  have := (round_finite t x).2 (by rw [TooLarge]; exact not_le.2 h)
  cases hc : t.round x with
  | fin r => exact ⟨r, rfl⟩
  | _ => rw [hc] at this; cases this

theorem addTo_some {l : List (Flt × Int)} (hl : Terms t l) {s x m k : Rat} (hrep : Represents t.num s)
    (hk : 1 + unit t ≤ k) (hx : |x| ≤ m) (hs : |s - x| ≤ (k - 1) * m)
    (hlim : (1 + unit t) ^ l.length * k * (m + magnitudes (numbers l)) < limit t) :
    ∃ r, addTo t l (.fin s) = .fin r := by
  have hu := unit_pos t
  induction l generalizing s x m k with
  | nil => exact ⟨s, rfl⟩
  | cons vw l ih =>
    obtain ⟨⟨q, hq, hqrep⟩, hw⟩ := hl vw (by simp)
    have hm0 : 0 ≤ m := (abs_nonneg x).trans hx
    have hmag := magnitudes_nonneg (numbers l)
    have e2 : magnitudes (numbers (vw :: l)) = |q * vw.2| + magnitudes (numbers l) := by
      simp [magnitudes, numbers, hq, number]
    rw [e2, List.length_cons] at hlim
    have habs := abs_nonneg (q * (vw.2 : Rat))
    have hpow : 1 ≤ (1 + unit t) ^ (l.length + 1) := one_le_pow₀ (by linarith)
    have hbig : k * (m + |q * vw.2|) < limit t := by
      refine lt_of_le_of_lt ?_ hlim
      have h1 : m + |q * (vw.2 : Rat)| ≤ m + (|q * (vw.2 : Rat)| + magnitudes (numbers l)) := by linarith
      have h2 : k ≤ (1 + unit t) ^ (l.length + 1) * k := by nlinarith
      exact mul_le_mul h2 h1 (by linarith) (by nlinarith)
    obtain ⟨p, hp⟩ := round_some (t := t) (x := q * vw.2) (by
      refine lt_of_le_of_lt ?_ hbig
      nlinarith)
    have hp1 : |p - q * vw.2| ≤ (k - 1) * |q * vw.2| := by
      rw [abs_sub_comm]
      refine (product_error hqrep hp).trans ?_
      exact mul_le_mul_of_nonneg_right (by linarith) (abs_nonneg _)
    obtain ⟨s1, hs1⟩ := round_some (t := t) (x := s + p) (by
      refine lt_of_le_of_lt ?_ hbig
      have : s + p = (s - x) + (p - q * vw.2) + (x + q * vw.2) := by ring
      rw [this]
      refine (abs_add_le _ _).trans ?_
      have h1 := abs_add_le (s - x) (p - q * vw.2)
      have h2 := abs_add_le x (q * vw.2)
      linarith)
    have herr := step_error hu hx (le_refl _) hs hp1 (sum_error hrep (round_represents hp) hs1)
    have hk' : 1 + unit t ≤ (1 + unit t) * k := by nlinarith
    have hx' : |x + q * vw.2| ≤ m + |q * vw.2| := (abs_add_le _ _).trans (by linarith)
    obtain ⟨r, hr⟩ := ih (fun v hv => hl v (List.mem_cons_of_mem _ hv)) (round_represents hs1) hk' hx' herr
      (by rw [pow_succ, mul_assoc, ← add_assoc] at hlim
          exact lt_of_le_of_lt (le_of_eq (by ring)) hlim)
    refine ⟨r, ?_⟩
    rw [← hr, ← hs1]
    have : (arithmetic t).add (.fin s) ((arithmetic t).mul vw.1 ((arithmetic t).ofInt vw.2)) = t.round (s + p) := by
      rw [ofInt_exact hw, hq]
      have : (arithmetic t).mul (.fin q) (.fin vw.2) = .fin p := hp
      rw [this]
      rfl
    show addTo t l ((arithmetic t).add (.fin s) ((arithmetic t).mul vw.1 ((arithmetic t).ofInt vw.2))) = _
    rw [this]

theorem limit_lt (t : FltTy) {x : Rat} (hx : x ≤ limit t / 2) (k : Nat) (hk : k ≤ 11) (h0 : 0 ≤ x) :
    (1 + unit t) ^ k * x < limit t := by
  have h1 : (1 + unit t) ^ k ≤ (1 + unit t) ^ 11 := pow_le_pow_right₀ (by have := unit_pos t; linarith) hk
  have h2 : (1 + unit t) ^ 11 < 2 := by cases t <;> norm_num [unit]
  have h3 := limit_pos t
  have h4 := mul_le_mul_of_nonneg_right h1 h0
  have h5 := mul_le_mul_of_nonneg_left hx (show 0 ≤ (1 + unit t) ^ 11 by have := unit_pos t; positivity)
  have h6 := mul_lt_mul_of_pos_right h2 (half_pos h3)
  linarith

theorem weightedSum_some {l : List (Flt × Int)} (hl : Terms t l) (h8 : l.length ≤ 8)
    (hlim : magnitudes (numbers l) ≤ limit t / 2) :
    ∃ s, Fern.Spec.weightedSum (arithmetic t) l = .fin s := by
  have h0 : (arithmetic t).ofInt 0 = .fin 0 := by rw [ofInt_exact (by simp)]; simp
  have hrep : Represents t.num (0 : Rat) := by
    have := represents_small t (i := 0) (by cases t <;> decide)
    simpa using this
  obtain ⟨r, hr⟩ := addTo_some (k := 1 + unit t) (x := 0) (m := 0) (s := 0) hl hrep le_rfl (by simp) (by simp) (by
    rw [zero_add, ← pow_succ]
    exact limit_lt t hlim _ (by omega) (magnitudes_nonneg _))
  exact ⟨r, by rw [← hr, ← h0]; rfl⟩

theorem laplacian_some {l : List (Flt × Int)} (hl : Terms t l) (hw : ∀ vw ∈ l, 0 < vw.2) (h20 : weightSum l ≤ 20)
    (h8 : l.length ≤ 8) (hne : l ≠ []) {q a : Rat} (hq : Represents t.num q) (ha : a ≠ 0)
    (h1 : laplacianScale a q (numbers l) ≤ limit t / 2) (h2 : laplacianScale a q (numbers l) * |a| ≤ limit t / 2) :
    HasLaplacian (arithmetic t) (.fin a) (.fin q) l := by
  have hu := unit_pos t
  have hwn : ∀ vw ∈ numbers l, 0 < vw.2 := by
    intro vw hvw
    obtain ⟨x, hx, rfl⟩ := List.mem_map.1 hvw
    exact hw x hx
  have hapos : 0 < |a| := abs_pos.2 ha
  rw [magnitudes_eq hwn, numbers_weights] at h1 h2
  have hW : (l.map Prod.snd).sum = weightSum l := rfl
  rw [hW] at h1 h2
  rw [div_mul_cancel₀ _ hapos.ne'] at h2
  have hm := magnitudes_nonneg (numbers l)
  have hWq := abs_nonneg (((weightSum l : Int) : Rat) * q)
  obtain ⟨s, hs⟩ := weightedSum_some hl h8 (by linarith)
  obtain ⟨hsrep, hserr⟩ := weightedSum_error hl hs
  have hlimpos := limit_pos t
  obtain ⟨p, hp⟩ := round_some (t := t) (x := (weightSum l : Int) * q) (by linarith)
  have hp' : t.round (q * (weightSum l : Int)) = .fin p := by rw [mul_comm]; exact hp
  have hperr := product_error hq hp'
  have hk := pow_le_nine (t := t) h8
  have hk9 : 1 + unit t ≤ (1 + unit t) ^ 9 := by
    have := pow_le_pow_right₀ (a := 1 + unit t) (by linarith) (show 1 ≤ 9 by omega)
    simpa using this
  have e1 : |s - products (numbers l)| ≤ ((1 + unit t) ^ 9 - 1) * magnitudes (numbers l) :=
    hserr.trans (mul_le_mul_of_nonneg_right (by linarith) hm)
  have e2 : |-p - -((weightSum l : Int) * q)| ≤ ((1 + unit t) ^ 9 - 1) * |((weightSum l : Int) : Rat) * q| := by
    have : -p - -((weightSum l : Int) * q) = q * (weightSum l : Int) - p := by ring
    rw [this, mul_comm ((weightSum l : Int) : Rat) q]
    exact hperr.trans (mul_le_mul_of_nonneg_right (by linarith) (abs_nonneg _))
  have hX : |products (numbers l) + -((weightSum l : Int) * q)| ≤
      magnitudes (numbers l) + |((weightSum l : Int) : Rat) * q| := by
    refine (abs_add_le _ _).trans ?_
    rw [abs_neg]
    have := products_le (numbers l)
    linarith
  have hX0 : 0 ≤ magnitudes (numbers l) + |((weightSum l : Int) : Rat) * q| := by linarith
  have hsp : |s + -p| ≤ (1 + unit t) ^ 9 * (magnitudes (numbers l) + |((weightSum l : Int) : Rat) * q|) := by
    have : s + -p = (s - products (numbers l)) + (-p - -((weightSum l : Int) * q)) +
        (products (numbers l) + -((weightSum l : Int) * q)) := by ring
    rw [this]
    refine (abs_add_le _ _).trans ?_
    have := abs_add_le (s - products (numbers l)) (-p - -((weightSum l : Int) * q))
    linarith
  obtain ⟨d, hd⟩ := round_some (t := t) (x := s + -p) (lt_of_le_of_lt hsp (limit_lt t h2 9 (by omega) hX0))
  have e3 := step_error hu (products_le (numbers l)) (le_of_eq (abs_neg _)) e1 e2
    (sum_error hsrep (represents_neg (round_represents hp')) hd)
  have hdabs : |d| ≤ (1 + unit t) ^ 10 * (magnitudes (numbers l) + |((weightSum l : Int) : Rat) * q|) := by
    have : d = (d - (products (numbers l) + -((weightSum l : Int) * q))) +
        (products (numbers l) + -((weightSum l : Int) * q)) := by ring
    rw [this]
    refine (abs_add_le _ _).trans ?_
    have : (1 + unit t) ^ 10 = (1 + unit t) * (1 + unit t) ^ 9 := by ring
    rw [this]
    linarith
  obtain ⟨r, hr⟩ := round_some (t := t) (x := d / a) (by
    rw [abs_div]
    refine lt_of_le_of_lt (div_le_div_of_nonneg_right hdabs hapos.le) ?_
    rw [mul_div_assoc]
    exact limit_lt t h1 10 (by omega) (div_nonneg hX0 hapos.le))
  have hprod : (arithmetic t).mul ((arithmetic t).ofInt (weightSum l)) (.fin q) = .fin p := by
    rw [ofInt_exact (weightSum_small hw h20)]
    exact hp
  have hdiff : (arithmetic t).sub (Fern.Spec.weightedSum (arithmetic t) l)
      ((arithmetic t).mul ((arithmetic t).ofInt (weightSum l)) (.fin q)) = .fin d := by
    rw [hprod, hs]
    exact hd
  refine ⟨hne, by simp [arithmetic, Flt.eq, ha], by rw [hs]; rfl, by rw [hprod]; rfl, by rw [hdiff]; rfl, ?_⟩
  rw [laplacianValue, hdiff]
  have : (arithmetic t).div (.fin d) (.fin a) = .fin r := by
    rw [← hr]
    simp [arithmetic, over, ha]
  rw [this]
  rfl

theorem limit_large (t : FltTy) : 1000 ≤ limit t := by
  cases t
  · norm_num [limit]
  · have : (1 : Rat) ≤ 2 ^ 971 := one_le_pow₀ (by norm_num)
    simp only [limit]
    generalize (2 : Rat) ^ 971 = z at this ⊢
    norm_num
    linarith

theorem tiny_lt (t : FltTy) : tiny t ≤ limit t / 1000 := by
  have h1 := limit_large t
  have h2 : tiny t ≤ 1 := by
    cases t
    · norm_num [tiny]
    · simp only [tiny]
      rw [div_le_one (by positivity)]
      exact one_le_pow₀ (by norm_num)
  linarith

theorem round_abs {x r y : Rat} (h : t.round x = .fin r) (hx : |x| ≤ y) : |r| ≤ 2 * y + tiny t := by
  have h1 := (round_error h).trans (max_le_add_of_nonneg (mul_nonneg (unit_pos t).le (abs_nonneg _)) (tiny_pos t).le)
  have h2 : |r| ≤ |x - r| + |x| := by
    have : r = -(x - r) + x := by ring
    rw (occs := [1]) [this]
    refine (abs_add_le _ _).trans ?_
    rw [abs_neg]
  have h3 := mul_le_mul_of_nonneg_right (unit_lt_one t).le (abs_nonneg x)
  linarith

theorem lax_some {l : List (Flt × Int)} (hl : Terms t l) (hw : ∀ vw ∈ l, 0 < vw.2) (h20 : weightSum l ≤ 20)
    (h8 : l.length ≤ 8) (hne : l ≠ []) {q f b : Rat} (hf : Represents t.num f)
    (hf0 : 0 ≤ f) (hf1 : f ≤ 1) (hb : BoundedBy b q (numbers l)) (hlim : 20 * b ≤ limit t / 2) :
    HasLax (arithmetic t) (.fin f) (minus t (.fin 1) (.fin f)) (.fin q) l := by
  have hu := unit_pos t
  have hτ := (tiny_pos t).le
  have hτ' := tiny_lt t
  have hpos := limit_pos t
  have hwn : ∀ vw ∈ numbers l, 0 < vw.2 := by
    intro vw hvw
    obtain ⟨x, hx, rfl⟩ := List.mem_map.1 hvw
    exact hw x hx
  have hW : (0 : Rat) < (weightSum l : Int) := by exact_mod_cast weightSum_pos hw hne
  have hW20 : ((weightSum l : Int) : Rat) ≤ 20 := by exact_mod_cast h20
  have hb0 : 0 ≤ b := (abs_nonneg _).trans hb.1
  have hW' : ((numbers l).map Prod.snd).sum = weightSum l := by rw [numbers_weights]; rfl
  have hmag : magnitudes (numbers l) ≤ (weightSum l : Int) * b := by
    rw [← hW']; exact magnitudes_le hwn hb.2
  have hmag0 := magnitudes_nonneg (numbers l)
  have hWb : ((weightSum l : Int) : Rat) * b ≤ 20 * b := mul_le_mul_of_nonneg_right hW20 hb0
  obtain ⟨s, hs⟩ := weightedSum_some hl h8 (by linarith)
  obtain ⟨-, hserr⟩ := weightedSum_error hl hs
  have hk := pow_le_nine (t := t) h8
  have hk9 : (1 + unit t) ^ 9 ≤ 2 := by cases t <;> norm_num [unit]
  have hsabs : |s| ≤ 2 * ((weightSum l : Int) * b) := by
    have h1 := products_le (numbers l)
    have h2 : |s| ≤ |s - products (numbers l)| + |products (numbers l)| := by
      have : s = (s - products (numbers l)) + products (numbers l) := by ring
      rw (occs := [1]) [this]
      exact abs_add_le _ _
    have h3 := mul_le_mul_of_nonneg_right (show (1 + unit t) ^ (l.length + 1) - 1 ≤ 1 by linarith) hmag0
    linarith
  have hmeanabs : |s / (weightSum l : Int)| ≤ 2 * b := by
    rw [abs_div, abs_of_pos hW, div_le_iff₀ hW]
    linarith
  obtain ⟨mean, hmean⟩ := round_some (t := t) (x := s / (weightSum l : Int)) (by linarith)
  have hm2 := round_abs hmean hmeanabs
  have hfm : |f * mean| ≤ 4 * b + tiny t := by
    rw [abs_mul, abs_of_nonneg hf0]
    have := mul_le_mul_of_nonneg_right hf1 (abs_nonneg mean)
    linarith
  obtain ⟨R, hR⟩ := round_some (t := t) (x := f * mean) (by linarith)
  have hR2 := round_abs hR hfm
  have hone : Represents t.num (1 : Rat) := by
    have := represents_small t (i := 1) (by cases t <;> decide)
    simpa using this
  obtain ⟨om, hom⟩ := round_some (t := t) (x := 1 + -f) (by
    rw [abs_of_nonneg (by linarith)]
    have := limit_large t
    linarith)
  have hom2 : |om| ≤ 2 := by
    have h1 := sum_error hone (represents_neg hf) hom
    rw [abs_of_nonneg (show (0 : Rat) ≤ 1 + -f by linarith)] at h1
    have h2 := abs_sub_abs_le_abs_sub om (1 + -f)
    rw [abs_sub_comm om, abs_of_nonneg (show (0 : Rat) ≤ 1 + -f by linarith)] at h2
    have h3 := mul_le_mul_of_nonneg_right (unit_lt_one t).le (show (0 : Rat) ≤ 1 + -f by linarith)
    linarith
  have hoq : |om * q| ≤ 2 * b := by
    rw [abs_mul]
    exact mul_le_mul hom2 hb.1 (abs_nonneg _) (by norm_num)
  obtain ⟨L, hL⟩ := round_some (t := t) (x := om * q) (by linarith)
  have hL2 := round_abs hL hoq
  obtain ⟨r, hr⟩ := round_some (t := t) (x := L + R) (by
    have := abs_add_le L R
    linarith)
  have e1 : (arithmetic t).div (Fern.Spec.weightedSum (arithmetic t) l) ((arithmetic t).ofInt (weightSum l)) =
      .fin mean := by
    rw [hs, ofInt_exact (weightSum_small hw h20), ← hmean]
    simp [arithmetic, over, hW.ne']
  have e2 : (arithmetic t).mul (.fin f) ((arithmetic t).div (Fern.Spec.weightedSum (arithmetic t) l)
      ((arithmetic t).ofInt (weightSum l))) = .fin R := by rw [e1]; exact hR
  have e3 : (arithmetic t).mul (minus t (.fin 1) (.fin f)) (.fin q) = .fin L := by
    have : minus t (.fin 1) (.fin f) = .fin om := hom
    rw [this]
    exact hL
  refine ⟨hne, by rw [hs]; rfl, by rw [e3]; rfl, by rw [e2]; rfl, ?_⟩
  rw [laxValue, e2, e3]
  have : (arithmetic t).add (.fin L) (.fin R) = .fin r := hr
  rw [this]
  rfl

/-- A fraction of zero leaves the value as it is. -/
theorem lax_zero {l : List (Flt × Int)} {q r : Rat} (hq : Represents t.num q)
    (hr : laxValue (arithmetic t) (.fin 0) (minus t (.fin 1) (.fin 0)) (.fin q) l = .fin r) : r = q := by
  have hone : Represents t.num (1 : Rat) := by
    have := represents_small t (i := 1) (by cases t <;> decide)
    simpa using this
  have hzero : Represents t.num (0 : Rat) := by
    have := represents_small t (i := 0) (by cases t <;> decide)
    simpa using this
  obtain ⟨L, R, hL, hR, hLR⟩ := plus_finite (t := t)
    (x := (arithmetic t).mul (minus t (.fin 1) (.fin 0)) (.fin q))
    (y := (arithmetic t).mul (.fin 0) ((arithmetic t).div (Fern.Spec.weightedSum (arithmetic t) l)
      ((arithmetic t).ofInt (weightSum l)))) (by
        have : (laxValue (arithmetic t) (.fin 0) (minus t (.fin 1) (.fin 0)) (.fin q) l).isFinite = true := by
          rw [hr]; rfl
        exact this)
  have hrr : t.round (L + R) = .fin r := by rw [← hr, ← hLR]; rfl
  obtain ⟨om, q', hom, hq', hLr⟩ := times_fin hL
  cases hq'
  obtain ⟨o1, f', ho1, hf', homr⟩ := minus_fin hom
  cases ho1
  cases hf'
  rw [neg_zero, add_zero, round_exact t hone] at homr
  cases homr
  rw [one_mul, round_exact t hq] at hLr
  cases hLr
  obtain ⟨z, mean, hz, -, hRr⟩ := times_fin hR
  cases hz
  rw [zero_mul, round_exact t hzero] at hRr
  cases hRr
  rw [add_zero, round_exact t hq] at hrr
  cases hrr
  rfl

/-! ### Laplacians without rounding -/

theorem laplacian_scaled {e : Int} (he : Fern.PyFloat.Scale t e) (l : List (Int × Int)) (k0 b : Int)
    (hw : ∀ kw ∈ l, 0 < kw.2) (h20 : (l.map Prod.snd).sum ≤ 20) (hb : ∀ kw ∈ l, |kw.1| ≤ b) (hb0 : |k0| ≤ b)
    (hbits : 40 * b < 2 ^ t.bits) (a : Rat) (ha : a ≠ 0) :
    let values := l.map fun kw => (Fern.PyFloat.scaled e kw.1, kw.2)
    laplacianValue (arithmetic t) (.fin a) (Fern.PyFloat.scaled e k0) values =
        t.round (exactLaplacian a (k0 * 2 ^ e) (numbers values)) ∧
      ((arithmetic t).finite (Fern.Spec.weightedSum (arithmetic t) values) = true) ∧
      ((arithmetic t).finite ((arithmetic t).mul ((arithmetic t).ofInt (weightSum values))
        (Fern.PyFloat.scaled e k0)) = true) ∧
      ((arithmetic t).finite ((arithmetic t).sub (Fern.Spec.weightedSum (arithmetic t) values)
        ((arithmetic t).mul ((arithmetic t).ofInt (weightSum values)) (Fern.PyFloat.scaled e k0))) = true) := by
  intro values
  have hbn : 0 ≤ b := (abs_nonneg _).trans hb0
  have hws : weightSum values = (l.map Prod.snd).sum := by
    simp [weightSum, values, Function.comp_def]
  have hsum0 : 0 ≤ (l.map Prod.snd).sum := by
    refine List.sum_nonneg fun x hx => ?_
    obtain ⟨y, hy, rfl⟩ := List.mem_map.1 hx
    exact (hw y hy).le
  have hmag : ∀ l : List (Int × Int), (∀ kw ∈ l, 0 < kw.2) → (∀ kw ∈ l, |kw.1| ≤ b) →
      (l.map fun kw => |kw.1 * kw.2|).sum ≤ (l.map Prod.snd).sum * b := by
    intro l
    induction l with
    | nil => simp
    | cons kw l ih =>
      intro h1 h2
      have i1 := ih (fun x hx => h1 x (List.mem_cons_of_mem _ hx)) (fun x hx => h2 x (List.mem_cons_of_mem _ hx))
      have i2 := mul_le_mul_of_nonneg_left (h2 kw (by simp)) (h1 kw (by simp)).le
      simp only [List.map_cons, List.sum_cons]
      rw [abs_mul, abs_of_pos (h1 kw (by simp))]
      linarith
  have hm := hmag l hw hb
  have hm20 : (l.map Prod.snd).sum * b ≤ 20 * b := mul_le_mul_of_nonneg_right h20 hbn
  -- the weighted sum
  have hlw : ∀ kw ∈ l, |kw.2| < 2 ^ t.bits := by
    intro kw hkw
    have h1 : kw.2 ≤ (l.map Prod.snd).sum := by
      refine List.single_le_sum (fun x hx => ?_) _ (List.mem_map_of_mem hkw)
      obtain ⟨y, hy, rfl⟩ := List.mem_map.1 hx
      exact (hw y hy).le
    rw [abs_of_pos (hw kw hkw)]
    have : (20 : Int) < 2 ^ t.bits := by cases t <;> decide
    omega
  have hsum : Fern.Spec.weightedSum (arithmetic t) values =
      Fern.PyFloat.scaled e (l.map fun kw => kw.1 * kw.2).sum := by
    have h1 := Fern.PyFloat.sum_scaled he l 0 (by rw [abs_zero]; linarith)
    have h0 : (arithmetic t).ofInt 0 = Fern.PyFloat.scaled e 0 := by
      rw [ofInt_exact (by simp)]
      simp [Fern.PyFloat.scaled]
    rw [zero_add] at h1
    rw [← h1, Fern.Spec.weightedSum, h0]
    simp only [values]
    rw [List.foldl_map, List.foldl_map]
    refine List.foldl_ext _ _ _ fun s kw hkw => ?_
    rw [ofInt_exact (hlw kw hkw)]
    rfl
  have hprod : (arithmetic t).mul ((arithmetic t).ofInt (weightSum values)) (Fern.PyFloat.scaled e k0) =
      Fern.PyFloat.scaled e ((l.map Prod.snd).sum * k0) := by
    have hk : |k0 * (l.map Prod.snd).sum| ≤ 20 * b := by
      rw [abs_mul, abs_of_nonneg hsum0]
      have := mul_le_mul_of_nonneg_right hb0 hsum0
      linarith
    rw [hws, ofInt_exact (by
      rw [abs_of_nonneg hsum0]
      have : (20 : Int) < 2 ^ t.bits := by cases t <;> decide
      omega)]
    have h1 := Fern.PyFloat.mul_scaled he (a := k0) (w := (l.map Prod.snd).sum) (by linarith)
    have h2 : (arithmetic t).mul (.fin ((l.map Prod.snd).sum : Int)) (Fern.PyFloat.scaled e k0) =
        (arithmetic t).mul (Fern.PyFloat.scaled e k0) (.fin ((l.map Prod.snd).sum : Int)) := by
      show t.round _ = t.round _
      rw [mul_comm]
    rw [h2, h1, mul_comm]
  have hdiff : (arithmetic t).sub (Fern.PyFloat.scaled e (l.map fun kw => kw.1 * kw.2).sum)
      (Fern.PyFloat.scaled e ((l.map Prod.snd).sum * k0)) =
      Fern.PyFloat.scaled e ((l.map fun kw => kw.1 * kw.2).sum + -((l.map Prod.snd).sum * k0)) := by
    have h1 : (arithmetic t).sub (Fern.PyFloat.scaled e (l.map fun kw => kw.1 * kw.2).sum)
        (Fern.PyFloat.scaled e ((l.map Prod.snd).sum * k0)) =
        (arithmetic t).add (Fern.PyFloat.scaled e (l.map fun kw => kw.1 * kw.2).sum)
          (Fern.PyFloat.scaled e (-((l.map Prod.snd).sum * k0))) := by
      simp [arithmetic, minus, negate, Fern.PyFloat.scaled]
    rw [h1]
    refine Fern.PyFloat.add_scaled he ?_
    refine lt_of_le_of_lt (abs_add_le _ _) ?_
    rw [abs_neg, abs_mul, abs_of_nonneg hsum0]
    have h2 := mul_le_mul_of_nonneg_left hb0 hsum0
    have h3 : |(l.map fun kw : Int × Int => kw.1 * kw.2).sum| ≤ (l.map fun kw => |kw.1 * kw.2|).sum := by
      clear * -
      induction l with
      | nil => simp
      | cons kw l ih =>
        simp only [List.map_cons, List.sum_cons]
        exact (abs_add_le _ _).trans (by linarith)
    linarith
  refine ⟨?_, by rw [hsum]; rfl, by rw [hprod]; rfl, by rw [hsum, hprod, hdiff]; rfl⟩
  rw [laplacianValue, hsum, hprod, hdiff]
  have hdiv : (arithmetic t).div (Fern.PyFloat.scaled e ((l.map fun kw => kw.1 * kw.2).sum +
      -((l.map Prod.snd).sum * k0))) (.fin a) = t.round ((((l.map fun kw => kw.1 * kw.2).sum +
      -((l.map Prod.snd).sum * k0) : Int) : Rat) * 2 ^ e / a) := by
    simp [arithmetic, over, ha, Fern.PyFloat.scaled]
  rw [hdiv]
  congr 1
  rw [products_eq, numbers_weights]
  have hv : values.map Prod.snd = l.map Prod.snd := by simp [values, Function.comp_def]
  have hp : products (numbers values) = ((l.map fun kw => kw.1 * kw.2).sum : Int) * 2 ^ e := by
    simp only [values]
    clear * -
    induction l with
    | nil => simp [products, numbers]
    | cons kw l ih =>
      have : products (numbers (((kw :: l).map fun kw => (Fern.PyFloat.scaled e kw.1, kw.2)))) =
          kw.1 * 2 ^ e * kw.2 + products (numbers (l.map fun kw => (Fern.PyFloat.scaled e kw.1, kw.2))) := by
        simp [products, numbers, number, Fern.PyFloat.scaled]
      rw [this, ih, List.map_cons, List.sum_cons]
      push_cast
      ring
  rw [hv, hp]
  push_cast
  ring

end Fern.FloatVector
