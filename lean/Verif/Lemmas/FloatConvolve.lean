import Verif.Lemmas.FloatVector
import Verif.Lemmas.Outcomes
import Verif.Lemmas.Smooth
import Verif.Model.FloatConvolve
import Verif.Spec.FloatConvolve

/-! # Rounding errors of convolutions -/

namespace Fern.FloatConvolve

open Fern Fern.Domains Fern.Spec Fern.Casts Fern.FloatArith Fern.FloatArith.Spec
open Fern.FloatVector (round_represents round_some step_error)
open _root_.Fern.FloatConvolve.Spec

theorem unit_double : unit .double = 1 / 2 ^ 53 := rfl

theorem zero_represents (t : FltTy) : Represents t.num (0 : Rat) := by
  have := represents_small t (i := 0) (by cases t <;> decide)
  simpa using this

theorem round_zero (t : FltTy) : t.round 0 = .fin 0 := round_exact t (zero_represents t)

/-- Adding numbers of type `double`. -/
theorem fold_near (ps : List Rat) (hp : ∀ p ∈ ps, Represents .f64 p) {s x m k : Rat} (hrep : Represents .f64 s) (hk : 1 ≤ k)
    (hx : |x| ≤ m) (hs : |s - x| ≤ (k - 1) * m)
    (hlim : (1 + unit .double) ^ ps.length * k * (m + (ps.map fun p => |p|).sum) < limit .double) :
    ∃ r, (ps.map Flt.fin).foldl (plus .double) (.fin s) = .fin r ∧ Represents .f64 r ∧
      |r - (x + ps.sum)| ≤ ((1 + unit .double) ^ ps.length * k - 1) * (m + (ps.map fun p => |p|).sum) := by
  have hu := unit_pos .double
  induction ps generalizing s x m k with
  | nil => exact ⟨s, rfl, hrep, by simpa using hs⟩
  | cons p ps ih =>
    have hm0 : 0 ≤ m := (abs_nonneg x).trans hx
    have hp0 : 0 ≤ |p| := abs_nonneg p
    have hsum0 : 0 ≤ (ps.map fun p => |p|).sum :=
      List.sum_nonneg (by intro y hy; obtain ⟨z, -, rfl⟩ := List.mem_map.1 hy; exact abs_nonneg _)
    rw [List.map_cons, List.sum_cons, List.length_cons] at hlim
    have hpow : (1 : Rat) ≤ (1 + unit .double) ^ ps.length := one_le_pow₀ (by linarith)
    have hlim' : (1 + unit .double) ^ ps.length * ((1 + unit .double) * k) * ((m + |p|) + (ps.map fun p => |p|).sum) <
        limit .double := by
      refine lt_of_eq_of_lt ?_ hlim
      rw [pow_succ]
      ring
    have hsmall : |s + p| < limit .double := by
      have h1 : |s| ≤ k * m := by
        have : s = (s - x) + x := by ring
        rw [this]
        refine (abs_add_le _ _).trans ?_
        linarith
      have h2 : |s + p| ≤ k * (m + |p|) := (abs_add_le _ _).trans (by nlinarith)
      refine h2.trans_lt (lt_of_le_of_lt ?_ hlim')
      have h3 : k * (m + |p|) ≤ (1 + unit .double) * k * (m + |p| + (ps.map fun p => |p|).sum) := by
        refine mul_le_mul ?_ (by linarith) (by linarith) (by nlinarith)
        nlinarith
      refine h3.trans ?_
      rw [mul_assoc ((1 + unit .double) ^ ps.length)]
      exact le_mul_of_one_le_left (by
        refine mul_nonneg (mul_nonneg (by linarith) (by linarith)) (by linarith)) hpow
    obtain ⟨s1, hs1⟩ := round_some (t := .double) hsmall
    have herr := step_error (u := unit .double) (k := k) (x := x) (y := p) (m1 := m) (m2 := |p|) (s := s) (p := p) (s1 := s1) hu hx
      le_rfl hs (by simp; exact mul_nonneg (by linarith) hp0) (sum_error (t := .double) hrep (hp p (by simp)) hs1)
    obtain ⟨r, e1, e2, e3⟩ := ih (fun q hq => hp q (List.mem_cons_of_mem _ hq)) (s := s1) (x := x + p) (m := m + |p|)
      (k := (1 + unit .double) * k) (round_represents (t := .double) hs1) (by nlinarith)
      ((abs_add_le _ _).trans (by linarith)) herr hlim'
    refine ⟨r, ?_, e2, ?_⟩
    · rw [List.map_cons, List.foldl_cons]
      have : plus .double (.fin s) (.fin p) = .fin s1 := hs1
      rw [this, e1]
    · rw [List.map_cons, List.sum_cons, List.sum_cons, List.length_cons, pow_succ, ← add_assoc, ← add_assoc, mul_assoc]
      exact e3

/-- The sum of numbers of type `double`. -/
theorem fold_zero (ps : List Rat) (hp : ∀ p ∈ ps, Represents .f64 p)
    (hlim : (ps.map fun p => |p|).sum + additionError ps.length (ps.map fun p => |p|).sum < limit .double) :
    ∃ r, (ps.map Flt.fin).foldl (plus .double) (.fin 0) = .fin r ∧ Represents .f64 r ∧
      |r - ps.sum| ≤ additionError ps.length (ps.map fun p => |p|).sum := by
  have := fold_near ps hp (s := 0) (x := 0) (m := 0) (k := 1) (zero_represents .double) le_rfl (by simp) (by simp) (by
    rw [mul_one, zero_add, unit_double]
    refine lt_of_eq_of_lt ?_ hlim
    rw [additionError]
    ring)
  rw [mul_one, zero_add, zero_add] at this
  exact this

/-- Numbers that are near to others, and their sums. -/
theorem sums_near {α : Type} (l : List α) (f g : α → Rat) (u τ : Rat)
    (h : ∀ a ∈ l, |f a - g a| ≤ u * |g a| + τ) :
    |(l.map f).sum - (l.map g).sum| ≤ u * (l.map fun a => |g a|).sum + l.length * τ ∧
    (l.map fun a => |f a|).sum ≤ (l.map fun a => |g a|).sum + (u * (l.map fun a => |g a|).sum + l.length * τ) := by
  induction l with
  | nil => simp
  | cons a l ih =>
    obtain ⟨h1, h2⟩ := ih fun b hb => h b (List.mem_cons_of_mem _ hb)
    have h3 := h a (by simp)
    simp only [List.map_cons, List.sum_cons, List.length_cons]
    push_cast
    constructor
    · have : f a + (l.map f).sum - (g a + (l.map g).sum) = (f a - g a) + ((l.map f).sum - (l.map g).sum) := by ring
      rw [this]
      refine (abs_add_le _ _).trans ?_
      linarith
    · have : |f a| ≤ |f a - g a| + |g a| := by
        have : f a = (f a - g a) + g a := by ring
        calc |f a| = |(f a - g a) + g a| := by rw [← this]
          _ ≤ _ := abs_add_le _ _
      linarith

theorem represents_double {t : FltTy} {x : Rat} (h : Represents t.num x) : Represents .f64 x := by
  have := represents_larger t .double h
  cases t <;> exact this

theorem additionError_mono (n : Nat) {a b : Rat} (h : a ≤ b) : additionError n a ≤ additionError n b := by
  unfold additionError
  refine mul_le_mul_of_nonneg_left h ?_
  have : (1 : Rat) ≤ (1 + 1 / 2 ^ 53) ^ n := one_le_pow₀ (by norm_num)
  linarith

/-- The sum of rounded products. -/
theorem products_near (p : FltTy) (l : List (Rat × Rat)) (hl : ∀ xw ∈ l, ¬ TooLarge p (xw.1 * xw.2))
    (hlim : magnitudes l + convolutionError p l.length (magnitudes l) < limit .double) :
    ∃ s, (l.map fun xw => p.round (xw.1 * xw.2)).foldl (plus .double) (.fin 0) = .fin s ∧ Represents .f64 s ∧
      |s - weightedSum l| ≤ convolutionError p l.length (magnitudes l) := by
  have hr : ∀ xw ∈ l, p.round (xw.1 * xw.2) = .fin (number (p.round (xw.1 * xw.2))) := by
    intro xw hxw
    obtain ⟨r, hr⟩ := round_some (t := p) (not_le.1 (hl xw hxw))
    rw [hr]
    rfl
  have e : (l.map fun xw => p.round (xw.1 * xw.2)) = (l.map fun xw => number (p.round (xw.1 * xw.2))).map Flt.fin := by
    rw [List.map_map]
    exact List.map_congr_left hr
  obtain ⟨n1, n2⟩ := sums_near l (fun xw => number (p.round (xw.1 * xw.2))) (fun xw => xw.1 * xw.2) (unit p) (tiny p)
    (by
      intro xw hxw
      have := round_error (hr xw hxw)
      rw [abs_sub_comm]
      refine this.trans (max_le ?_ ?_)
      · have := (tiny_pos p).le
        linarith
      · have := mul_nonneg (unit_pos p).le (abs_nonneg (xw.1 * xw.2))
        linarith)
  have n2' : ((l.map fun xw => number (p.round (xw.1 * xw.2))).map fun q => |q|).sum ≤
      magnitudes l + productError p l.length (magnitudes l) := by
    rw [List.map_map]
    exact n2
  have hlen : (l.map fun xw => number (p.round (xw.1 * xw.2))).length = l.length := List.length_map _
  obtain ⟨s, e1, e2, e3⟩ := fold_zero (l.map fun xw => number (p.round (xw.1 * xw.2))) (by
    intro q hq
    obtain ⟨xw, hxw, rfl⟩ := List.mem_map.1 hq
    exact represents_double (round_represents (hr xw hxw))) (by
    refine lt_of_le_of_lt (add_le_add n2' (additionError_mono _ n2')) ?_
    rw [hlen]
    refine lt_of_eq_of_lt ?_ hlim
    rw [convolutionError]
    ring)
  refine ⟨s, by rw [e]; exact e1, e2, ?_⟩
  rw [hlen] at e3
  have e4 := e3.trans (additionError_mono _ n2')
  have : s - weightedSum l = (s - (l.map fun xw => number (p.round (xw.1 * xw.2))).sum) +
      ((l.map fun xw => number (p.round (xw.1 * xw.2))).sum - weightedSum l) := by ring
  rw [this]
  refine (abs_add_le _ _).trans ?_
  rw [convolutionError]
  have n1' : |(l.map fun xw => number (p.round (xw.1 * xw.2))).sum - weightedSum l| ≤
    productError p l.length (magnitudes l) := n1
  linarith

/-! ### Storing -/

theorem store_operand (r : FltTy) (s : Flt) : FloatRaster.Spec.Operand r s (store r s) := by
  obtain ⟨w, hw, ho⟩ := Fern.PyFloat.cast_some .f64 r s
  have : store r s = w := by simp [store, hw]
  rwa [this]

theorem store_fin (r : FltTy) (s : Rat) : store r (.fin s) = r.round s := by
  rw [store, castTo_num]
  rfl

theorem quotient_divided (r : FltTy) (s w : Rat) : Divided r s w (store r (quotient (.fin s) (.fin w))) := by
  refine ⟨fun h => ⟨FltTy.double.round (s / w), round_rounded _ _, ?_⟩, fun h hs => ?_, fun h hs => ?_, fun h hs => ?_⟩
  · have : quotient (.fin s) (.fin w) = FltTy.double.round (s / w) := by simp [quotient, over, h]
    rw [this]
    exact store_operand _ _
  · subst h
    have : quotient (.fin s) (.fin 0) = .inf := by simp [quotient, over, infinite, hs]
    rw [this]
    cases r <;> rfl
  · subst h
    have : quotient (.fin s) (.fin 0) = .negInf := by simp [quotient, over, infinite, hs, hs.le]
    rw [this]
    cases r <;> rfl
  · subst h hs
    have : quotient (.fin 0) (.fin 0) = .nan := by simp [quotient, over, infinite]
    rw [this]
    cases r <;> rfl

/-- The cell after a convolution whose sums are numbers. -/
theorem stored_of {V W A : Type} {ops : ConvolveOps V W A Flt} {outp : OutPolicy Flt} {keep : Prop} {l : List (V × W)}
    {c c' : Cell Flt} (h : ConvolvedCell ops outp keep l c c') (hk : ¬ keep) (hl : l ≠ []) (r : FltTy)
    (checkRange divide : Bool) (s w : Rat) (hin : ops.within (sums ops l) = (!checkRange || (store r (.fin s)).isFinite))
    (hnorm : ops.normalize (sums ops l) = store r (if divide then quotient (.fin s) (.fin w) else .fin s)) :
    Stored outp r checkRange divide s w c c' := by
  rw [store_fin] at hin
  have hf := round_finite r s
  constructor
  · rintro ⟨h1, h2⟩
    refine h.outOfRange hk ?_
    rw [hin, h1]
    simp only [Bool.not_true, Bool.false_or]
    rw [← Bool.not_eq_true, hf]
    exact fun h => h h2
  · intro hn
    have := h.ok hk hl (by
      rw [hin]
      cases checkRange
      · rfl
      · simp only [Bool.not_true, Bool.false_or]
        exact hf.2 fun h => hn ⟨rfl, h⟩)
    subst this
    refine ⟨rfl, ?_, ?_⟩
    · rintro rfl
      simp only [hnorm]
      have : (if false = true then quotient (.fin s) (.fin w) else Flt.fin s) = .fin s := rfl
      rw [this, store_fin]
      exact round_rounded _ _
    · rintro rfl
      simp only [hnorm]
      exact quotient_divided r s w

/-! ### Rasters -/

variable {W C : Type}

/-- The numbers of a value and a weight. -/
def pairOf (k : Weights W C) (vw : Flt × W) : Rat × Rat := (number vw.1, number (k.value vw.2))

theorem product_eq (k : Weights W C) (v : FltTy) {q y : Rat} {w : W} (hq : Represents v.num q)
    (hy : Represents (productType v k.type).num y) (hw : k.value w = .fin y) :
    product k v (.fin q) w = (productType v k.type).round (q * y) := by
  have h1 : Represents (productType v k.type).num q := by
    unfold productType
    split
    · exact represents_double hq
    · exact hq
  rw [product, hw, castTo_num, castTo_num, Option.getD_some, Option.getD_some, round_exact _ h1, round_exact _ hy]
  rfl

theorem sums_weighted (k : Weights W C) (v r : FltTy) (checkRange divide : Bool) (l : List (Flt × W))
    (hl : ∀ vw ∈ l, ∃ q y, vw.1 = .fin q ∧ Represents v.num q ∧ k.value vw.2 = .fin y ∧
      Represents (productType v k.type).num y) :
    sums (weightedOps k v r checkRange divide) l =
      (((l.map (pairOf k)).map fun xw => (productType v k.type).round (xw.1 * xw.2)).foldl (plus .double) (.fin 0),
        (l.map Prod.snd).foldl k.count k.none) := by
  have key : ∀ (l : List (Flt × W)) (s : Flt × C), (∀ vw ∈ l, ∃ q y, vw.1 = .fin q ∧ Represents v.num q ∧
      k.value vw.2 = .fin y ∧ Represents (productType v k.type).num y) →
      l.foldl (fun s vw => (weightedOps k v r checkRange divide).add vw.1 vw.2 s) s =
      (((l.map (pairOf k)).map fun xw => (productType v k.type).round (xw.1 * xw.2)).foldl (plus .double) s.1,
        (l.map Prod.snd).foldl k.count s.2) := by
    intro l
    induction l with
    | nil => intro s _; rfl
    | cons vw l ih =>
      intro s h
      obtain ⟨q, y, h1, h2, h3, h4⟩ := h vw (by simp)
      have e : product k v vw.1 vw.2 = (productType v k.type).round (q * y) := by rw [h1, product_eq k v h2 h4 h3]
      have e2 : (weightedOps k v r checkRange divide).add vw.1 vw.2 s =
          (plus .double s.1 ((productType v k.type).round (q * y)), k.count s.2 vw.2) := by rw [← e]; rfl
      have e3 : pairOf k vw = (q, y) := by rw [pairOf, h1, h3]; rfl
      rw [List.foldl_cons, e2, ih _ fun u hu => h u (List.mem_cons_of_mem _ hu)]
      simp only [List.map_cons, List.foldl_cons, e3]
  exact key l _ hl

theorem counted_eq (k : Weights W C) (a : ConvolveArgs Flt W) (hw : ∀ w ∈ a.weights, ∃ y, k.value w = .fin y) (i j : Nat) :
    counted (fun w => number (k.value w)) a i j =
      ((neighbourhood a i j).filter fun vw => !Flt.eq (k.value vw.2) (.fin 0)).map (pairOf k) := by
  unfold counted
  rw [List.filter_map]
  have : (neighbourhood a i j).filter ((fun xw : Rat × Rat => decide (xw.2 ≠ 0)) ∘
      fun vw => (number vw.1, number (k.value vw.2))) =
      (neighbourhood a i j).filter fun vw => !Flt.eq (k.value vw.2) (.fin 0) := by
    apply List.filter_congr
    rintro ⟨v, w⟩ hvw
    obtain ⟨pq, -, hn⟩ := Smooth.mem_neighbourhood hvw
    obtain ⟨y, hy⟩ := hw w (List.mem_of_getElem? (Smooth.neighbour_some hn).2.2.2)
    simp [hy, number, Flt.eq]
  rw [this]
  rfl

theorem neighbourhood_mem {a : ConvolveArgs Flt W} {i j : Nat} {vw : Flt × W} (h : vw ∈ neighbourhood a i j) :
    vw.2 ∈ a.weights ∧ ∃ n, a.source[n]? = some vw.1 ∧ ¬ NoDataAt a.noData a.source n := by
  obtain ⟨v, w⟩ := vw
  obtain ⟨pq, -, hn⟩ := Smooth.mem_neighbourhood h
  obtain ⟨-, h2, h3, h4⟩ := Smooth.neighbour_some hn
  exact ⟨List.mem_of_getElem? h4, _, h3, h2⟩

/-- Convolutions, in terms of sums of rounded products. -/
theorem weighted_raster (k : Weights W C) (v r : FltTy) (checkRange divide keep : Bool) (outp : OutPolicy Flt)
    {a : ConvolveArgs Flt W} (ha : ArgsOk a) (hv : Values v a.noData a.source)
    (hw : ∀ w ∈ a.weights, ∃ y, k.value w = .fin y ∧ Represents (productType v k.type).num y)
    {res : List (Cell Flt)} (hres : res.length = a.rows * a.cols) :
    ∃ out, (∀ m : Execution, m.Ok → ∀ o, convolveRun m (weightedOps k v r checkRange divide) a (skipPolicy Flt keep) outp
        (a.rows, a.cols) res o ↔ o = some out) ∧ out.length = res.length ∧
      ∀ i < a.rows, ∀ j < a.cols, ∃ c c', res[i * a.cols + j]? = some c ∧ out[i * a.cols + j]? = some c' ∧
        (KeptAt keep a i j → Marked outp c c') ∧
        (¬ KeptAt keep a i j → counted (fun w => number (k.value w)) a i j = [] → Marked outp c c') ∧
        (¬ KeptAt keep a i j → counted (fun w => number (k.value w)) a i j ≠ [] → ∀ s w : Rat,
          ((counted (fun w => number (k.value w)) a i j).map fun xw => (productType v k.type).round (xw.1 * xw.2)).foldl
            (plus .double) (.fin 0) = .fin s →
          (∀ l : List W, (∀ w ∈ l, w ∈ a.weights) →
            l.map (fun w => number (k.value w)) = (counted (fun w => number (k.value w)) a i j).map Prod.snd →
            k.total (l.foldl k.count k.none) = .fin w) →
          Stored outp r checkRange divide s w c c') := by
  obtain ⟨out, h1, h2, h3⟩ := gives_convolve (weightedOps k v r checkRange divide) keep outp ha hres
  refine ⟨out, h1, h2, fun i hi j hj => ?_⟩
  obtain ⟨c, c', hc, hc', hcell⟩ := h3 i hi j hj
  refine ⟨c, c', hc, hc', hcell.kept, fun hk hnil => ?_, fun hk hne s w hs ht => ?_⟩
  · rw [counted_eq k a fun w hw' => (hw w hw').imp fun _ h => h.1] at hnil
    exact hcell.nothing hk (List.map_eq_nil_iff.1 hnil)
  · rw [counted_eq k a fun w hw' => (hw w hw').imp fun _ h => h.1] at hne hs ht
    have hsums := sums_weighted k v r checkRange divide
      ((neighbourhood a i j).filter fun vw => !Flt.eq (k.value vw.2) (.fin 0)) (by
        intro vw hvw
        obtain ⟨m1, n, m2, m3⟩ := neighbourhood_mem (List.mem_of_mem_filter hvw)
        obtain ⟨q, q1, q2⟩ := hv n _ m2 m3
        obtain ⟨y, y1, y2⟩ := hw _ m1
        exact ⟨q, y, q1, q2, y1, y2⟩)
    rw [hs] at hsums
    have ht' := ht (((neighbourhood a i j).filter fun vw => !Flt.eq (k.value vw.2) (.fin 0)).map Prod.snd) (by
        intro w hw'
        obtain ⟨vw, hvw, rfl⟩ := List.mem_map.1 hw'
        exact (neighbourhood_mem (List.mem_of_mem_filter hvw)).1) (by
        rw [List.map_map, List.map_map]
        rfl)
    refine stored_of hcell hk (fun h => hne (by rw [List.map_eq_nil_iff]; exact h)) r checkRange divide s w ?_ ?_
    · exact (congrArg _ hsums).trans rfl
    · refine (congrArg _ hsums).trans ?_
      simp only [weightedOps]
      rw [ht']

/-! ### Kernels of booleans -/

theorem sums_boolean (r : FltTy) (checkRange divide : Bool) (l : List (Flt × Bool)) (hl : ∀ vw ∈ l, vw.2 = true) :
    sums (booleanOps r checkRange divide) l = ((l.map Prod.fst).foldl (plus .double) (.fin 0), l.length) := by
  have key : ∀ (l : List (Flt × Bool)) (s : Flt × Nat), (∀ vw ∈ l, vw.2 = true) →
      l.foldl (fun s vw => (booleanOps r checkRange divide).add vw.1 vw.2 s) s =
        ((l.map Prod.fst).foldl (plus .double) s.1, s.2 + l.length) := by
    intro l
    induction l with
    | nil => intro s _; rfl
    | cons vw l ih =>
      intro s h
      have e2 : (booleanOps r checkRange divide).add vw.1 vw.2 s = (plus .double s.1 vw.1, s.2 + 1) := by
        rw [h vw (by simp)]
        rfl
      rw [List.foldl_cons, e2, ih _ fun u hu => h u (List.mem_cons_of_mem _ hu)]
      simp only [List.map_cons, List.foldl_cons, List.length_cons]
      congr 1
      omega
  have := key l (.fin 0, 0) hl
  rw [Nat.zero_add] at this
  exact this

/-- The values that count. -/
theorem counted_boolean (a : ConvolveArgs Flt Bool) (i j : Nat) :
    counted oneIf a i j = ((neighbourhood a i j).filter fun vw => vw.2).map fun vw => (number vw.1, 1) := by
  unfold counted
  generalize neighbourhood a i j = l
  induction l with
  | nil => rfl
  | cons vw l ih =>
    obtain ⟨v, w⟩ := vw
    cases w
    · simpa [oneIf] using ih
    · simpa [oneIf] using ih

theorem gives_boolean (ops : ConvolveOps Flt Bool C Flt) (hz : ∀ w, ops.nonZero w = w) {a : ConvolveArgs Flt Bool}
    (keep : Bool) (outp : OutPolicy Flt) (ha : ArgsOk a) {res : List (Cell Flt)} (hres : res.length = a.rows * a.cols) :
    ∃ out, (∀ m : Execution, m.Ok →
        Gives (convolveBooleanRun m ops a (skipPolicy Flt keep) outp (a.rows, a.cols) res) out) ∧
      out.length = res.length ∧
      ∀ i < a.rows, ∀ j < a.cols, ∃ c c', res[i * a.cols + j]? = some c ∧
        out[i * a.cols + j]? = some c' ∧
        ConvolvedCell ops outp (keep = true ∧ NoDataAt a.noData a.source (i * a.cols + j))
          ((neighbourhood a i j).filter (fun vw => vw.2)) c c' := by
  obtain ⟨out, h1, h2, h3, h4⟩ := C53_skip_boolean (ops := ops) keep outp ha hz hres
  refine ⟨out, fun m hm => ?_, h2, h3⟩
  cases m with
  | sequential => exact Gives.one h1
  | parallel t => exact h4 t hm

/-- Convolutions, in terms of sums. -/
theorem boolean_raster (v r : FltTy) (checkRange divide keep : Bool) (outp : OutPolicy Flt)
    {a : ConvolveArgs Flt Bool} (ha : ArgsOk a) (hv : Values v a.noData a.source)
    {res : List (Cell Flt)} (hres : res.length = a.rows * a.cols) :
    ∃ out, (∀ m : Execution, m.Ok → ∀ o, convolveBooleanRun m (booleanOps r checkRange divide) a (skipPolicy Flt keep) outp
        (a.rows, a.cols) res o ↔ o = some out) ∧ out.length = res.length ∧
      ∀ i < a.rows, ∀ j < a.cols, ∃ c c', res[i * a.cols + j]? = some c ∧ out[i * a.cols + j]? = some c' ∧
        (KeptAt keep a i j → Marked outp c c') ∧
        (¬ KeptAt keep a i j → counted oneIf a i j = [] → Marked outp c c') ∧
        (¬ KeptAt keep a i j → counted oneIf a i j ≠ [] → (counted oneIf a i j).length < 2 ^ 53 → ∀ s : Rat,
          ((counted oneIf a i j).map fun xw => Flt.fin xw.1).foldl (plus .double) (.fin 0) = .fin s →
          Stored outp r checkRange divide s (counted oneIf a i j).length c c') := by
  obtain ⟨out, h1, h2, h3⟩ := gives_boolean (booleanOps r checkRange divide) (fun _ => rfl) keep outp ha hres
  refine ⟨out, h1, h2, fun i hi j hj => ?_⟩
  obtain ⟨c, c', hc, hc', hcell⟩ := h3 i hi j hj
  refine ⟨c, c', hc, hc', hcell.kept, fun hk hnil => ?_, fun hk hne hlen s hs => ?_⟩
  · rw [counted_boolean] at hnil
    exact hcell.nothing hk (List.map_eq_nil_iff.1 hnil)
  · rw [counted_boolean] at hne hs hlen ⊢
    rw [List.length_map] at hlen ⊢
    have hsums := sums_boolean r checkRange divide ((neighbourhood a i j).filter fun vw => vw.2) (by
      intro vw hvw
      exact (List.mem_filter.1 hvw).2)
    have e : ((neighbourhood a i j).filter fun vw => vw.2).map Prod.fst =
        (((neighbourhood a i j).filter fun vw => vw.2).map fun vw => (number vw.1, (1 : Rat))).map fun xw => Flt.fin xw.1 := by
      rw [List.map_map]
      apply List.map_congr_left
      intro vw hvw
      obtain ⟨-, n, m2, m3⟩ := neighbourhood_mem (List.mem_of_mem_filter hvw)
      obtain ⟨q, q1, -⟩ := hv n _ m2 m3
      simp [q1, number]
    rw [e, hs] at hsums
    refine stored_of hcell hk (fun h => hne (by rw [List.map_eq_nil_iff]; exact h)) r checkRange divide s _ ?_ ?_
    · exact (congrArg _ hsums).trans rfl
    · refine (congrArg _ hsums).trans ?_
      simp only [booleanOps]
      have : FltTy.double.round ((((neighbourhood a i j).filter fun vw => vw.2).length : Nat) : Rat) =
          .fin ((((neighbourhood a i j).filter fun vw => vw.2).length : Nat) : Rat) := by
        have := PyFloat.round_scaled (t := .double) (e := 0) ⟨by decide, by decide⟩
          (k := (((neighbourhood a i j).filter fun vw => vw.2).length : Nat)) (by
            rw [Nat.abs_cast]
            exact_mod_cast hlen)
        simpa [PyFloat.scaled] using this
      rw [this]

/-! ### Sums that aren't rounded -/

/-- Multiples of a power of two. -/
theorem fold_exact (ps : List Rat) {e : Int} (he : PyFloat.Scale .double e) (n : Int) (hp : ∀ p ∈ ps, ∃ m : Int, p = m * 2 ^ e)
    (h : |(n : Rat) * 2 ^ e| + (ps.map fun p => |p|).sum < 2 ^ 53 * 2 ^ e) :
    (ps.map Flt.fin).foldl (plus .double) (.fin (n * 2 ^ e)) = .fin (n * 2 ^ e + ps.sum) := by
  induction ps generalizing n with
  | nil => simp
  | cons p ps ih =>
    obtain ⟨m, rfl⟩ := hp p (by simp)
    rw [List.map_cons, List.sum_cons] at h
    have h0 : (0 : Rat) < 2 ^ e := by positivity
    have hsum0 : 0 ≤ (ps.map fun p => |p|).sum :=
      List.sum_nonneg (by intro y hy; obtain ⟨z, -, rfl⟩ := List.mem_map.1 hy; exact abs_nonneg _)
    have e1 : ((n + m : Int) : Rat) * 2 ^ e = n * 2 ^ e + m * 2 ^ e := by push_cast; ring
    have habs : |((n + m : Int) : Rat) * 2 ^ e| ≤ |(n : Rat) * 2 ^ e| + |(m : Rat) * 2 ^ e| := by
      rw [e1]
      exact abs_add_le _ _
    have hlt : |n + m| < 2 ^ 53 := by
      have : |((n + m : Int) : Rat) * 2 ^ e| < 2 ^ 53 * 2 ^ e := by linarith
      rw [abs_mul, abs_of_pos h0] at this
      have := lt_of_mul_lt_mul_right this h0.le
      exact_mod_cast this
    have hround : FltTy.double.round ((n : Rat) * 2 ^ e + m * 2 ^ e) = .fin (((n + m : Int) : Rat) * 2 ^ e) := by
      rw [← e1]
      exact PyFloat.round_scaled (t := .double) he hlt
    have hstep : plus .double (.fin (n * 2 ^ e)) (.fin (m * 2 ^ e)) = .fin (((n + m : Int) : Rat) * 2 ^ e) := hround
    rw [List.map_cons, List.foldl_cons, hstep, ih (n + m) (fun q hq => hp q (List.mem_cons_of_mem _ hq)) (by linarith), e1,
      List.sum_cons, add_assoc]

theorem fold_exact_zero (ps : List Rat) {e : Int} (he : -1074 ≤ e ∧ e ≤ 971) (hp : ∀ p ∈ ps, ∃ m : Int, p = m * 2 ^ e)
    (h : (ps.map fun p => |p|).sum < 2 ^ 53 * 2 ^ e) :
    (ps.map Flt.fin).foldl (plus .double) (.fin 0) = .fin ps.sum := by
  have := fold_exact ps (e := e) he 0 hp (by simpa using h)
  simpa using this

end Fern.FloatConvolve
