import Verif.Lemmas.FloatConvolve

/-!
# C122: rounding in convolutions
-/

namespace Fern.FloatConvolve

open Fern Fern.Domains Fern.Spec Fern.Casts Fern.FloatArith Fern.FloatArith.Spec
open _root_.Fern.FloatConvolve.Spec

theorem productType_larger (v t : FltTy) : productType v t.num = larger v t := by cases v <;> cases t <;> rfl

/-- Numbers of a kernel of floating point numbers. -/
theorem flt_total (t : FltTy) (l : List Flt) (ys : List Rat) (h : l.map number = ys)
    (hl : ∀ w ∈ l, ∃ q, w = .fin q ∧ Represents t.num q) :
    l = ys.map Flt.fin ∧ ∀ y ∈ ys, Represents .f64 y := by
  subst h
  constructor
  · rw [List.map_map]
    conv_lhs => rw [← List.map_id l]
    apply List.map_congr_left
    intro w hw
    obtain ⟨q, rfl, -⟩ := hl w hw
    rfl
  · intro y hy
    obtain ⟨w, hw, rfl⟩ := List.mem_map.1 hy
    obtain ⟨q, rfl, hq⟩ := hl w hw
    exact represents_double hq

/-- **C122**: convolution with a kernel of floating point numbers. All runs give the same raster. No-data cells that are kept
and cells without neighbours that count are marked. What is stored in other cells is obtained from a sum that is near to the
weighted sum of the neighbours, and from a number that is near to the sum of the weights, unless products, or the sums, are
too large. -/
theorem C122_weighted (t v r : FltTy) (checkRange divide keep : Bool) (outp : OutPolicy Flt) (a : ConvolveArgs Flt Flt)
    (ha : ArgsOk a) (hv : Values v a.noData a.source) (hw : ∀ w ∈ a.weights, ∃ q, w = .fin q ∧ Represents t.num q)
    (res : List (Cell Flt)) (hres : res.length = a.rows * a.cols) :
    ∃ out, (∀ m : Execution, m.Ok → ∀ o, convolveRun m (weightedOps (fltWeights t) v r checkRange divide) a
        (skipPolicy Flt keep) outp (a.rows, a.cols) res o ↔ o = some out) ∧ out.length = res.length ∧
      ∀ i < a.rows, ∀ j < a.cols, ∃ c c', res[i * a.cols + j]? = some c ∧ out[i * a.cols + j]? = some c' ∧
        (KeptAt keep a i j → Marked outp c c') ∧
        (¬ KeptAt keep a i j → counted number a i j = [] → Marked outp c c') ∧
        (¬ KeptAt keep a i j → ∀ l, l = counted number a i j → l ≠ [] →
          (∀ xw ∈ l, ¬ TooLarge (larger v t) (xw.1 * xw.2)) →
          magnitudes l + convolutionError (larger v t) l.length (magnitudes l) < limit .double →
          weightMagnitudes l + additionError l.length (weightMagnitudes l) < limit .double →
          ∃ s w, |s - weightedSum l| ≤ convolutionError (larger v t) l.length (magnitudes l) ∧
            |w - weights l| ≤ additionError l.length (weightMagnitudes l) ∧
            Stored outp r checkRange divide s w c c') := by
  obtain ⟨out, h1, h2, h3⟩ := weighted_raster (fltWeights t) v r checkRange divide keep outp ha hv (by
    intro w hw'
    obtain ⟨q, rfl, hq⟩ := hw w hw'
    refine ⟨q, rfl, ?_⟩
    have e : (fltWeights t).type = t.num := rfl
    rw [e, productType_larger, larger_comm]
    exact represents_larger t v hq) hres
  refine ⟨out, h1, h2, fun i hi j hj => ?_⟩
  obtain ⟨c, c', hc, hc', g1, g2, g3⟩ := h3 i hi j hj
  refine ⟨c, c', hc, hc', g1, g2, fun hk l hl hne hp hlim hlim' => ?_⟩
  obtain ⟨s, s1, -, s3⟩ := products_near (larger v t) l hp hlim
  have hex : ∀ ws : List Flt, (∀ w ∈ ws, w ∈ a.weights) → ws.map number = l.map Prod.snd →
      ∃ w, ws.foldl (plus .double) (.fin 0) = .fin w ∧
        |w - weights l| ≤ additionError l.length (weightMagnitudes l) := by
    intro ws hws heq
    obtain ⟨e1, e2⟩ := flt_total t ws _ heq fun w hw' => hw w (hws w hw')
    obtain ⟨w, w1, -, w3⟩ := fold_zero (l.map Prod.snd) e2 (by rw [List.map_map, List.length_map]; exact hlim')
    refine ⟨w, by rw [e1]; exact w1, ?_⟩
    rw [List.map_map, List.length_map] at w3
    exact w3
  obtain ⟨w, w1, w2⟩ := hex (((neighbourhood a i j).filter fun vw => !Flt.eq vw.2 (.fin 0)).map Prod.snd) (by
      intro w hw'
      obtain ⟨vw, hvw, rfl⟩ := List.mem_map.1 hw'
      exact (neighbourhood_mem (List.mem_of_mem_filter hvw)).1) (by
      have := counted_eq (fltWeights t) a (fun w hw' => (hw w hw').imp fun _ h => h.1) i j
      have e : counted number a i j = ((neighbourhood a i j).filter fun vw => !Flt.eq vw.2 (.fin 0)).map
        (pairOf (fltWeights t)) := this
      rw [hl, e, List.map_map, List.map_map]
      rfl)
  refine ⟨s, w, s3, w2, ?_⟩
  subst hl
  refine g3 hk hne s w ?_ ?_
  · have e : (fltWeights t).type = t.num := rfl
    rw [e, productType_larger]
    exact s1
  · intro ws hws heq
    obtain ⟨e1, -⟩ := flt_total t ws _ heq fun w hw' => hw w (hws w hw')
    show ws.foldl (plus .double) (.fin 0) = .fin w
    rw [← w1, e1]
    congr 1
    refine ((flt_total t _ _ ?_ ?_).1).symm
    · have e : counted number a i j = ((neighbourhood a i j).filter fun vw => !Flt.eq vw.2 (.fin 0)).map
          (pairOf (fltWeights t)) := counted_eq (fltWeights t) a (fun w hw' => (hw w hw').imp fun _ h => h.1) i j
      have e' : counted (fun w => number ((fltWeights t).value w)) a i j = counted number a i j := rfl
      rw [e', e, List.map_map, List.map_map]
      rfl
    · intro w hw'
      obtain ⟨vw, hvw, rfl⟩ := List.mem_map.1 hw'
      exact hw _ (neighbourhood_mem (List.mem_of_mem_filter hvw)).1

/-- The sum of the weights of a kernel of integers. -/
theorem int_total (l : List Int) : l.foldl (fun s w => s + w) 0 = l.sum := by
  have : ∀ (l : List Int) (s : Int), l.foldl (fun s w => s + w) s = s + l.sum := by
    intro l
    induction l with
    | nil => intro s; simp
    | cons w l ih => intro s; rw [List.foldl_cons, ih, List.sum_cons, add_assoc]
  simpa using this l 0

theorem sum_le_magnitudes (l : List Rat) : |l.sum| ≤ (l.map fun y => |y|).sum := by
  induction l with
  | nil => simp
  | cons y l ih =>
    rw [List.sum_cons, List.map_cons, List.sum_cons]
    exact (abs_add_le _ _).trans (by linarith)

theorem int_total_fin (ws : List Int) (l : List (Rat × Rat)) (h : ws.map (fun w : Int => (w : Rat)) = l.map Prod.snd)
    (hlim : weightMagnitudes l < 2 ^ 53) : intWeights.total (ws.foldl intWeights.count intWeights.none) = .fin (weights l) := by
  have e : ((ws.sum : Int) : Rat) = weights l := by
    have : (ws.map (fun w : Int => (w : Rat))).sum = ((ws.sum : Int) : Rat) := by
      induction ws generalizing l with
      | nil => simp
      | cons w ws ih =>
        cases l with
        | nil => simp at h
        | cons xw l =>
          simp only [List.map_cons, List.cons.injEq] at h
          have hl' : weightMagnitudes l < 2 ^ 53 := by
            have : weightMagnitudes (xw :: l) = |xw.2| + weightMagnitudes l := by simp [weightMagnitudes]
            have := abs_nonneg xw.2
            linarith
          rw [List.map_cons, List.sum_cons, ih l h.2 hl', List.sum_cons]
          push_cast
          rfl
    rw [← this, h]
    rfl
  have hlt : |ws.sum| < 2 ^ 53 := by
    have h1 : |weights l| ≤ weightMagnitudes l := by
      have := sum_le_magnitudes (l.map Prod.snd)
      rw [List.map_map] at this
      exact this
    have : |((ws.sum : Int) : Rat)| < 2 ^ 53 := by rw [e]; linarith
    exact_mod_cast this
  have := PyFloat.round_scaled (t := .double) (e := 0) ⟨by decide, by decide⟩ hlt
  show FltTy.double.round ((ws.foldl (fun s w => s + w) 0 : Int) : Rat) = .fin (weights l)
  rw [int_total, ← e]
  simpa [PyFloat.scaled] using this

/-- **C122**: convolution with a kernel of integers, if the weights are numbers of the type of the raster: weights up to 2^24
for `float`. The sum of the weights is exact. -/
theorem C122_integers (v r : FltTy) (checkRange divide keep : Bool) (outp : OutPolicy Flt) (a : ConvolveArgs Flt Int)
    (ha : ArgsOk a) (hv : Values v a.noData a.source) (hw : ∀ w ∈ a.weights, Represents v.num (w : Rat))
    (res : List (Cell Flt)) (hres : res.length = a.rows * a.cols) :
    ∃ out, (∀ m : Execution, m.Ok → ∀ o, convolveRun m (weightedOps intWeights v r checkRange divide) a
        (skipPolicy Flt keep) outp (a.rows, a.cols) res o ↔ o = some out) ∧ out.length = res.length ∧
      ∀ i < a.rows, ∀ j < a.cols, ∃ c c', res[i * a.cols + j]? = some c ∧ out[i * a.cols + j]? = some c' ∧
        (KeptAt keep a i j → Marked outp c c') ∧
        (¬ KeptAt keep a i j → counted (fun w : Int => (w : Rat)) a i j = [] → Marked outp c c') ∧
        (¬ KeptAt keep a i j → ∀ l, l = counted (fun w : Int => (w : Rat)) a i j → l ≠ [] →
          (∀ xw ∈ l, ¬ TooLarge v (xw.1 * xw.2)) →
          magnitudes l + convolutionError v l.length (magnitudes l) < limit .double → weightMagnitudes l < 2 ^ 53 →
          ∃ s, |s - weightedSum l| ≤ convolutionError v l.length (magnitudes l) ∧
            Stored outp r checkRange divide s (weights l) c c') := by
  obtain ⟨out, h1, h2, h3⟩ := weighted_raster intWeights v r checkRange divide keep outp ha hv
    (fun w hw' => ⟨w, rfl, hw w hw'⟩) hres
  refine ⟨out, h1, h2, fun i hi j hj => ?_⟩
  obtain ⟨c, c', hc, hc', g1, g2, g3⟩ := h3 i hi j hj
  refine ⟨c, c', hc, hc', g1, g2, fun hk l hl hne hp hlim hlim' => ?_⟩
  obtain ⟨s, s1, -, s3⟩ := products_near v l hp hlim
  subst hl
  exact ⟨s, s3, g3 hk hne s _ s1 fun ws _ heq => int_total_fin ws _ heq hlim'⟩

/-- **C122**: convolution with a kernel of booleans: there are no products, and the number of neighbours is exact. -/
theorem C122_boolean (v r : FltTy) (checkRange divide keep : Bool) (outp : OutPolicy Flt) (a : ConvolveArgs Flt Bool)
    (ha : ArgsOk a) (hv : Values v a.noData a.source) (res : List (Cell Flt)) (hres : res.length = a.rows * a.cols) :
    ∃ out, (∀ m : Execution, m.Ok → ∀ o, convolveBooleanRun m (booleanOps r checkRange divide) a
        (skipPolicy Flt keep) outp (a.rows, a.cols) res o ↔ o = some out) ∧ out.length = res.length ∧
      ∀ i < a.rows, ∀ j < a.cols, ∃ c c', res[i * a.cols + j]? = some c ∧ out[i * a.cols + j]? = some c' ∧
        (KeptAt keep a i j → Marked outp c c') ∧
        (¬ KeptAt keep a i j → counted oneIf a i j = [] → Marked outp c c') ∧
        (¬ KeptAt keep a i j → ∀ l, l = counted oneIf a i j → l ≠ [] → l.length < 2 ^ 53 →
          magnitudes l + additionError l.length (magnitudes l) < limit .double →
          ∃ s, |s - weightedSum l| ≤ additionError l.length (magnitudes l) ∧
            Stored outp r checkRange divide s l.length c c') := by
  obtain ⟨out, h1, h2, h3⟩ := boolean_raster v r checkRange divide keep outp ha hv hres
  refine ⟨out, h1, h2, fun i hi j hj => ?_⟩
  obtain ⟨c, c', hc, hc', g1, g2, g3⟩ := h3 i hi j hj
  refine ⟨c, c', hc, hc', g1, g2, fun hk l hl hne hlen hlim => ?_⟩
  have hmem : ∀ xw ∈ l, xw.2 = 1 ∧ Represents .f64 xw.1 := by
    intro xw hxw
    rw [hl, counted_boolean] at hxw
    obtain ⟨vw, hvw, rfl⟩ := List.mem_map.1 hxw
    obtain ⟨-, n, m2, m3⟩ := neighbourhood_mem (List.mem_of_mem_filter hvw)
    obtain ⟨q, q1, q2⟩ := hv n _ m2 m3
    rw [q1]
    exact ⟨rfl, represents_double q2⟩
  have em : magnitudes l = ((l.map Prod.fst).map fun p => |p|).sum := by
    rw [List.map_map]
    unfold magnitudes
    congr 1
    apply List.map_congr_left
    intro xw hxw
    simp [(hmem xw hxw).1]
  have es : weightedSum l = (l.map Prod.fst).sum := by
    unfold FloatConvolve.Spec.weightedSum
    congr 1
    apply List.map_congr_left
    intro xw hxw
    simp [(hmem xw hxw).1]
  obtain ⟨s, s1, -, s3⟩ := fold_zero (l.map Prod.fst) (by
    intro p hp
    obtain ⟨xw, hxw, rfl⟩ := List.mem_map.1 hp
    exact (hmem xw hxw).2) (by rw [← em, List.length_map]; exact hlim)
  rw [← em, ← es, List.length_map] at s3
  rw [List.map_map] at s1
  subst hl
  exact ⟨s, s3, g3 hk hne hlen s s1⟩

/-! ### Sums that aren't rounded -/

/-- Products that are numbers of type `p`, and multiples of a power of two that are small enough. -/
theorem products_exact (p : FltTy) (l : List (Rat × Rat)) {e : Int} (he : -1074 ≤ e ∧ e ≤ 971)
    (h1 : ∀ xw ∈ l, Represents p.num (xw.1 * xw.2)) (h2 : ∀ xw ∈ l, ∃ k : Int, xw.1 * xw.2 = k * 2 ^ e)
    (h3 : magnitudes l < 2 ^ 53 * 2 ^ e) :
    (l.map fun xw => p.round (xw.1 * xw.2)).foldl (plus .double) (.fin 0) = .fin (FloatConvolve.Spec.weightedSum l) := by
  have e1 : (l.map fun xw => p.round (xw.1 * xw.2)) = (l.map fun xw => xw.1 * xw.2).map Flt.fin := by
    rw [List.map_map]
    exact List.map_congr_left fun xw hxw => round_exact p (h1 xw hxw)
  rw [e1]
  exact fold_exact_zero _ he (by
    intro q hq
    obtain ⟨xw, hxw, rfl⟩ := List.mem_map.1 hq
    exact h2 xw hxw) (by rw [List.map_map]; exact h3)

theorem unique_out {α : Type} {P : Outcomes α} {a b : α} (h : ∀ o, P o ↔ o = some a) (hb : P (some b)) : b = a :=
  Option.some.inj ((h _).1 hb)

/-- **C122**: if products, sums of products and sums of weights need not be rounded then what is stored only is rounded by
the division and by the conversion to the type of the destination. -/
theorem C122_exact (t v r : FltTy) (checkRange divide keep : Bool) (outp : OutPolicy Flt) (a : ConvolveArgs Flt Flt)
    (ha : ArgsOk a) (hv : Values v a.noData a.source) (hw : ∀ w ∈ a.weights, ∃ q, w = .fin q ∧ Represents t.num q)
    (res out : List (Cell Flt)) (hres : res.length = a.rows * a.cols) (m : Execution) (hm : m.Ok)
    (hout : convolveRun m (weightedOps (fltWeights t) v r checkRange divide) a (skipPolicy Flt keep) outp (a.rows, a.cols) res
      (some out)) :
    ∀ i < a.rows, ∀ j < a.cols, ¬ KeptAt keep a i j → ∀ l, l = counted number a i j → l ≠ [] →
      ∀ e f : Int, -1074 ≤ e ∧ e ≤ 971 → -1074 ≤ f ∧ f ≤ 971 →
      (∀ xw ∈ l, Represents (larger v t).num (xw.1 * xw.2) ∧ (∃ k : Int, xw.1 * xw.2 = k * 2 ^ e) ∧ ∃ k : Int, xw.2 = k * 2 ^ f) →
      magnitudes l < 2 ^ 53 * 2 ^ e → weightMagnitudes l < 2 ^ 53 * 2 ^ f →
      ∃ c c', res[i * a.cols + j]? = some c ∧ out[i * a.cols + j]? = some c' ∧
        Stored outp r checkRange divide (FloatConvolve.Spec.weightedSum l) (weights l) c c' := by
  intro i hi j hj hk l hl hne e f he hf hp h1 h2
  obtain ⟨out', g1, -, g3⟩ := weighted_raster (fltWeights t) v r checkRange divide keep outp ha hv (by
    intro w hw'
    obtain ⟨q, rfl, hq⟩ := hw w hw'
    refine ⟨q, rfl, ?_⟩
    have e : (fltWeights t).type = t.num := rfl
    rw [e, productType_larger, larger_comm]
    exact represents_larger t v hq) hres
  obtain rfl := unique_out (g1 m hm) hout
  obtain ⟨c, c', hc, hc', -, -, g⟩ := g3 i hi j hj
  refine ⟨c, c', hc, hc', ?_⟩
  subst hl
  refine g hk hne _ _ ?_ ?_
  · have e : (fltWeights t).type = t.num := rfl
    rw [e, productType_larger]
    exact products_exact _ _ he (fun xw h => (hp xw h).1) (fun xw h => (hp xw h).2.1) h1
  · intro ws hws heq
    obtain ⟨e1, -⟩ := flt_total t ws _ heq fun w hw' => hw w (hws w hw')
    show ws.foldl (plus .double) (.fin 0) = _
    rw [e1]
    exact fold_exact_zero _ hf (by
      intro y hy
      obtain ⟨xw, hxw, rfl⟩ := List.mem_map.1 hy
      exact (hp xw hxw).2.2) (by rw [List.map_map]; exact h2)

/-- **C122**: the same for a kernel of integers. -/
theorem C122_exact_integers (v r : FltTy) (checkRange divide keep : Bool) (outp : OutPolicy Flt) (a : ConvolveArgs Flt Int)
    (ha : ArgsOk a) (hv : Values v a.noData a.source) (hw : ∀ w ∈ a.weights, Represents v.num (w : Rat))
    (res out : List (Cell Flt)) (hres : res.length = a.rows * a.cols) (m : Execution) (hm : m.Ok)
    (hout : convolveRun m (weightedOps intWeights v r checkRange divide) a (skipPolicy Flt keep) outp (a.rows, a.cols) res
      (some out)) :
    ∀ i < a.rows, ∀ j < a.cols, ¬ KeptAt keep a i j → ∀ l, l = counted (fun w : Int => (w : Rat)) a i j → l ≠ [] →
      ∀ e : Int, -1074 ≤ e ∧ e ≤ 971 →
      (∀ xw ∈ l, Represents v.num (xw.1 * xw.2) ∧ ∃ k : Int, xw.1 * xw.2 = k * 2 ^ e) →
      magnitudes l < 2 ^ 53 * 2 ^ e → weightMagnitudes l < 2 ^ 53 →
      ∃ c c', res[i * a.cols + j]? = some c ∧ out[i * a.cols + j]? = some c' ∧
        Stored outp r checkRange divide (FloatConvolve.Spec.weightedSum l) (weights l) c c' := by
  intro i hi j hj hk l hl hne e he hp h1 h2
  obtain ⟨out', g1, -, g3⟩ := weighted_raster intWeights v r checkRange divide keep outp ha hv
    (fun w hw' => ⟨w, rfl, hw w hw'⟩) hres
  obtain rfl := unique_out (g1 m hm) hout
  obtain ⟨c, c', hc, hc', -, -, g⟩ := g3 i hi j hj
  refine ⟨c, c', hc, hc', ?_⟩
  subst hl
  exact g hk hne _ _ (products_exact _ _ he (fun xw h => (hp xw h).1) (fun xw h => (hp xw h).2) h1)
    fun ws _ heq => int_total_fin ws _ heq h2

/-- **C122**: the same for a kernel of booleans. -/
theorem C122_exact_boolean (v r : FltTy) (checkRange divide keep : Bool) (outp : OutPolicy Flt) (a : ConvolveArgs Flt Bool)
    (ha : ArgsOk a) (hv : Values v a.noData a.source)
    (res out : List (Cell Flt)) (hres : res.length = a.rows * a.cols) (m : Execution) (hm : m.Ok)
    (hout : convolveBooleanRun m (booleanOps r checkRange divide) a (skipPolicy Flt keep) outp (a.rows, a.cols) res (some out)) :
    ∀ i < a.rows, ∀ j < a.cols, ¬ KeptAt keep a i j → ∀ l, l = counted oneIf a i j → l ≠ [] → l.length < 2 ^ 53 →
      ∀ e : Int, -1074 ≤ e ∧ e ≤ 971 → (∀ xw ∈ l, ∃ k : Int, xw.1 = k * 2 ^ e) → (l.map fun xw => |xw.1|).sum < 2 ^ 53 * 2 ^ e →
      ∃ c c', res[i * a.cols + j]? = some c ∧ out[i * a.cols + j]? = some c' ∧
        Stored outp r checkRange divide (l.map Prod.fst).sum l.length c c' := by
  intro i hi j hj hk l hl hne hlen e he hp h1
  obtain ⟨out', g1, -, g3⟩ := boolean_raster v r checkRange divide keep outp ha hv hres
  obtain rfl := unique_out (g1 m hm) hout
  obtain ⟨c, c', hc, hc', -, -, g⟩ := g3 i hi j hj
  refine ⟨c, c', hc, hc', ?_⟩
  subst hl
  refine g hk hne hlen _ ?_
  have := fold_exact_zero ((counted oneIf a i j).map Prod.fst) he (by
    intro q hq
    obtain ⟨xw, hxw, rfl⟩ := List.mem_map.1 hq
    exact hp xw hxw) (by rw [List.map_map]; exact h1)
  rw [List.map_map] at this
  exact this

/-- **C122**: dividing an exact sum of equal values by the exact sum of the weights gives the value. -/
theorem C122_constant (r : FltTy) (checkRange : Bool) (outp : OutPolicy Flt) (l : List (Rat × Rat)) (x : Rat)
    (hx : Represents .f64 x) (hl : ∀ xw ∈ l, xw.1 = x) (hw : weights l ≠ 0) (c c' : Cell Flt)
    (h : Stored outp r checkRange true (FloatConvolve.Spec.weightedSum l) (weights l) c c')
    (hr : checkRange = true → ¬ TooLarge r (FloatConvolve.Spec.weightedSum l)) :
    c'.masked = c.masked ∧ Rounded r x c'.val := by
  have es : FloatConvolve.Spec.weightedSum l = x * weights l := by
    unfold FloatConvolve.Spec.weightedSum weights
    rw [← List.sum_map_mul_left]
    congr 1
    exact List.map_congr_left fun xw hxw => by rw [hl xw hxw]
  obtain ⟨h1, -, h3⟩ := h.2 fun hh => hr hh.1 hh.2
  refine ⟨h1, ?_⟩
  obtain ⟨d, hd, ho⟩ := (h3 rfl).1 hw
  have e : FloatConvolve.Spec.weightedSum l / weights l = x := by rw [es]; field_simp
  rw [e] at hd
  obtain rfl : d = .fin x := C95_determined .double x d (.fin x) hd (by
    have := round_rounded .double x
    rwa [round_exact .double hx] at this)
  rcases ho with ⟨q, hq, hr'⟩ | ⟨hn, -⟩
  · cases hq
    exact hr'
  · exact absurd ⟨x, rfl⟩ hn

/-! ### Averages -/

/-- Quotients of numbers that are near to others. -/
theorem quotient_near {s S e w W β M : Rat} (hs : |s - S| ≤ e) (hw : |w - W| ≤ β * W) (hS : |S| ≤ M) (hW : 0 < W) (hβ : β < 1)
    (hβ0 : 0 ≤ β) : 0 < w ∧ |s / w - S / W| ≤ (e + β * M) / ((1 - β) * W) := by
  have h1 : (1 - β) * W ≤ w := by
    have := (abs_le.1 hw).1
    linarith
  have h0 : 0 < (1 - β) * W := mul_pos (by linarith) hW
  have hw0 : 0 < w := by linarith
  refine ⟨hw0, ?_⟩
  have e1 : s / w - S / W = ((s - S) * W - S * (w - W)) / (w * W) := by
    field_simp
    ring
  rw [e1, abs_div, abs_of_pos (mul_pos hw0 hW)]
  have he : 0 ≤ e := (abs_nonneg _).trans hs
  have hM : 0 ≤ M := (abs_nonneg _).trans hS
  have h2 : |(s - S) * W - S * (w - W)| ≤ (e + β * M) * W := by
    refine (abs_sub _ _).trans ?_
    rw [abs_mul, abs_mul, abs_of_pos hW]
    have a1 := mul_le_mul_of_nonneg_right hs hW.le
    have a2 := mul_le_mul hS hw (abs_nonneg _) hM
    linarith
  calc _ ≤ (e + β * M) * W / (w * W) := by gcongr
    _ = (e + β * M) / w := by field_simp
    _ ≤ _ := div_le_div_of_nonneg_left (by nlinarith [mul_nonneg hβ0 hM]) h0 h1

theorem weights_nonneg {l : List (Rat × Rat)} (h : ∀ xw ∈ l, 0 ≤ xw.2) : weightMagnitudes l = weights l := by
  unfold weightMagnitudes weights
  congr 1
  exact List.map_congr_left fun xw hxw => abs_of_nonneg (h xw hxw)

theorem weightedSum_le (l : List (Rat × Rat)) : |FloatConvolve.Spec.weightedSum l| ≤ magnitudes l := by
  have := sum_le_magnitudes (l.map fun xw => xw.1 * xw.2)
  rwa [List.map_map] at this

/-- **C122**: a weighted average, with weights that aren't negative: what is stored is the number `q`, rounded to `double` and
to the type of the destination, and `q` is near to the average. -/
theorem C122_average (t v r : FltTy) (checkRange keep : Bool) (outp : OutPolicy Flt) (a : ConvolveArgs Flt Flt)
    (ha : ArgsOk a) (hv : Values v a.noData a.source)
    (hw : ∀ w ∈ a.weights, ∃ q, w = .fin q ∧ 0 ≤ q ∧ Represents t.num q)
    (res out : List (Cell Flt)) (hres : res.length = a.rows * a.cols) (m : Execution) (hm : m.Ok)
    (hout : convolveRun m (weightedOps (fltWeights t) v r checkRange true) a (skipPolicy Flt keep) outp (a.rows, a.cols) res
      (some out)) :
    ∀ i < a.rows, ∀ j < a.cols, ¬ KeptAt keep a i j → ∀ l, l = counted number a i j → l ≠ [] →
      (∀ xw ∈ l, ¬ TooLarge (larger v t) (xw.1 * xw.2)) → ∀ β, β = additionError l.length 1 → β < 1 →
      (checkRange = true → magnitudes l + convolutionError (larger v t) l.length (magnitudes l) < limit r) →
      magnitudes l + convolutionError (larger v t) l.length (magnitudes l) < limit .double →
      weights l + β * weights l < limit .double →
      ∃ c c', res[i * a.cols + j]? = some c ∧ out[i * a.cols + j]? = some c' ∧ c'.masked = c.masked ∧
        ∃ q d, |q - FloatConvolve.Spec.weightedSum l / weights l| ≤
            (convolutionError (larger v t) l.length (magnitudes l) + β * magnitudes l) / ((1 - β) * weights l) ∧
          Rounded .double q d ∧ FloatRaster.Spec.Operand r d c'.val := by
  intro i hi j hj hk l hl hne hp β hβ hβ1 hr hlim hlim'
  obtain ⟨out', g1, -, g3⟩ := C122_weighted t v r checkRange true keep outp a ha hv
    (fun w hw' => (hw w hw').imp fun _ h => ⟨h.1, h.2.2⟩) res hres
  obtain rfl := unique_out (g1 m hm) hout
  obtain ⟨c, c', hc, hc', -, -, g⟩ := g3 i hi j hj
  have hmem : ∀ xw ∈ l, 0 < xw.2 := by
    intro xw hxw
    rw [hl] at hxw
    obtain ⟨hxw, hz⟩ := List.mem_filter.1 hxw
    obtain ⟨vw, hvw, rfl⟩ := List.mem_map.1 hxw
    obtain ⟨q, q1, q2, -⟩ := hw _ (neighbourhood_mem hvw).1
    have hz' : number vw.2 ≠ 0 := of_decide_eq_true hz
    rw [q1] at hz'
    show 0 < number vw.2
    rw [q1]
    exact lt_of_le_of_ne q2 (Ne.symm hz')
  have hWM := weights_nonneg fun xw hxw => (hmem xw hxw).le
  have hβM : ∀ y, additionError l.length y = β * y := by
    intro y
    rw [hβ]
    unfold additionError
    ring
  obtain ⟨s, w, hs, hw', hst⟩ := g hk l hl hne hp hlim (by rw [hβM, hWM]; exact hlim')
  rw [hβM, hWM] at hw'
  have hWpos : 0 < weights l := by
    cases l with
    | nil => exact absurd rfl hne
    | cons xw l =>
      have h1 := hmem xw (by simp)
      have h2 : 0 ≤ weights l := List.sum_nonneg (by
        intro y hy
        obtain ⟨z, hz, rfl⟩ := List.mem_map.1 hy
        exact (hmem z (by simp [hz])).le)
      have : weights (xw :: l) = xw.2 + weights l := by simp [weights]
      linarith
  have hβ0 : 0 ≤ β := by
    rw [hβ]
    unfold additionError
    have : (1 : Rat) ≤ (1 + 1 / 2 ^ 53) ^ l.length := one_le_pow₀ (by norm_num)
    linarith
  obtain ⟨hw0, hq⟩ := quotient_near hs hw' (weightedSum_le l) hWpos hβ1 hβ0
  obtain ⟨k1, -, k3⟩ := hst.2 (by
    rintro ⟨h1, h2⟩
    have h3 : |s| ≤ magnitudes l + convolutionError (larger v t) l.length (magnitudes l) := by
      have := weightedSum_le l
      have h4 : |s| ≤ |s - FloatConvolve.Spec.weightedSum l| + |FloatConvolve.Spec.weightedSum l| := by
        have := abs_add_le (s - FloatConvolve.Spec.weightedSum l) (FloatConvolve.Spec.weightedSum l)
        rwa [sub_add_cancel] at this
      linarith
    have h5 := hr h1
    have : limit r ≤ |s| := h2
    linarith)
  obtain ⟨d, hd, ho⟩ := (k3 rfl).1 hw0.ne'
  exact ⟨c, c', hc, hc', k1, _, d, hq, hd, ho⟩

/-- **C122**: the average of the neighbours below a kernel of booleans. -/
theorem C122_average_boolean (v r : FltTy) (checkRange keep : Bool) (outp : OutPolicy Flt) (a : ConvolveArgs Flt Bool)
    (ha : ArgsOk a) (hv : Values v a.noData a.source)
    (res out : List (Cell Flt)) (hres : res.length = a.rows * a.cols) (m : Execution) (hm : m.Ok)
    (hout : convolveBooleanRun m (booleanOps r checkRange true) a (skipPolicy Flt keep) outp (a.rows, a.cols) res (some out)) :
    ∀ i < a.rows, ∀ j < a.cols, ¬ KeptAt keep a i j → ∀ l, l = counted oneIf a i j → l ≠ [] → l.length < 2 ^ 53 →
      (checkRange = true → magnitudes l + additionError l.length (magnitudes l) < limit r) →
      magnitudes l + additionError l.length (magnitudes l) < limit .double →
      ∃ c c', res[i * a.cols + j]? = some c ∧ out[i * a.cols + j]? = some c' ∧ c'.masked = c.masked ∧
        ∃ q d, |q - FloatConvolve.Spec.weightedSum l / l.length| ≤ additionError l.length (magnitudes l) / l.length ∧
          Rounded .double q d ∧ FloatRaster.Spec.Operand r d c'.val := by
  intro i hi j hj hk l hl hne hlen hr hlim
  obtain ⟨out', g1, -, g3⟩ := C122_boolean v r checkRange true keep outp a ha hv res hres
  obtain rfl := unique_out (g1 m hm) hout
  obtain ⟨c, c', hc, hc', -, -, g⟩ := g3 i hi j hj
  obtain ⟨s, hs, hst⟩ := g hk l hl hne hlen hlim
  have h0 : (0 : Rat) < l.length := by
    have := List.length_pos_iff.2 hne
    exact_mod_cast this
  obtain ⟨k1, -, k3⟩ := hst.2 (by
    rintro ⟨h1, h2⟩
    have h3 : |s| ≤ magnitudes l + additionError l.length (magnitudes l) := by
      have := weightedSum_le l
      have h4 : |s| ≤ |s - FloatConvolve.Spec.weightedSum l| + |FloatConvolve.Spec.weightedSum l| := by
        have := abs_add_le (s - FloatConvolve.Spec.weightedSum l) (FloatConvolve.Spec.weightedSum l)
        rwa [sub_add_cancel] at this
      linarith
    have h5 := hr h1
    have : limit r ≤ |s| := h2
    linarith)
  obtain ⟨d, hd, ho⟩ := (k3 rfl).1 h0.ne'
  refine ⟨c, c', hc, hc', k1, _, d, ?_, hd, ho⟩
  rw [← sub_div, abs_div, abs_of_pos h0]
  gcongr

/-! ### Examples -/

/-- A raster with the same value in all cells, and a kernel with the same weight in all cells. -/
def constant (x w : Flt) : ConvolveArgs Flt Flt := ⟨3, 3, List.replicate 9 x, .skip, 1, List.replicate 9 w⟩

def constantBoolean (x : Flt) : ConvolveArgs Flt Bool := ⟨3, 3, List.replicate 9 x, .skip, 1, List.replicate 9 true⟩

/-- The double next to 0.1. -/
def tenth : Rat := 3602879701896397 / 2 ^ 55

/-- **C122**: the average of values that are all 0.1 is not 0.1 in cells with six or nine neighbours. -/
theorem C122_tenth :
    convolveSequential (booleanOps .double true true) (constantBoolean (.fin tenth)) (skipPolicy Flt true) .markMask
      (innerPartBool (booleanOps .double true true) (constantBoolean (.fin tenth)) (skipPolicy Flt true) .markMask)
      (List.replicate 9 ⟨.fin 0, false⟩) =
    some [⟨.fin tenth, false⟩, ⟨.fin (tenth - 1 / 2 ^ 56), false⟩, ⟨.fin tenth, false⟩,
      ⟨.fin (tenth - 1 / 2 ^ 56), false⟩, ⟨.fin (tenth - 1 / 2 ^ 56), false⟩, ⟨.fin (tenth - 1 / 2 ^ 56), false⟩,
      ⟨.fin tenth, false⟩, ⟨.fin (tenth - 1 / 2 ^ 56), false⟩, ⟨.fin tenth, false⟩] := by
  decide +kernel

/-- **C122**: averages of values of type `float` that are in the range of `float` are marked, because their sums aren't. -/
theorem C122_large :
    convolveSequential (booleanOps .single true true) (constantBoolean (.fin (2 ^ 126))) (skipPolicy Flt true) .markMask
      (innerPartBool (booleanOps .single true true) (constantBoolean (.fin (2 ^ 126))) (skipPolicy Flt true) .markMask)
      (List.replicate 9 ⟨.fin 0, false⟩) =
    some (List.replicate 9 ⟨.fin 0, true⟩) := by
  decide +kernel

/-- A kernel of weights with sum zero. -/
def edges (x y : Flt) : ConvolveArgs Flt Int := ⟨3, 3, [x, x, x, x, y, x, x, x, x], .skip, 1, [0, 0, 0, -1, 0, 1, 0, 0, 0]⟩

/-- **C122**: dividing by weights with sum zero stores infinite values and NaN in cells that aren't marked. -/
theorem C122_zero_weights :
    convolveSequential (weightedOps intWeights .single .single true true) (edges (.fin 1) (.fin 3)) (skipPolicy Flt true)
      .markMask
      (innerPart (weightedOps intWeights .single .single true true) (edges (.fin 1) (.fin 3)) (skipPolicy Flt true) .markMask)
      (List.replicate 9 ⟨.fin 0, false⟩) =
    some [⟨.fin 1, false⟩, ⟨.nan, false⟩, ⟨.fin 1, false⟩, ⟨.fin 3, false⟩, ⟨.nan, false⟩, ⟨.fin 3, false⟩,
      ⟨.fin 1, false⟩, ⟨.nan, false⟩, ⟨.fin 1, false⟩] := by
  decide +kernel

/-- **C122**: the range of quotients isn't checked: averages of values of type `double` that are too large for `float` are
stored as infinite values in cells that aren't marked, if the weights are small. -/
theorem C122_quotient_unchecked :
    convolveSequential (weightedOps (fltWeights .double) .double .single true true) (constant (.fin (2 ^ 130)) (.fin (1 / 2 ^ 10)))
      (skipPolicy Flt true) .markMask
      (innerPart (weightedOps (fltWeights .double) .double .single true true)
        (constant (.fin (2 ^ 130)) (.fin (1 / 2 ^ 10))) (skipPolicy Flt true) .markMask)
      (List.replicate 9 ⟨.fin 0, false⟩) =
    some (List.replicate 9 ⟨.inf, false⟩) := by
  decide +kernel

/-- **C122**: products of values of type `float` are rounded to `float`, and may be too large, although sums are of type
`double`: 2^100 * 2^30 + 2^100 * -2^30, for values and weights of type `float`, is NaN. -/
theorem C122_products :
    (sums (weightedOps (fltWeights .single) .single .single true false)
      [(.fin (2 ^ 100), .fin (2 ^ 30)), (.fin (2 ^ 100), .fin (-2 ^ 30))]).1 = .nan ∧
    (sums (weightedOps (fltWeights .double) .single .single true false)
      [(.fin (2 ^ 100), .fin (2 ^ 30)), (.fin (2 ^ 100), .fin (-2 ^ 30))]).1 = .fin 0 := by
  decide +kernel

/-- The hypotheses are met. -/
example : ArgsOk (edges (.fin 1) (.fin 3)) ∧ Values .single (edges (.fin 1) (.fin 3)).noData (edges (.fin 1) (.fin 3)).source ∧
    ∀ w ∈ (edges (.fin 1) (.fin 3)).weights, Represents FltTy.single.num (w : Rat) := by
  have h0 := represents_small .single (i := 0) (by decide)
  have h1 := represents_small .single (i := 1) (by decide)
  have h2 := represents_small .single (i := -1) (by decide)
  have h3 := represents_small .single (i := 3) (by decide)
  refine ⟨⟨rfl, trivial, rfl, by decide, by decide⟩, ?_, ?_⟩
  · intro i v hv _
    have := List.mem_of_getElem? hv
    simp only [edges, List.mem_cons, List.not_mem_nil, or_false] at this
    rcases this with rfl | rfl | rfl | rfl | rfl | rfl | rfl | rfl | rfl <;>
      first | exact ⟨1, rfl, by simpa using h1⟩ | exact ⟨3, rfl, by simpa using h3⟩
  · intro w hw
    simp only [edges, List.mem_cons, List.not_mem_nil, or_false] at hw
    rcases hw with rfl | rfl | rfl | rfl | rfl | rfl | rfl | rfl | rfl <;> assumption

/-- Nine values of 0.1: the sum is not too large, and the error of the average is below 2^-52. -/
example : let l : List (Rat × Rat) := List.replicate 9 (tenth, 1)
    magnitudes l + convolutionError .double l.length (magnitudes l) < 1 ∧ additionError l.length 1 < 1 ∧
    (convolutionError .double l.length (magnitudes l) + additionError l.length 1 * magnitudes l) /
      ((1 - additionError l.length 1) * weights l) < 1 / 2 ^ 52 := by
  decide +kernel

/-- Products of small integers and weights that are multiples of 1/4 are exact. -/
example : let l : List (Rat × Rat) := [(3, 1 / 4), (-5, 3 / 4), (1000, 1 / 2)]
    magnitudes l < 2 ^ 53 * 2 ^ (-2 : Int) ∧ weightMagnitudes l < 2 ^ 53 * 2 ^ (-2 : Int) ∧
    FloatConvolve.Spec.weightedSum l = 497 ∧ weights l = 3 / 2 := by
  decide +kernel

end Fern.FloatConvolve
