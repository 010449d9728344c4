import Verif.Lemmas.FloatFocal
import Verif.Props.FloatConvolve

/-!
# C126: rounding in averages that replace missing values
-/

namespace Fern.FloatFocal

open Fern Fern.Domains Fern.Spec Fern.Casts Fern.FloatArith Fern.FloatArith.Spec Fern.FloatConvolve
open _root_.Fern.FloatConvolve.Spec _root_.Fern.FloatFocal.Spec

/-- **C126**: the value of a position whose value is missing is near to the mean of the valid cells around it, if the
magnitudes of the values are at most `b`, and `b` is not too large; without valid cells around it there is no value. -/
theorem C126_average {W : Type} (v : FltTy) (a : ConvolveArgs Flt W) (hv : Values v a.noData a.source) (b : Rat)
    (hb : Bounded b a.noData a.source) (hlim : 9 * (b + additionError 9 b) < limit .double)
    (hlim' : b + averageError v b < limit v) (x y : Int) :
    (meanAround a x y = none → focalAverage (fltAverage v) a x y = none) ∧
    ∀ m, meanAround a x y = some m → |m| ≤ b ∧
      ∃ r, focalAverage (fltAverage v) a x y = some (.fin r) ∧ Represents v.num r ∧ |r - m| ≤ averageError v b := by
  rcases focal_near v hv hb hlim hlim' x y with ⟨h1, h2⟩ | ⟨m, f, h1, h2, ⟨⟨r, rfl, r2, r3⟩, h3⟩⟩
  · exact ⟨fun _ => h2, fun m hm => by rw [h1] at hm; simp at hm⟩
  · refine ⟨fun h => by rw [h1] at h; simp at h, fun m' hm' => ?_⟩
    rw [h1] at hm'
    cases hm'
    exact ⟨h3, r, h2, r2, r3⟩

/-- **C126**: convolution with a kernel of floating point numbers in which averages replace missing values. All runs give the
same raster. No-data cells that are kept, and cells without anything that counts, are marked. What is stored in other cells is
obtained from a sum that is near to the weighted sum of the valid cells and the means of the cells around missing values. -/
theorem C126_weighted (t v r : FltTy) (checkRange divide keep : Bool) (outp : OutPolicy Flt) (a : ConvolveArgs Flt Flt)
    (ha : ArgsOk a) (hr : 2 * a.radius + 1 ≤ a.rows) (hc : 2 * a.radius + 1 ≤ a.cols)
    (hno : NoneIsolated a (focalPolicy v a keep)) (hv : Values v a.noData a.source)
    (hw : ∀ w ∈ a.weights, ∃ q, w = .fin q ∧ Represents t.num q) (b : Rat) (hb0 : 0 ≤ b)
    (hb : Bounded b a.noData a.source) (hlim : 9 * (b + additionError 9 b) < limit .double)
    (hlim' : b + averageError v b < limit v)
    (hprod : ∀ w ∈ a.weights, (b + averageError v b) * |number w| < limit (larger v t))
    (res : List (Cell Flt)) (hres : res.length = a.rows * a.cols) :
    ∃ out, (∀ m : Execution, m.Ok → ∀ o, convolveRun m (weightedOps (fltWeights t) v r checkRange divide) a
        (focalPolicy v a keep) outp (a.rows, a.cols) res o ↔ o = some out) ∧ out.length = res.length ∧
      ∀ i < a.rows, ∀ j < a.cols, ∃ c c', res[i * a.cols + j]? = some c ∧ out[i * a.cols + j]? = some c' ∧
        (KeptAt keep a i j → Marked outp c c') ∧
        (¬ KeptAt keep a i j → filled number a i j = [] → Marked outp c c') ∧
        (¬ KeptAt keep a i j → ∀ l, l = filled number a i j → l ≠ [] →
          (b + averageError v b) * weightMagnitudes l +
            convolutionError (larger v t) l.length ((b + averageError v b) * weightMagnitudes l) < limit .double →
          weightMagnitudes l + additionError l.length (weightMagnitudes l) < limit .double →
          ∃ s w, |s - weightedSum l| ≤
              convolutionError (larger v t) l.length ((b + averageError v b) * weightMagnitudes l) +
              averageError v b * weightMagnitudes l ∧
            |w - weights l| ≤ additionError l.length (weightMagnitudes l) ∧
            Stored outp r checkRange divide s w c c') := by
  obtain ⟨out, h1, h2, h3⟩ := focal_raster (fltWeights t) v r checkRange divide keep outp ha hr hc hno hv (by
    intro w hw'
    obtain ⟨q, rfl, hq⟩ := hw w hw'
    refine ⟨q, rfl, ?_⟩
    have e : (fltWeights t).type = t.num := rfl
    rw [e, productType_larger, larger_comm]
    exact represents_larger t v hq) hb hb0 hlim hlim' (by
    have e : (fltWeights t).type = t.num := rfl
    rw [e, productType_larger]
    exact hprod) hres
  refine ⟨out, h1, h2, fun i hi j hj => ?_⟩
  obtain ⟨c, c', hc1, hc2, g1, g2, g3⟩ := h3 i hi j hj
  refine ⟨c, c', hc1, hc2, g1, g2, fun hk l hl hne hsum hsum' => ?_⟩
  have e : (fltWeights t).type = t.num := rfl
  rw [e, productType_larger] at g3
  obtain ⟨ws, w1, w2, s, s1, s2⟩ := g3 hk l hl hne hsum
  obtain ⟨e1, e2⟩ := flt_total t ws _ w2 fun w hw' => hw w (w1 w hw')
  obtain ⟨w, z1, -, z3⟩ := fold_zero (l.map Prod.snd) e2 (by rw [List.map_map, List.length_map]; exact hsum')
  rw [List.map_map, List.length_map] at z3
  refine ⟨s, w, s1, z3, s2 w ?_⟩
  show ws.foldl (plus .double) (.fin 0) = .fin w
  rw [e1]
  exact z1

/-- **C126**: the same for kernels of integers. The sum of the weights is exact. -/
theorem C126_integers (v r : FltTy) (checkRange divide keep : Bool) (outp : OutPolicy Flt) (a : ConvolveArgs Flt Int)
    (ha : ArgsOk a) (hr : 2 * a.radius + 1 ≤ a.rows) (hc : 2 * a.radius + 1 ≤ a.cols)
    (hno : NoneIsolated a (focalPolicy v a keep)) (hv : Values v a.noData a.source)
    (hw : ∀ w ∈ a.weights, Represents v.num (w : Rat)) (b : Rat) (hb0 : 0 ≤ b)
    (hb : Bounded b a.noData a.source) (hlim : 9 * (b + additionError 9 b) < limit .double)
    (hlim' : b + averageError v b < limit v)
    (hprod : ∀ w ∈ a.weights, (b + averageError v b) * |(w : Rat)| < limit v)
    (res : List (Cell Flt)) (hres : res.length = a.rows * a.cols) :
    ∃ out, (∀ m : Execution, m.Ok → ∀ o, convolveRun m (weightedOps intWeights v r checkRange divide) a
        (focalPolicy v a keep) outp (a.rows, a.cols) res o ↔ o = some out) ∧ out.length = res.length ∧
      ∀ i < a.rows, ∀ j < a.cols, ∃ c c', res[i * a.cols + j]? = some c ∧ out[i * a.cols + j]? = some c' ∧
        (KeptAt keep a i j → Marked outp c c') ∧
        (¬ KeptAt keep a i j → filled (fun w : Int => (w : Rat)) a i j = [] → Marked outp c c') ∧
        (¬ KeptAt keep a i j → ∀ l, l = filled (fun w : Int => (w : Rat)) a i j → l ≠ [] →
          (b + averageError v b) * weightMagnitudes l +
            convolutionError v l.length ((b + averageError v b) * weightMagnitudes l) < limit .double →
          weightMagnitudes l < 2 ^ 53 →
          ∃ s, |s - weightedSum l| ≤
              convolutionError v l.length ((b + averageError v b) * weightMagnitudes l) +
              averageError v b * weightMagnitudes l ∧
            Stored outp r checkRange divide s (weights l) c c') := by
  obtain ⟨out, h1, h2, h3⟩ := focal_raster intWeights v r checkRange divide keep outp ha hr hc hno hv
    (fun w hw' => ⟨w, rfl, hw w hw'⟩) hb hb0 hlim hlim' hprod hres
  refine ⟨out, h1, h2, fun i hi j hj => ?_⟩
  obtain ⟨c, c', hc1, hc2, g1, g2, g3⟩ := h3 i hi j hj
  refine ⟨c, c', hc1, hc2, g1, g2, fun hk l hl hne hsum hsum' => ?_⟩
  obtain ⟨ws, -, w2, s, s1, s2⟩ := g3 hk l hl hne hsum
  exact ⟨s, s1, s2 _ (int_total_fin ws l w2 hsum')⟩

/-- **C126**: the same for kernels of booleans, where positions outside of the raster get averages and no-data cells are skipped.
There are no products, and the number of values is exact: averages below weights that are switched off aren't added or
counted, but if there is nothing else to count the cell isn't marked. -/
theorem C126_boolean (v r : FltTy) (checkRange divide keep : Bool) (outp : OutPolicy Flt) (a : ConvolveArgs Flt Bool)
    (ha : ArgsOk a) (hr : 2 * a.radius + 1 ≤ a.rows) (hc : 2 * a.radius + 1 ≤ a.cols)
    (hv : Values v a.noData a.source) (b : Rat) (hb0 : 0 ≤ b)
    (hb : Bounded b a.noData a.source) (hlim : 9 * (b + additionError 9 b) < limit .double)
    (hlim' : b + averageError v b < limit v) (res : List (Cell Flt)) (hres : res.length = a.rows * a.cols) :
    ∃ out, (∀ m : Execution, m.Ok → ∀ o, convolveBooleanRun m (booleanOps r checkRange divide) a
        (outsidePolicy v a keep) outp (a.rows, a.cols) res o ↔ o = some out) ∧ out.length = res.length ∧
      ∀ i < a.rows, ∀ j < a.cols, ∃ c c', res[i * a.cols + j]? = some c ∧ out[i * a.cols + j]? = some c' ∧
        (KeptAt keep a i j → Marked outp c c') ∧
        (¬ KeptAt keep a i j → filledOutside oneIf a i j = [] → Marked outp c c') ∧
        (¬ KeptAt keep a i j → ∀ l, l = filledOutside oneIf a i j → l ≠ [] → l.length < 2 ^ 53 →
          (b + averageError v b) * weights l + additionError l.length ((b + averageError v b) * weights l) < limit .double →
          ∃ s, |s - weightedSum l| ≤
              additionError l.length ((b + averageError v b) * weights l) + averageError v b * weights l ∧
            Stored outp r checkRange divide s (weights l) c c') :=
  outside_raster v r checkRange divide keep outp ha hr hc hv hb hb0 hlim hlim' hres

/-- The average of multiples of a power of two whose sums need at most 53 bits. -/
theorem average_exact (v : FltTy) (l : List Flt) (hl : l ≠ []) (hlen : l.length ≤ 9) {e : Int} (he : -1074 ≤ e ∧ e ≤ 971) {b : Rat}
    (hval : ∀ f ∈ l, f = .fin (number f) ∧ (∃ k : Int, number f = k * 2 ^ e) ∧ |number f| ≤ b) (hb0 : 0 ≤ b)
    (hlim : 9 * b < 2 ^ 53 * 2 ^ e) :
    averageOf (fltAverage v) l = some (store v (FltTy.double.round ((l.map number).sum / l.length))) := by
  have e1 : (l.map number).map Flt.fin = l := by
    rw [List.map_map]
    conv_rhs => rw [← List.map_id l]
    exact List.map_congr_left fun f hf => (hval f hf).1.symm
  have hs := fold_exact_zero (l.map number) he (by
    intro q hq
    obtain ⟨f, hf, rfl⟩ := List.mem_map.1 hq
    exact (hval f hf).2.1) (by
    refine lt_of_le_of_lt (sum_bound _ (b := b) ?_) (lt_of_le_of_lt ?_ hlim)
    · intro q hq
      obtain ⟨f, hf, rfl⟩ := List.mem_map.1 hq
      exact (hval f hf).2.2
    · rw [List.length_map]
      exact mul_le_mul_of_nonneg_right (by exact_mod_cast hlen) hb0)
  rw [e1] at hs
  have hn : (l.length : Rat) ≠ 0 := by exact_mod_cast (List.length_pos_iff.2 hl).ne'
  have e2 : (fltAverage v).divide (l.foldl (fltAverage v).add (fltAverage v).zero) l.length =
      store v (FltTy.double.round ((l.map number).sum / l.length)) := by
    have : l.foldl (fltAverage v).add (fltAverage v).zero = .fin (l.map number).sum := hs
    rw [this]
    show store v (quotient _ (v.round (l.length : Rat))) = _
    rw [count_exact v hlen]
    simp [quotient, over, hn]
  rw [← e2]
  cases l with
  | nil => exact absurd rfl hl
  | cons f l => rfl

/-- **C126**: if the values are multiples of a power of two whose sums need at most 53 bits, only the mean is rounded. -/
theorem C126_exact {W : Type} (v : FltTy) (a : ConvolveArgs Flt W) {e : Int} (he : -1074 ≤ e ∧ e ≤ 971)
    (hm : Multiples e a.noData a.source) (b : Rat) (hb : Bounded b a.noData a.source) (hb0 : 0 ≤ b) (hlim : 9 * b < 2 ^ 53 * 2 ^ e)
    (x y : Int) (m : Rat) (h : meanAround a x y = some m) :
    ∃ d f, focalAverage (fltAverage v) a x y = some f ∧ Rounded .double m d ∧ FloatRaster.Spec.Operand v d f := by
  have hval : ∀ f ∈ around a x y, f = .fin (number f) ∧ (∃ k : Int, number f = k * 2 ^ e) ∧ |number f| ≤ b := by
    intro f hf
    obtain ⟨n, h1, h2⟩ := around_valid hf
    obtain ⟨k, rfl⟩ := hm n f h1 h2
    exact ⟨rfl, ⟨k, rfl⟩, hb n _ h1 h2⟩
  have hl : around a x y ≠ [] := by
    intro hl
    simp [meanAround, mean, hl] at h
  refine ⟨_, _, average_exact v _ hl (around_length a x y) he hval hb0 hlim, ?_, store_operand v _⟩
  have h' : m = ((around a x y).map number).sum / (around a x y).length := by
    simp only [meanAround, mean, List.map_eq_nil_iff, hl, if_false, List.length_map, Option.some.injEq] at h
    exact h.symm
  rw [h']
  exact round_rounded .double _

/-- **C126**: where all valid cells around a position have the same value, of type `float`, the position gets this value. -/
theorem C126_flat {W : Type} (a : ConvolveArgs Flt W) (q : Rat) (hq : Represents FltTy.single.num q) (x y : Int)
    (hne : around a x y ≠ []) (h : ∀ f ∈ around a x y, f = .fin q) :
    focalAverage (fltAverage .single) a x y = some (.fin q) := by
  obtain ⟨k, e, h1, h2, h3, h4⟩ := (floatValue_iff 24 (-149) 104 q).1 hq
  have he : (0 : Rat) < 2 ^ e := two_zpow_pos e
  have hk : |(k : Rat)| < 2 ^ 24 := by exact_mod_cast h1
  unfold focalAverage
  rw [average_exact .single _ hne (around_length a x y) (e := e) (b := |q|) ⟨by omega, by omega⟩ (by
    intro f hf
    rw [h f hf]
    exact ⟨rfl, ⟨k, h4⟩, le_rfl⟩) (abs_nonneg q) (by
    rw [h4, abs_mul, abs_of_pos he, ← mul_assoc]
    refine mul_lt_mul_of_pos_right ?_ he
    linarith)]
  have hs : ((around a x y).map number).sum = (around a x y).length * q := by
    have : (around a x y).map number = (around a x y).map fun _ => q :=
      List.map_congr_left fun f hf => by rw [h f hf]; rfl
    rw [this, List.map_const', List.sum_replicate, nsmul_eq_mul]
  have hn : ((around a x y).length : Rat) ≠ 0 := by exact_mod_cast (List.length_pos_iff.2 hne).ne'
  have hd : Represents FltTy.double.num q := represents_double hq
  rw [hs, mul_div_cancel_left₀ _ hn, round_exact .double hd, store_fin, round_exact .single hq]

/-! ### Cases in which averages are not what they should be -/

/-- A raster of three rows and columns, whose first cell is a no-data cell. -/
def corner (x : Flt) : ConvolveArgs Flt Int :=
  ⟨3, 3, .nan :: List.replicate 8 x, .detect fun f => decide (f = .nan), 1, List.replicate 9 1⟩

/-- **C126**: where all valid cells around a position have the same value, of type `double`, the position may get another
value: the average of three values 0.1 is more than 0.1. -/
theorem C126_tenth : ArgsOk (corner (.fin tenth)) ∧ noDataAverage (fltAverage .double) (corner (.fin tenth)) 0 0 =
    some (some (.fin (tenth + 1 / 2 ^ 56))) := by
  refine ⟨⟨rfl, trivial, rfl, by decide, by decide⟩, by decide +kernel⟩

/-- **C126**: averages of large values of type `double` are infinite, and averages of values of type `float` are not. -/
theorem C126_large : noDataAverage (fltAverage .double) (corner (.fin (2 ^ 1023))) 0 0 = some (some .inf) ∧
    noDataAverage (fltAverage .single) (corner (.fin (2 ^ 127))) 0 0 = some (some (.fin (2 ^ 127))) := by
  decide +kernel

/-- **C126**: weights that are zero keep valid cells out of sums, but not the averages that replace missing values: with a
kernel of zeros, the cells with missing values below the kernel become NaN, and the other cell is marked. -/
theorem C126_zero_weights :
    convolveSequential (weightedOps intWeights .double .double true true)
      ⟨3, 3, List.replicate 9 (.fin 1), .skip, 1, List.replicate 9 0⟩
      (focalPolicy .double ⟨3, 3, List.replicate 9 (.fin 1), .skip, 1, List.replicate 9 (0 : Int)⟩ true) .markMask
      (innerPart (weightedOps intWeights .double .double true true)
        ⟨3, 3, List.replicate 9 (.fin 1), .skip, 1, List.replicate 9 0⟩
        (focalPolicy .double ⟨3, 3, List.replicate 9 (.fin 1), .skip, 1, List.replicate 9 (0 : Int)⟩ true) .markMask)
      (List.replicate 9 ⟨.fin 0, false⟩) =
    some [⟨.nan, false⟩, ⟨.nan, false⟩, ⟨.nan, false⟩, ⟨.nan, false⟩, ⟨.fin 0, true⟩, ⟨.nan, false⟩, ⟨.nan, false⟩,
      ⟨.nan, false⟩, ⟨.nan, false⟩] := by
  decide +kernel

/-- **C126**: with a kernel of booleans that are switched off, cells at the border become NaN, and the other cell is marked. -/
theorem C126_switched_off :
    convolveSequential (booleanOps .double true true)
      ⟨3, 3, List.replicate 9 (.fin 1), .skip, 1, List.replicate 9 false⟩
      (outsidePolicy .double ⟨3, 3, List.replicate 9 (.fin 1), .skip, 1, List.replicate 9 false⟩ true) .markMask
      (innerPartBool (booleanOps .double true true)
        ⟨3, 3, List.replicate 9 (.fin 1), .skip, 1, List.replicate 9 false⟩
        (outsidePolicy .double ⟨3, 3, List.replicate 9 (.fin 1), .skip, 1, List.replicate 9 false⟩ true) .markMask)
      (List.replicate 9 ⟨.fin 0, false⟩) =
    some [⟨.nan, false⟩, ⟨.nan, false⟩, ⟨.nan, false⟩, ⟨.nan, false⟩, ⟨.fin 0, true⟩, ⟨.nan, false⟩, ⟨.nan, false⟩,
      ⟨.nan, false⟩, ⟨.nan, false⟩] := by
  decide +kernel

/-- The hypotheses are met: a raster with a no-data cell in the corner, and other cells with value 3. -/
example : ArgsOk (corner (.fin 3)) ∧ 2 * (corner (.fin 3)).radius + 1 ≤ (corner (.fin 3)).rows ∧
    2 * (corner (.fin 3)).radius + 1 ≤ (corner (.fin 3)).cols ∧
    NoneIsolated (corner (.fin 3)) (focalPolicy .single (corner (.fin 3)) true) ∧
    Values .single (corner (.fin 3)).noData (corner (.fin 3)).source ∧
    Multiples 0 (corner (.fin 3)).noData (corner (.fin 3)).source ∧
    Bounded 3 (corner (.fin 3)).noData (corner (.fin 3)).source ∧
    (∀ w ∈ (corner (.fin 3)).weights, Represents FltTy.single.num (w : Rat)) ∧
    around (corner (.fin 3)) (-1) (-1) = [] ∧ around (corner (.fin 3)) 0 (-1) = [.fin 3] := by
  have hok : ArgsOk (corner (.fin 3)) := ⟨rfl, trivial, rfl, by decide, by decide⟩
  have hval : ∀ i f, (corner (.fin 3)).source[i]? = some f → ¬ NoDataAt (corner (.fin 3)).noData (corner (.fin 3)).source i →
      f = .fin 3 := by
    intro i f h1 h2
    have h3 := List.mem_of_getElem? h1
    simp only [corner, List.mem_cons, List.mem_replicate] at h3
    rcases h3 with rfl | ⟨-, rfl⟩
    · exact absurd ⟨_, h1, by simp⟩ h2
    · rfl
  refine ⟨hok, by decide, by decide, C71_radius_one _ hok (by decide), ?_, ?_, ?_, ?_, ?_, ?_⟩
  · intro i f h1 h2
    refine ⟨3, hval i f h1 h2, ?_⟩
    have := represents_small .single (i := 3) (by decide)
    simpa using this
  · intro i f h1 h2
    exact ⟨3, by rw [hval i f h1 h2]; norm_num⟩
  · intro i f h1 h2
    rw [hval i f h1 h2]
    show |(3 : Rat)| ≤ 3
    norm_num
  · intro w hw
    have h1 := represents_small .single (i := 1) (by decide)
    rw [List.eq_of_mem_replicate hw]
    exact h1
  · simp [around, imageCells, List.range_succ, Fern.Spec.Near, NoDataAt, corner]
  · simp [around, imageCells, List.range_succ, Fern.Spec.Near, NoDataAt, corner]

/-- Magnitudes of 3 aren't too large, and averages of such values of type `double` are within 2^-47 of the mean. -/
example : 9 * (3 + additionError 9 3) < limit .double ∧ 3 + averageError .single 3 < limit .single ∧
    3 + averageError .double 3 < limit .double ∧ averageError .double 3 < 1 / 2 ^ 47 ∧ averageError .single 3 < 1 / 2 ^ 22 := by
  decide +kernel

end Fern.FloatFocal
