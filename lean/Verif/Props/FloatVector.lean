import Verif.Lemmas.FloatVector
import Verif.Props.Vector
import Verif.Props.FloatArith

/-!
# C121: rounding in Laplacians and Lax averages
-/

namespace Fern.FloatVector

open Fern Fern.Domains Fern.Spec Fern.Casts Fern.Casts.Spec Fern.FloatArith Fern.FloatArith.Spec
open Fern.PyFloat (arithmetic ofInt_exact)
open _root_.Fern.FloatVector.Spec

theorem small_bits {k : Int} (h0 : 0 ≤ k) (h : k ≤ 20) : |k| < 2 ^ FltTy.double.bits := by
  rw [abs_of_nonneg h0]
  have : (20 : Int) < 2 ^ FltTy.double.bits := by decide
  omega

theorem represents_int {k : Int} (h0 : 0 ≤ k) (h : k ≤ 20) : Represents FltTy.double.num (k : Rat) :=
  represents_small .double (by rw [abs_of_nonneg h0]; have : (20 : Int) ≤ small .double := by decide
                               omega)

theorem doubles_smallInts : SmallInts (arithmetic .double) atMost20 where
  oneMul k h0 h := by
    rw [ofInt_exact (small_bits h0 h), ofInt_exact (small_bits (by omega) (by omega))]
    show FltTy.double.round _ = _
    rw [Int.cast_one, one_mul, round_exact _ (represents_int h0 h)]
  add a b ha hb h := by
    rw [ofInt_exact (small_bits ha (by omega)), ofInt_exact (small_bits hb (by omega)),
      ofInt_exact (small_bits (by omega) h)]
    show FltTy.double.round _ = _
    rw [← Int.cast_add, round_exact _ (represents_int (by omega) h)]
  isZero k h0 h := by
    rw [ofInt_exact (small_bits h0 h)]
    simp [arithmetic, Flt.eq]
  atMost k h0 h := by
    rw [ofInt_exact (small_bits h0 h)]
    have : (k : Rat) ≤ 20 := by exact_mod_cast h
    simpa [atMost20, Flt.le] using this

theorem vectorNeighbours_mem {F : Type} {rows cols : Nat} {inp : InPolicy F} {value : List F} {i j : Nat} {vw : F × Int}
    (h : vw ∈ vectorNeighbours rows cols inp value i j) :
    (∃ p, value[p]? = some vw.1 ∧ ¬ NoDataAt inp value p) ∧ (vw.2 = 2 ∨ vw.2 = 3) := by
  refine ⟨?_, (C74_weights rows cols inp value i j).1 vw h⟩
  obtain ⟨d, -, hd⟩ := List.mem_filterMap.1 h
  unfold vectorNeighbour at hd
  split at hd
  · rename_i hc
    obtain ⟨v, hv, rfl⟩ := Option.map_eq_some_iff.1 hd
    exact ⟨_, hv, hc.2.2.2.2⟩
  · cases hd

theorem vectorNeighbours_length {F : Type} (rows cols : Nat) (inp : InPolicy F) (value : List F) (i j : Nat) :
    (vectorNeighbours rows cols inp value i j).length ≤ 8 :=
  List.length_filterMap_le _ _

theorem neighbours_terms {rows cols : Nat} {inp : InPolicy Flt} {value : List Flt} (hd : Doubles inp value) (i j : Nat) :
    Terms .double (vectorNeighbours rows cols inp value i j) := by
  intro vw hvw
  obtain ⟨⟨p, hp, hnd⟩, hw⟩ := vectorNeighbours_mem hvw
  refine ⟨hd p vw.1 hp hnd, small_bits ?_ ?_⟩ <;> omega

theorem neighbours_pos {F : Type} {rows cols : Nat} {inp : InPolicy F} {value : List F} {i j : Nat} :
    ∀ vw ∈ vectorNeighbours rows cols inp value i j, 0 < vw.2 := by
  intro vw hvw
  rcases (vectorNeighbours_mem hvw).2 with h | h <;> omega

theorem neighbours_eq_nil {rows cols : Nat} {inp : InPolicy Flt} {value : List Flt} {i j : Nat} :
    neighbours rows cols inp value i j = [] ↔ vectorNeighbours rows cols inp value i j = [] := by
  simp [neighbours]

theorem area_round {w h a : Rat} (ha : Rounded .double (w * h) (.fin a)) : cellArea (.fin w) (.fin h) = .fin a :=
  C95_determined .double _ _ _ (round_rounded _ _) ha

theorem notMasked {b : Bool} (h : ¬ b = false) : b = true := by simpa using h

/-- **C121**: the Laplacian of a raster of numbers. All runs give the same raster. Cells that were masked, that have no value
and that have no neighbours with a value are masked. Other cells are valid, unless the numbers are very large (more than 1/40 of
the largest one). The value of a cell is near to its Laplacian. -/
theorem C121_laplacian (rows cols : Nat) (hrows : 2 ≤ rows) (hcols : 2 ≤ cols) (value : List Flt)
    (hv : value.length = rows * cols) (inp : InPolicy Flt) (hp : PolicyFor inp (rows * cols)) (hd : Doubles inp value)
    (width height a : Rat) (harea : Rounded .double (width * height) (.fin a)) (ha : a ≠ 0)
    (result : List (Cell Flt)) (hres : result.length = rows * cols) :
    ∃ out, (∀ m : Execution, m.Ok → ∀ o,
        laplacianOf m (rows, cols) value inp true (.fin width) (.fin height) (rows, cols) result o ↔ o = some out) ∧
      out.length = rows * cols ∧
      ∀ i < rows, ∀ j < cols, ∃ v c c', value[i * cols + j]? = some v ∧
        result[i * cols + j]? = some c ∧ out[i * cols + j]? = some c' ∧
        (c.masked = true ∨ NoDataAt inp value (i * cols + j) ∨ neighbours rows cols inp value i j = [] →
          c'.masked = true) ∧
        (c.masked = false → ¬ NoDataAt inp value (i * cols + j) → neighbours rows cols inp value i j ≠ [] →
          laplacianScale a (number v) (neighbours rows cols inp value i j) ≤ limit .double / 2 →
          laplacianScale a (number v) (neighbours rows cols inp value i j) * |a| ≤ limit .double / 2 →
          c'.masked = false) ∧
        (c'.masked = false → ∃ q r, v = .fin q ∧ c'.val = .fin r ∧ Represents .f64 r ∧
          |r - exactLaplacian a q (neighbours rows cols inp value i j)| ≤
            12 / 2 ^ 53 * laplacianScale a q (neighbours rows cols inp value i j) + 1 / 2 ^ 1075) := by
  obtain ⟨out, h1, h2, h3⟩ := C74_laplacian doubles_smallInts rows cols hrows hcols value hv inp hp (.fin a) result hres
  refine ⟨out, fun m hm o => ?_, h2, fun i hi j hj => ?_⟩
  · rw [laplacianOf, area_round harea]
    exact h1 m hm o
  obtain ⟨v, c, c', e1, e2, e3, e4, e5, -⟩ := h3 i hi j hj
  have h20 := (C74_weights rows cols inp value i j).2.1
  have ht := neighbours_terms (rows := rows) (cols := cols) hd i j
  have h8 := vectorNeighbours_length rows cols inp value i j
  refine ⟨v, c, c', e1, e2, e3, fun h => ?_, fun m0 hnd hne s1 s2 => ?_, fun h => ?_⟩
  · refine notMasked fun hc => ?_
    obtain ⟨g1, g2, g3⟩ := e4.1 hc
    rcases h with h | h | h
    · rw [g1] at h; cases h
    · exact g2 h
    · exact g3.any (neighbours_eq_nil.1 h)
  · obtain ⟨q, rfl, hq⟩ := hd _ _ e1 hnd
    exact e4.2 ⟨m0, hnd, laplacian_some ht neighbours_pos h20 h8 (fun h => hne (neighbours_eq_nil.2 h)) hq ha s1 s2⟩
  · obtain ⟨-, g2, g3⟩ := e4.1 h
    obtain ⟨q, rfl, hq⟩ := hd _ _ e1 g2
    have hfin := g3.value
    obtain ⟨r, hr⟩ : ∃ r, laplacianValue (arithmetic .double) (.fin a) (.fin q)
        (vectorNeighbours rows cols inp value i j) = .fin r := by
      generalize laplacianValue (arithmetic .double) (.fin a) (.fin q) (vectorNeighbours rows cols inp value i j) = z at hfin
      cases z with
      | fin r => exact ⟨r, rfl⟩
      | _ => cases hfin
    obtain ⟨k1, k2⟩ := laplacian_error ht neighbours_pos h20 h8 hq g3 hr
    refine ⟨q, r, rfl, (e5 h).trans hr, k1, k2.trans (le_of_eq ?_)⟩
    have : (12 : Rat) * unit .double = 12 / 2 ^ 53 := by norm_num [unit]
    rw [this]
    rfl

/-- **C121**: the Lax average of a raster of numbers, for a fraction between 0 and 1. -/
theorem C121_lax (rows cols : Nat) (hrows : 2 ≤ rows) (hcols : 2 ≤ cols) (value : List Flt)
    (hv : value.length = rows * cols) (inp : InPolicy Flt) (hp : PolicyFor inp (rows * cols)) (hd : Doubles inp value)
    (f : Rat) (hf : Represents .f64 f) (hf0 : 0 ≤ f) (hf1 : f ≤ 1)
    (result : List (Cell Flt)) (hres : result.length = rows * cols) :
    ∃ out, (∀ m : Execution, m.Ok → ∀ o,
        laxOf m (rows, cols) value inp true (.fin f) (rows, cols) result o ↔ o = some out) ∧
      out.length = rows * cols ∧
      ∀ i < rows, ∀ j < cols, ∃ v c c', value[i * cols + j]? = some v ∧
        result[i * cols + j]? = some c ∧ out[i * cols + j]? = some c' ∧
        (c.masked = true ∨ NoDataAt inp value (i * cols + j) ∨ neighbours rows cols inp value i j = [] →
          c'.masked = true) ∧
        (∀ b, BoundedBy b (number v) (neighbours rows cols inp value i j) →
          c.masked = false → ¬ NoDataAt inp value (i * cols + j) → neighbours rows cols inp value i j ≠ [] →
          20 * b ≤ limit .double / 2 → c'.masked = false) ∧
        (c'.masked = false → ∃ q r, v = .fin q ∧ c'.val = .fin r ∧ Represents .f64 r ∧ (f = 0 → r = q) ∧
          ∀ b, BoundedBy b q (neighbours rows cols inp value i j) →
            |r - exactLax f q (neighbours rows cols inp value i j)| ≤ 13 / 2 ^ 53 * b + 4 / 2 ^ 1075) := by
  obtain ⟨out, h1, h2, h3⟩ := C75_lax doubles_smallInts rows cols hrows hcols value hv inp hp (.fin f)
    (minus .double (.fin 1) (.fin f)) result hres
  refine ⟨out, h1, h2, fun i hi j hj => ?_⟩
  obtain ⟨v, c, c', e1, e2, e3, e4, e5, -⟩ := h3 i hi j hj
  have h20 := (C74_weights rows cols inp value i j).2.1
  have ht := neighbours_terms (rows := rows) (cols := cols) hd i j
  have h8 := vectorNeighbours_length rows cols inp value i j
  refine ⟨v, c, c', e1, e2, e3, fun h => ?_, fun b hb m0 hnd hne s1 => ?_, fun h => ?_⟩
  · refine notMasked fun hc => ?_
    obtain ⟨g1, g2, g3⟩ := e4.1 hc
    rcases h with h | h | h
    · rw [g1] at h; cases h
    · exact g2 h
    · exact g3.any (neighbours_eq_nil.1 h)
  · obtain ⟨q, rfl, hq⟩ := hd _ _ e1 hnd
    exact e4.2 ⟨m0, hnd, lax_some ht neighbours_pos h20 h8 (fun h => hne (neighbours_eq_nil.2 h)) hf hf0 hf1 hb s1⟩
  · obtain ⟨-, g2, g3⟩ := e4.1 h
    obtain ⟨q, rfl, hq⟩ := hd _ _ e1 g2
    have hfin := g3.value
    obtain ⟨r, hr⟩ : ∃ r, laxValue (arithmetic .double) (.fin f) (minus .double (.fin 1) (.fin f)) (.fin q)
        (vectorNeighbours rows cols inp value i j) = .fin r := by
      generalize laxValue (arithmetic .double) (.fin f) (minus .double (.fin 1) (.fin f)) (.fin q)
        (vectorNeighbours rows cols inp value i j) = z at hfin
      cases z with
      | fin r => exact ⟨r, rfl⟩
      | _ => cases hfin
    have herr := fun b hb => lax_error (b := b) ht neighbours_pos h20 h8 g3.any hq hf hf0 hf1 hb g3.sum hr
    have hrep := (herr (max |q| ((neighbours rows cols inp value i j).map fun vw => |vw.1|).sum) ⟨le_max_left _ _, ?_⟩).1
    · refine ⟨q, r, rfl, (e5 h).trans hr, hrep, ?_, fun b hb => (herr b hb).2.trans (le_of_eq ?_)⟩
      · rintro rfl
        exact lax_zero (t := .double) hq hr
      · have h1 : (13 : Rat) * unit .double = 13 / 2 ^ 53 := by norm_num [unit]
        have h2 : (4 : Rat) * tiny .double = 4 / 2 ^ 1075 := by rw [tiny, mul_one_div]
        rw [h1, h2]
    · intro vw hvw
      refine le_trans ?_ (le_max_right _ _)
      refine List.single_le_sum (fun x hx => ?_) _ (List.mem_map.2 ⟨vw, hvw, rfl⟩)
      obtain ⟨y, -, rfl⟩ := List.mem_map.1 hx
      exact abs_nonneg _

theorem multiples_list {e b : Int} {inp : InPolicy Flt} {value : List Flt} (h : Multiples e b inp value) (rows cols i j : Nat) :
    ∃ l : List (Int × Int), vectorNeighbours rows cols inp value i j = l.map (fun kw => (Fern.PyFloat.scaled e kw.1, kw.2)) ∧
      ∀ kw ∈ l, |kw.1| ≤ b := by
  have hall : ∀ vw ∈ vectorNeighbours rows cols inp value i j, ∃ k : Int, vw.1 = Fern.PyFloat.scaled e k ∧ |k| ≤ b := by
    intro vw hvw
    obtain ⟨⟨p, hp, hnd⟩, -⟩ := vectorNeighbours_mem hvw
    exact h p vw.1 hp hnd
  generalize vectorNeighbours rows cols inp value i j = vs at hall
  induction vs with
  | nil => exact ⟨[], by simp⟩
  | cons vw vs ih =>
    obtain ⟨l, h1, h2⟩ := ih fun x hx => hall x (List.mem_cons_of_mem _ hx)
    obtain ⟨k, hk, hkb⟩ := hall vw (by simp)
    refine ⟨(k, vw.2) :: l, ?_, ?_⟩
    · rw [List.map_cons, ← h1, ← hk]
    · intro x hx
      rcases List.mem_cons.1 hx with rfl | hx
      · exact hkb
      · exact h2 x hx

/-- **C121**: if the numbers are multiples of a power of two (for example, if they are integers) that are not too large, only
the quotient is rounded. -/
theorem C121_exact (rows cols : Nat) (hrows : 2 ≤ rows) (hcols : 2 ≤ cols) (value : List Flt)
    (hv : value.length = rows * cols) (inp : InPolicy Flt) (hp : PolicyFor inp (rows * cols)) (e b : Int)
    (he : -1074 ≤ e) (he' : e ≤ 971) (hb : 40 * b < 2 ^ 53) (hm : Multiples e b inp value)
    (width height a : Rat) (harea : Rounded .double (width * height) (.fin a)) (ha : a ≠ 0)
    (result : List (Cell Flt)) (hres : result.length = rows * cols) :
    ∃ out, (∀ m : Execution, m.Ok → ∀ o,
        laplacianOf m (rows, cols) value inp true (.fin width) (.fin height) (rows, cols) result o ↔ o = some out) ∧
      ∀ i < rows, ∀ j < cols, ∃ v c c', value[i * cols + j]? = some v ∧
        result[i * cols + j]? = some c ∧ out[i * cols + j]? = some c' ∧
        (c.masked = false → ¬ NoDataAt inp value (i * cols + j) → neighbours rows cols inp value i j ≠ [] →
          (TooLarge .double (exactLaplacian a (number v) (neighbours rows cols inp value i j)) → c'.masked = true) ∧
          (¬ TooLarge .double (exactLaplacian a (number v) (neighbours rows cols inp value i j)) →
            c'.masked = false ∧
            Rounded .double (exactLaplacian a (number v) (neighbours rows cols inp value i j)) c'.val)) := by
  obtain ⟨out, h1, h2, h3⟩ := C74_laplacian doubles_smallInts rows cols hrows hcols value hv inp hp (.fin a) result hres
  refine ⟨out, fun m hm o => ?_, fun i hi j hj => ?_⟩
  · rw [laplacianOf, area_round harea]
    exact h1 m hm o
  obtain ⟨v, c, c', e1, e2, e3, e4, e5, -⟩ := h3 i hi j hj
  refine ⟨v, c, c', e1, e2, e3, fun m0 hnd hne => ?_⟩
  have h20 := (C74_weights rows cols inp value i j).2.1
  have hpos := neighbours_pos (rows := rows) (cols := cols) (inp := inp) (value := value) (i := i) (j := j)
  obtain ⟨k0, rfl, hk0⟩ := hm _ _ e1 hnd
  obtain ⟨l, hl, hlb⟩ := multiples_list hm rows cols i j
  have hne' : vectorNeighbours rows cols inp value i j ≠ [] := fun h => hne (neighbours_eq_nil.2 h)
  have hnum : neighbours rows cols inp value i j = numbers (vectorNeighbours rows cols inp value i j) := rfl
  rw [hnum]
  rw [hl] at e4 e5 h20 hpos hne' ⊢
  have hw : ∀ kw ∈ l, 0 < kw.2 := fun kw hkw => hpos _ (List.mem_map.2 ⟨kw, hkw, rfl⟩)
  have h20' : (l.map Prod.snd).sum ≤ 20 := by
    have : weightSum (l.map fun kw => (Fern.PyFloat.scaled e kw.1, kw.2)) = (l.map Prod.snd).sum := by
      simp [weightSum, Function.comp_def]
    rw [← this]; exact h20
  obtain ⟨g1, g2, g3, g4⟩ := laplacian_scaled (t := .double) (e := e) ⟨he, he'⟩ l k0 b hw h20' hlb hk0 hb a ha
  have hval : laplacianValue (arithmetic .double) (.fin a) (.fin (k0 * 2 ^ e))
      (l.map fun kw => (Fern.PyFloat.scaled e kw.1, kw.2)) =
      FltTy.double.round (exactLaplacian a (k0 * 2 ^ e) (numbers (l.map fun kw => (Fern.PyFloat.scaled e kw.1, kw.2)))) := g1
  have hrd := round_rounded .double
    (exactLaplacian a (k0 * 2 ^ e) (numbers (l.map fun kw => (Fern.PyFloat.scaled e kw.1, kw.2))))
  constructor
  · intro hbig
    refine notMasked fun hc => ?_
    have h6 := (e4.1 hc).2.2.value
    rw [hval] at h6
    exact (round_finite .double _).1 h6 hbig
  · intro hsmall
    have hc : c'.masked = false := by
      refine e4.2 ⟨m0, hnd, hne', by simp [arithmetic, Flt.eq, ha], g2, g3, g4, ?_⟩
      rw [hval]
      exact (round_finite .double _).2 hsmall
    refine ⟨hc, ?_⟩
    rw [e5 hc, hval]
    exact hrd

/-- **C121**: the Laplacian of a flat raster of such numbers is zero. -/
theorem C121_flat (rows cols : Nat) (hrows : 2 ≤ rows) (hcols : 2 ≤ cols) (value : List Flt)
    (hv : value.length = rows * cols) (inp : InPolicy Flt) (hp : PolicyFor inp (rows * cols)) (e k : Int)
    (he : -1074 ≤ e) (he' : e ≤ 971) (hb : 40 * |k| < 2 ^ 53)
    (hm : ∀ i v, value[i]? = some v → ¬ NoDataAt inp value i → v = .fin (k * 2 ^ e))
    (width height a : Rat) (harea : Rounded .double (width * height) (.fin a)) (ha : a ≠ 0)
    (result : List (Cell Flt)) (hres : result.length = rows * cols) :
    ∃ out, (∀ m : Execution, m.Ok → ∀ o,
        laplacianOf m (rows, cols) value inp true (.fin width) (.fin height) (rows, cols) result o ↔ o = some out) ∧
      ∀ i < rows, ∀ j < cols, ∃ c c', result[i * cols + j]? = some c ∧ out[i * cols + j]? = some c' ∧
        (c.masked = false → ¬ NoDataAt inp value (i * cols + j) → neighbours rows cols inp value i j ≠ [] →
          c' = ⟨.fin 0, false⟩) := by
  obtain ⟨out, h1, h2⟩ := C121_exact rows cols hrows hcols value hv inp hp e |k| he he' hb
    (fun i v hi hnd => ⟨k, hm i v hi hnd, le_rfl⟩) width height a harea ha result hres
  refine ⟨out, h1, fun i hi j hj => ?_⟩
  obtain ⟨v, c, c', e1, e2, e3, e4⟩ := h2 i hi j hj
  refine ⟨c, c', e2, e3, fun m0 hnd hne => ?_⟩
  have hz : exactLaplacian a (number v) (neighbours rows cols inp value i j) = 0 := by
    rw [exactLaplacian]
    have : ((neighbours rows cols inp value i j).map fun vw => (vw.2 : Rat) * (vw.1 - number v)).sum = 0 := by
      refine List.sum_eq_zero fun x hx => ?_
      obtain ⟨vw, hvw, rfl⟩ := List.mem_map.1 hx
      obtain ⟨u, hu, rfl⟩ := List.mem_map.1 hvw
      obtain ⟨⟨p, hp, hnd'⟩, -⟩ := vectorNeighbours_mem hu
      rw [hm p u.1 hp hnd', hm _ v e1 hnd, sub_self, mul_zero]
    rw [this, zero_div]
  have hsm : ¬ TooLarge .double (0 : Rat) := by
    rw [TooLarge, abs_zero, not_le]
    exact limit_pos .double
  obtain ⟨g1, g2⟩ := (e4 m0 hnd hne).2 (by rw [hz]; exact hsm)
  rw [hz] at g2
  have : c'.val = .fin 0 := by
    refine C95_determined .double 0 _ _ g2 ?_
    have hr : FltTy.double.round 0 = .fin 0 := round_exact .double (by
      have := represents_int (k := 0) (by omega) (by omega)
      simpa using this)
    rw [← hr]
    exact round_rounded _ _
  cases c'
  simp_all

theorem exactLax_bounds {f v lo hi : Rat} (h0 : 0 ≤ f) (h1 : f ≤ 1) {l : List (Rat × Int)} (hw : ∀ vw ∈ l, 0 < vw.2)
    (hl : l ≠ []) (hv : lo ≤ v ∧ v ≤ hi) (h : ∀ vw ∈ l, lo ≤ vw.1 ∧ vw.1 ≤ hi) :
    lo ≤ exactLax f v l ∧ exactLax f v l ≤ hi := by
  have := C75_bounds h0 h1 hw hl hv h
  have e : laxValue ratOps f (1 - f) v l = exactLax f v l := by
    rw [C75_exact, exactLax, exactMean_eq]
    rfl
  rwa [e] at this

/-- **C121**: Lax averages hardly lie outside of the bounds of a cell and its neighbours. -/
theorem C121_lax_bounds (rows cols : Nat) (hrows : 2 ≤ rows) (hcols : 2 ≤ cols) (value : List Flt)
    (hv : value.length = rows * cols) (inp : InPolicy Flt) (hp : PolicyFor inp (rows * cols)) (lo hi : Rat)
    (hd : ∀ i v, value[i]? = some v → ¬ NoDataAt inp value i → ∃ q, v = .fin q ∧ Represents .f64 q ∧ lo ≤ q ∧ q ≤ hi)
    (f : Rat) (hf : Represents .f64 f) (hf0 : 0 ≤ f) (hf1 : f ≤ 1)
    (result : List (Cell Flt)) (hres : result.length = rows * cols) :
    ∃ out, (∀ m : Execution, m.Ok → ∀ o,
        laxOf m (rows, cols) value inp true (.fin f) (rows, cols) result o ↔ o = some out) ∧
      ∀ i < rows, ∀ j < cols, ∃ c', out[i * cols + j]? = some c' ∧
        (c'.masked = false → ∃ r, c'.val = .fin r ∧
          lo - (13 / 2 ^ 53 * max |lo| |hi| + 4 / 2 ^ 1075) ≤ r ∧ r ≤ hi + (13 / 2 ^ 53 * max |lo| |hi| + 4 / 2 ^ 1075)) := by
  have hdb : Doubles inp value := fun i v hi hnd => by
    obtain ⟨q, h1, h2, -⟩ := hd i v hi hnd
    exact ⟨q, h1, h2⟩
  obtain ⟨out, h1, h2, h3⟩ := C121_lax rows cols hrows hcols value hv inp hp hdb f hf hf0 hf1 result hres
  refine ⟨out, h1, fun i hi' j hj => ?_⟩
  obtain ⟨v, c, c', e1, e2, e3, e4, -, e5⟩ := h3 i hi' j hj
  refine ⟨c', e3, fun hc => ?_⟩
  obtain ⟨q, r, rfl, hr, -, -, herr⟩ := e5 hc
  have hnot : ¬ (c.masked = true ∨ NoDataAt inp value (i * cols + j) ∨ neighbours rows cols inp value i j = []) :=
    fun h => by rw [e4 h] at hc; cases hc
  have hnd : ¬ NoDataAt inp value (i * cols + j) := fun h => hnot (.inr (.inl h))
  have hne : neighbours rows cols inp value i j ≠ [] := fun h => hnot (.inr (.inr h))
  have hin : ∀ vw ∈ neighbours rows cols inp value i j, (lo ≤ vw.1 ∧ vw.1 ≤ hi) ∧ 0 < vw.2 := by
    intro vw hvw
    obtain ⟨u, hu, rfl⟩ := List.mem_map.1 hvw
    obtain ⟨⟨p, hp, hnd'⟩, hw⟩ := vectorNeighbours_mem hu
    obtain ⟨x, hx, -, g1, g2⟩ := hd p u.1 hp hnd'
    rw [hx]
    exact ⟨⟨g1, g2⟩, by show 0 < u.2; omega⟩
  obtain ⟨x, hx, -, hq⟩ := hd _ _ e1 hnd
  cases hx
  have habs : ∀ y : Rat, lo ≤ y ∧ y ≤ hi → |y| ≤ max |lo| |hi| := fun y hy => abs_le_max_abs_abs hy.1 hy.2
  have hb := herr (max |lo| |hi|) ⟨habs q hq, fun vw hvw => habs _ (hin vw hvw).1⟩
  obtain ⟨b1, b2⟩ := exactLax_bounds hf0 hf1 (fun vw hvw => (hin vw hvw).2) hne hq fun vw hvw => (hin vw hvw).1
  obtain ⟨d1, d2⟩ := abs_le.1 hb
  exact ⟨r, hr, by linarith, by linarith⟩

/-- **C121**: if the area of a cell is rounded to zero, all cells are masked. If it is too large for a `double`, all Laplacians
are zero. -/
theorem C121_area (rows cols : Nat) (hrows : 2 ≤ rows) (hcols : 2 ≤ cols) (value : List Flt)
    (hv : value.length = rows * cols) (inp : InPolicy Flt) (hp : PolicyFor inp (rows * cols)) (width height : Rat)
    (result : List (Cell Flt)) (hres : result.length = rows * cols) :
    ∃ out, (∀ m : Execution, m.Ok → ∀ o,
        laplacianOf m (rows, cols) value inp true (.fin width) (.fin height) (rows, cols) result o ↔ o = some out) ∧
      ∀ i < rows, ∀ j < cols, ∃ c', out[i * cols + j]? = some c' ∧
        (Rounded .double (width * height) (.fin 0) → c'.masked = true) ∧
        (TooLarge .double (width * height) → c'.masked = false → c'.val = .fin 0) := by
  obtain ⟨out, h1, h2, h3⟩ := C74_laplacian doubles_smallInts rows cols hrows hcols value hv inp hp
    (cellArea (.fin width) (.fin height)) result hres
  refine ⟨out, h1, fun i hi j hj => ?_⟩
  obtain ⟨v, c, c', e1, e2, e3, e4, e5, -⟩ := h3 i hi j hj
  refine ⟨c', e3, fun h0 => ?_, fun hl hc => ?_⟩
  · refine notMasked fun hc => ?_
    have := (e4.1 hc).2.2.notZero
    rw [area_round h0] at this
    simp [arithmetic, Flt.eq] at this
  · have hlap := (e4.1 hc).2.2
    have hr := (round_rounded .double (width * height)).1 hl
    have ha : cellArea (.fin width) (.fin height) = .inf ∨ cellArea (.fin width) (.fin height) = .negInf := by
      show FltTy.double.round _ = _ ∨ FltTy.double.round _ = _
      rw [hr]
      split
      · exact .inl rfl
      · exact .inr rfl
    have hd := hlap.difference
    rw [e5 hc, laplacianValue]
    revert hd
    generalize (arithmetic .double).sub (Fern.Spec.weightedSum (arithmetic .double) (vectorNeighbours rows cols inp value i j))
      ((arithmetic .double).mul ((arithmetic .double).ofInt (weightSum (vectorNeighbours rows cols inp value i j))) v) = z
    intro hd
    cases z <;> cases hd
    rcases ha with ha | ha <;> rw [ha] <;> rfl

/-! ### What does not hold -/

/-- A raster of two by two cells of size 1 by 1. -/
abbrev square (v : Rat) : List Flt := List.replicate 4 (.fin v)

/-- **C121** does not hold for all numbers: the Laplacian of this flat raster of 1 + 2^-52 is positive in three of its cells. -/
theorem C121_flat_false :
    laplacianOf .sequential (2, 2) (square (1 + 1 / 2 ^ 52)) .skip true (.fin 1) (.fin 1) (2, 2)
      (List.replicate 4 ⟨.fin 0, false⟩)
      (some [⟨.fin 0, false⟩, ⟨.fin (1 / 2 ^ 49), false⟩, ⟨.fin (1 / 2 ^ 49), false⟩, ⟨.fin (1 / 2 ^ 49), false⟩]) := by
  refine .inr ⟨(), rfl, .inr ⟨(), rfl, .inr ⟨[⟨.fin (8 + 1 / 2 ^ 49), false⟩, ⟨.fin (8 + 1 / 2 ^ 48), false⟩,
    ⟨.fin (8 + 1 / 2 ^ 48), false⟩, ⟨.fin (8 + 1 / 2 ^ 48), false⟩], ?_, .inr ⟨[⟨1, false⟩, ⟨1, false⟩, ⟨1, false⟩,
    ⟨1, false⟩], ?_, .inr ⟨List.replicate 4 ⟨.fin 1, false⟩, ?_, .inr ⟨List.replicate 4 ⟨.fin 8, false⟩,
    ?_, .inr ⟨(), rfl, .inr ⟨List.replicate 4 ⟨.fin (8 + 1 / 2 ^ 49), false⟩, ?_, .inr ⟨[⟨.fin 0, false⟩,
    ⟨.fin (1 / 2 ^ 49), false⟩, ⟨.fin (1 / 2 ^ 49), false⟩, ⟨.fin (1 / 2 ^ 49), false⟩], ?_, ?_⟩⟩⟩⟩⟩⟩⟩⟩⟩ <;>
  · simp only [convolveRun, definedRun, unaryRun, binaryRun, ownRun, Outcomes.one]
    decide +kernel

/-- **C121**: the Laplacian of a flat raster of large numbers is lost: all cells are masked. -/
theorem C121_large_false :
    laplacianOf .sequential (2, 2) (square (2 ^ 1023)) .skip true (.fin 1) (.fin 1) (2, 2)
      (List.replicate 4 ⟨.fin 0, false⟩) (some (List.replicate 4 ⟨.fin 0, true⟩)) := by
  refine .inr ⟨(), rfl, .inr ⟨(), rfl, .inr ⟨List.replicate 4 ⟨.fin 0, true⟩, ?_, .inr ⟨[⟨1, false⟩, ⟨1, false⟩, ⟨1, false⟩,
    ⟨1, false⟩], ?_, .inr ⟨List.replicate 4 ⟨.fin 1, false⟩, ?_, .inr ⟨List.replicate 4 ⟨.fin 8, true⟩,
    ?_, .inr ⟨(), rfl, .inr ⟨List.replicate 4 ⟨.inf, true⟩, ?_, .inr ⟨List.replicate 4 ⟨.fin 0, true⟩, ?_, ?_⟩⟩⟩⟩⟩⟩⟩⟩⟩ <;>
  · simp only [convolveRun, definedRun, unaryRun, binaryRun, ownRun, Outcomes.one]
    decide +kernel

/-- **C121**: the Lax average may lie outside of the bounds of a cell and its neighbours: that of a flat raster of 3, for the
`double` nearest to 0.2, is larger than 3. -/
theorem C121_lax_bounds_false :
    Rounded .double (1 / 5) (.fin (3602879701896397 / 2 ^ 54)) ∧
    laxOf .sequential (2, 2) (square 3) .skip true (.fin (3602879701896397 / 2 ^ 54)) (2, 2) (List.replicate 4 ⟨.fin 0, false⟩)
      (some (List.replicate 4 ⟨.fin (3 + 1 / 2 ^ 51), false⟩)) := by
  constructor
  · have : FltTy.double.round (1 / 5) = .fin (3602879701896397 / 2 ^ 54) := by decide +kernel
    rw [← this]
    exact round_rounded _ _
  refine .inr ⟨(), rfl, .inr ⟨(), rfl, .inr ⟨List.replicate 4 ⟨.fin 3, false⟩, ?_, .inr ⟨List.replicate 4
    ⟨.fin (1351079888211149 / 2 ^ 51), false⟩, ?_, .inr ⟨List.replicate 4 ⟨.fin (1351079888211149 / 2 ^ 49), false⟩, ?_, ?_⟩⟩⟩⟩⟩ <;>
  · simp only [convolveRun, binary0d2dRun, ownRun, Outcomes.one]
    decide +kernel

/-! ### Hypotheses that hold -/

example : PolicyFor (.skip : InPolicy Flt) 4 ∧ Doubles .skip (square 3) ∧ Multiples 0 3 .skip (square 3) ∧
    Rounded .double (1 * 1) (.fin 1) ∧ (1 : Rat) ≠ 0 ∧ (40 : Int) * 3 < 2 ^ 53 ∧
    Represents .f64 (3602879701896397 / 2 ^ 54) := by
  have hr : FltTy.double.round (1 * 1) = .fin 1 := by decide +kernel
  have hf : FltTy.double.round (1 / 5) = .fin (3602879701896397 / 2 ^ 54) := by decide +kernel
  refine ⟨trivial, ?_, ?_, by rw [← hr]; exact round_rounded _ _, by norm_num, by norm_num, round_represents hf⟩
  · intro i v hv _
    have := List.eq_of_mem_replicate (List.mem_of_getElem? hv)
    refine ⟨3, this, ?_⟩
    have h3 := represents_int (k := 3) (by omega) (by omega)
    norm_num at h3
    exact h3
  · intro i v hv _
    have := List.eq_of_mem_replicate (List.mem_of_getElem? hv)
    exact ⟨3, by simpa using this, by decide⟩

end Fern.FloatVector
