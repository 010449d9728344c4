import Verif.Lemmas.AggregateSum
/-
The binary aggregate operation, for count.
-/
namespace Fern

open Spec IntTy

theorem fits_between {r : IntTy} {x y z : Int} (hx : Fits r x) (hz : Fits r z) (h1 : x ≤ y)
    (h2 : y ≤ z) : Fits r y := by
  rw [fits_iff] at *
  omega

/-- Incrementing the counter. -/
theorem count_calculate {r : IntTy} {x b : Int} (hx : Fits r x) (h0 : 0 ≤ x) (hb : b = 0 ∨ b = 1)
    (hxb : Fits r (x + b)) : (cAdd r i32 x b).map r.wrap = some (x + b) := by
  have hb2 : Fits i32 b := by rcases hb with rfl | rfl <;> decide
  have hb0 : 0 ≤ b := by rcases hb with rfl | rfl <;> decide
  rw [cAdd, wrap_common_left hx (.inr h0), wrap_common_right hb2 (.inr hb0)]
  have hf := fits_common_left (t2 := i32) hxb (.inr (by omega))
  cases hs : (common r i32).signed
  · rw [arith_unsigned hs, wrap_fits hf, Option.map_some, wrap_fits hxb]
  · rw [arith_signed hs, if_pos hf, Option.map_some, wrap_fits hxb]

section

variable {V : Type} [DecidableEq V] {r : IntTy} {p : InPolicy V} {vals : List V} {value : V}

omit [DecidableEq V] in
theorem valuesAt_length_le (p : InPolicy V) (vals : List V) (l : List Nat) :
    (valuesAt p vals l).length ≤ l.length := List.length_filterMap_le _ _

variable (hp : PolicyFor p vals.length)

include hp

omit hp in
theorem count_step {x : Int} {a : V} {vs : List V} (hx : 0 ≤ x) (hxr : Fits r x)
    (hr : Fits r (x + ((a :: vs).count value : Nat))) :
    (countAgg (V := V) r).calculate a value x = some (x + if a = value then 1 else 0) ∧
      Fits r (x + if a = value then 1 else 0) ∧
      x + ((a :: vs).count value : Nat) =
        (x + if a = value then 1 else 0) + (vs.count value : Nat) := by
  have e : x + ((a :: vs).count value : Nat) =
      (x + if a = value then 1 else 0) + (vs.count value : Nat) := by
    rw [List.count_cons]
    by_cases h : a = value
    · simp [h]; omega
    · simp [h]
  rw [e] at hr
  have hf : Fits r (x + if a = value then 1 else 0) :=
    fits_between hxr hr (by split <;> omega) (by omega)
  refine ⟨?_, hf, e⟩
  exact count_calculate hxr hx (by split <;> simp) hf

theorem count_rest (l : List Nat) (hl : ∀ i ∈ l, i < vals.length) {x : Int} (hx : 0 ≤ x)
    (hxr : Fits r x) (hr : Fits r (x + ((valuesAt p vals l).count value : Nat))) (m : Bool) :
    binaryRest (countAgg r) p vals value l x ⟨x, m⟩ =
      some ([], ⟨x + ((valuesAt p vals l).count value : Nat), m⟩) := by
  induction l generalizing x with
  | nil => simp [binaryRest, valuesAt]
  | cons i l ih =>
    have hi := hl i (by simp)
    have hl' : ∀ i ∈ l, i < vals.length := fun j hj => hl j (by simp [hj])
    rw [valuesAt_cons _ _ _ _ hi] at hr ⊢
    simp only [binaryRest, isNoData_eq hp hi, Option.bind_eq_bind, Option.bind_some]
    by_cases h : NoDataAt p vals i
    · simp only [h, if_true, decide_true] at hr ⊢
      exact ih hl' hx hxr hr
    · simp only [h, if_false, decide_false, Bool.false_eq_true, List.getElem?_eq_getElem hi,
        Option.bind_some] at hr ⊢
      obtain ⟨h1, h2, h3⟩ := count_step hx hxr hr
      rw [h3] at hr ⊢
      rw [h1]
      simp only [Option.bind_some, show (countAgg (V := V) r).withinRange vals[i] value _ = true from rfl,
        if_true]
      exact ih hl' (by split <;> omega) h2 hr

omit hp in
theorem count_init {a : V} {vs : List V} (hr : Fits r ((a :: vs).count value : Nat)) :
    0 ≤ (countAgg (V := V) r).init a value ∧ Fits r ((countAgg (V := V) r).init a value) ∧
      (((a :: vs).count value : Nat) : Int) =
        (countAgg (V := V) r).init a value + (vs.count value : Nat) := by
  have e : (((a :: vs).count value : Nat) : Int) =
      (countAgg (V := V) r).init a value + (vs.count value : Nat) := by
    rw [List.count_cons]
    simp only [countAgg]
    by_cases h : a = value
    · simp [h]; omega
    · simp [h]
  have h0 : 0 ≤ (countAgg (V := V) r).init a value := by simp only [countAgg]; split <;> decide
  exact ⟨h0, fits_between (fits_zero r) hr h0 (by omega), e⟩

theorem count_first (fuel : Nat) (l : List Nat) (hf : l.length ≤ fuel)
    (hl : ∀ i ∈ l, i < vals.length)
    (hr : Fits r ((valuesAt p vals l).count value : Nat)) (x : Int) (m : Bool) :
    binaryFirst (countAgg r) p vals value fuel l false ⟨x, m⟩ =
      some (!(valuesAt p vals l).isEmpty,
        ⟨if (valuesAt p vals l).isEmpty then x else ((valuesAt p vals l).count value : Nat), m⟩) := by
  induction l generalizing fuel with
  | nil => cases fuel <;> simp [binaryFirst, valuesAt]
  | cons i l ih =>
    have hi := hl i (by simp)
    have hl' : ∀ i ∈ l, i < vals.length := fun j hj => hl j (by simp [hj])
    rw [valuesAt_cons _ _ _ _ hi] at hr ⊢
    obtain ⟨fuel, rfl⟩ : ∃ n, fuel = n + 1 := ⟨fuel - 1, by simp at hf; omega⟩
    simp only [binaryFirst, isNoData_eq hp hi, Option.bind_eq_bind, Option.bind_some]
    by_cases h : NoDataAt p vals i
    · simp only [h, if_true, decide_true] at hr ⊢
      exact ih fuel (by simpa using hf) hl' hr
    · simp only [h, if_false, decide_false, Bool.false_eq_true, List.getElem?_eq_getElem hi,
        Option.bind_some] at hr ⊢
      obtain ⟨h0, h1, h2⟩ := count_init hr
      rw [h2] at hr ⊢
      rw [count_rest hp l hl' h0 h1 hr m]
      simp only [Option.bind_some]
      cases fuel <;> simp [binaryFirst]

/-- `operation_1d` for count. -/
theorem count_binary1d (rg : IndexRange) (hrg : rg.e ≤ vals.length)
    (hr : Fits r ((valuesAt p vals rg.indices).count value : Nat)) (x : Int) :
    binary1d (countAgg r) p vals value rg x =
      some (if valuesAt p vals rg.indices = [] then ⟨x, true⟩
        else ⟨((valuesAt p vals rg.indices).count value : Nat), false⟩) := by
  have hl : ∀ i ∈ rg.indices, i < vals.length := fun i hi => by
    simp only [IndexRange.indices, List.mem_range'_1] at hi; omega
  simp only [binary1d]
  rw [count_first hp _ _ le_rfl hl hr]
  simp only [Option.bind_eq_bind, Option.bind_some]
  by_cases h : valuesAt p vals rg.indices = []
  · simp [h]
  · have : (valuesAt p vals rg.indices).isEmpty = false := by simpa using h
    simp [h]

/-! 2D -/

theorem count_contCols (k j index : Nat) (h : ∀ d < k, index + d < vals.length) {x : Int}
    (hx : 0 ≤ x) (hxr : Fits r x)
    (hr : Fits r (x + ((valuesAt p vals (List.range' index k)).count value : Nat))) (m : Bool) :
    binaryContCols (countAgg r) p vals value k j index x ⟨x, m⟩ =
      some (j + k, x + ((valuesAt p vals (List.range' index k)).count value : Nat),
        ⟨x + ((valuesAt p vals (List.range' index k)).count value : Nat), m⟩) := by
  induction k generalizing j index x with
  | zero => simp [binaryContCols, valuesAt]
  | succ k ih =>
    have hi : index < vals.length := h 0 (by omega)
    have h' : ∀ d < k, index + 1 + d < vals.length := fun d hd => by
      have := h (d + 1) (by omega); omega
    rw [List.range'_succ, valuesAt_cons _ _ _ _ hi] at hr ⊢
    simp only [binaryContCols, isNoData_eq hp hi, Option.bind_eq_bind, Option.bind_some]
    by_cases hn : NoDataAt p vals index
    · simp only [hn, if_true, decide_true] at hr ⊢
      rw [ih (j + 1) (index + 1) h' hx hxr hr, show j + 1 + k = j + (k + 1) by omega]
    · simp only [hn, if_false, decide_false, Bool.false_eq_true, List.getElem?_eq_getElem hi,
        Option.bind_some] at hr ⊢
      obtain ⟨h1, h2, h3⟩ := count_step hx hxr hr
      rw [h3] at hr ⊢
      rw [h1]
      simp only [Option.bind_some,
        show (countAgg (V := V) r).withinRange vals[index] value _ = true from rfl, if_true]
      rw [ih (j + 1) (index + 1) h' (by split <;> omega) h2 hr,
        show j + 1 + k = j + (k + 1) by omega]

theorem count_contRows (nrCols : Nat) (cols : IndexRange) (hcols : cols.b ≤ cols.e) (k i j : Nat)
    (hb : InBounds vals nrCols cols k i) (hj : j ≤ cols.e) {x : Int}
    (hx : 0 ≤ x) (hxr : Fits r x)
    (hr : Fits r (x + ((valuesAt p vals (cellsLeft nrCols cols k i j)).count value : Nat)))
    (m : Bool) :
    binaryContRows (countAgg r) p vals value nrCols cols k i j x ⟨x, m⟩ =
      some ⟨x + ((valuesAt p vals (cellsLeft nrCols cols k i j)).count value : Nat), m⟩ := by
  induction k generalizing i j x with
  | zero => simp [binaryContRows, cellsLeft, valuesAt]
  | succ k ih =>
    rw [cellsLeft_succ, valuesAt_append, List.count_append, Nat.cast_add, ← Int.add_assoc] at hr ⊢
    simp only [binaryContRows]
    have hr1 := fits_between (y := x + ((valuesAt p vals (List.range' (linearIndex nrCols i j)
      (cols.e - j))).count value : Nat)) hxr hr (by omega) (by omega)
    rw [count_contCols hp (cols.e - j) j (linearIndex nrCols i j) (hb.row j) hx hxr hr1 m]
    simp only [Option.bind_eq_bind, Option.bind_some]
    rw [if_neg (by simp only [ne_eq, not_not]; omega)]
    rw [cells2d_eq_cellsLeft] at hr ⊢
    exact ih (i + 1) cols.b hb.tail hcols (by omega) hr1 hr

theorem count_initCols (k j index : Nat) (h : ∀ d < k, index + d < vals.length) :
    (valuesAt p vals (List.range' index k) = [] ∧
      binaryInitCols (countAgg r) p vals value k j index = some (j + k, none)) ∨
    ∃ (d : Nat) (hd : d < k), valuesAt p vals (List.range' index k) =
        (vals[index + d]'(h d hd)) :: valuesAt p vals (List.range' (index + d + 1) (k - d - 1)) ∧
      binaryInitCols (countAgg r) p vals value k j index =
        some (j + d, some ((countAgg (V := V) r).init (vals[index + d]'(h d hd)) value)) := by
  induction k generalizing j index with
  | zero => exact .inl ⟨rfl, rfl⟩
  | succ k ih =>
    have hi : index < vals.length := h 0 (by omega)
    have h' : ∀ d < k, index + 1 + d < vals.length := fun d hd => by
      have := h (d + 1) (by omega); omega
    rw [List.range'_succ, valuesAt_cons _ _ _ _ hi]
    simp only [binaryInitCols, isNoData_eq hp hi, Option.bind_eq_bind, Option.bind_some]
    by_cases hn : NoDataAt p vals index
    · simp only [hn, decide_true, if_true]
      rcases ih (j + 1) (index + 1) h' with ⟨h1, h2⟩ | ⟨d, hd, h1, h2⟩
      · refine .inl ⟨h1, ?_⟩
        rw [h2, show j + 1 + k = j + (k + 1) by omega]
      · refine .inr ⟨d + 1, by omega, ?_, ?_⟩
        · rw [h1]
          simp only [show index + (d + 1) = index + 1 + d by omega,
            show k + 1 - (d + 1) - 1 = k - d - 1 by omega]
        · rw [h2]
          simp only [show index + (d + 1) = index + 1 + d by omega,
            show j + (d + 1) = j + 1 + d by omega]
    · refine .inr ⟨0, by omega, ?_, ?_⟩
      · simp [hn]
      · simp only [hn, decide_false, if_false, Bool.false_eq_true, List.getElem?_eq_getElem hi,
          Option.bind_some, Nat.add_zero]

omit hp in
/-- Once `j` is at the end of a row nothing is found anymore. -/
theorem count_initRows_end (nrCols : Nat) (cols : IndexRange) (k i : Nat) :
    binaryInitRows (countAgg r) p vals value nrCols cols k i cols.e = some none := by
  induction k generalizing i with
  | zero => rfl
  | succ k ih => simp [binaryInitRows, binaryInitCols, ih]

/-- `operation_2d` for count: what is found depends on the first row only. -/
theorem count_binary2d (nrCols : Nat) (rg : IndexRanges2) (hrg : rg.rows.b ≤ rg.rows.e)
    (hb : InBounds vals nrCols rg.cols (rg.rows.e - rg.rows.b) rg.rows.b)
    (hr : Fits r ((valuesAt p vals (cells2d nrCols rg)).count value : Nat)) (x : Int) :
    binary2d (countAgg r) p vals value nrCols rg x =
      some (if valuesAt p vals (cells2d nrCols ⟨⟨rg.rows.b, min (rg.rows.b + 1) rg.rows.e⟩, rg.cols⟩)
          = [] then ⟨x, true⟩
        else ⟨((valuesAt p vals (cells2d nrCols rg)).count value : Nat), false⟩) := by
  obtain ⟨⟨b1, e1⟩, cols⟩ := rg
  simp only at hrg hb hr ⊢
  unfold binary2d
  simp only
  by_cases hne : b1 < e1 ∧ cols.b < cols.e
  · rw [if_pos hne, show min (b1 + 1) e1 = b1 + 1 by omega]
    obtain ⟨k, hk⟩ : ∃ k, e1 = b1 + (k + 1) := ⟨e1 - b1 - 1, by omega⟩
    subst hk
    rw [show b1 + (k + 1) - b1 = k + 1 by omega] at hb ⊢
    have hfirst : cells2d nrCols ⟨⟨b1, b1 + 1⟩, cols⟩ =
        List.range' (linearIndex nrCols b1 cols.b) (cols.e - cols.b) := by
      simp [cells2d, IndexRange.indices]
    rw [hfirst]
    rw [cells2d_succ] at hr ⊢
    have hrow := hb.row cols.b
    simp only [binaryInitRows, Option.bind_eq_bind]
    rcases count_initCols (r := r) (value := value) hp (cols.e - cols.b) cols.b
        (linearIndex nrCols b1 cols.b) hrow with ⟨h1, h2⟩ | ⟨d, hd, h1, h2⟩
    · rw [h1, h2]
      simp only [Option.bind_some, if_true]
      rw [show cols.b + (cols.e - cols.b) = cols.e by omega, count_initRows_end]
      rfl
    · have hsplit : valuesAt p vals (cellsLeft nrCols cols (k + 1) b1 cols.b) =
          (vals[linearIndex nrCols b1 cols.b + d]'(hrow d hd)) ::
            valuesAt p vals (cellsLeft nrCols cols (k + 1) b1 (cols.b + d + 1)) := by
        rw [cellsLeft_succ, cellsLeft_succ, valuesAt_append, valuesAt_append, h1]
        simp only [linearIndex, show b1 * nrCols + cols.b + d + 1 = b1 * nrCols + (cols.b + d + 1) by
            omega, show cols.e - cols.b - d - 1 = cols.e - (cols.b + d + 1) by omega,
            List.cons_append]
      rw [hsplit] at hr ⊢
      obtain ⟨g0, g1, g2⟩ := count_init hr
      rw [g2] at hr ⊢
      rw [h2, if_neg (by rw [h1]; simp)]
      simp only [Option.bind_some]
      rw [show b1 + (k + 1) - b1 = k + 1 by omega]
      exact count_contRows hp nrCols cols hne.2.le (k + 1) b1 (cols.b + d + 1) hb (by omega) g0 g1 hr
        false
  · rw [if_neg hne]
    have : cells2d nrCols ⟨⟨b1, min (b1 + 1) e1⟩, cols⟩ = [] := by
      simp only [cells2d, IndexRange.indices]
      by_cases h1 : b1 < e1
      · have : cols.e - cols.b = 0 := by omega
        simp [this]
      · simp [show min (b1 + 1) e1 - b1 = 0 by omega]
    simp [this, valuesAt]

end

end Fern
