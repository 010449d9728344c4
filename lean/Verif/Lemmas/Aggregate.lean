import Verif.Spec.Aggregate
import Verif.Lemmas.LocalOps
import Verif.Lemmas.IndexRangesSpec
import Verif.Lemmas.Offset
/-
The loops of the unary aggregate operation add the valid values in order.
-/
namespace Fern

open Spec

variable {S V R : Type}

/-- Add the values one by one, until the result is out of range. -/
def addAll (A : Accumulator S V R) : List V → S → Option (Bool × S)
  | [], s => some (true, s)
  | v :: vs, s => (A.add s v).bind (fun r => if r.2 then addAll A vs r.1 else some (false, r.1))

theorem addAll_append (A : Accumulator S V R) (l l' : List V) (s : S) :
    addAll A (l ++ l') s =
      (addAll A l s).bind (fun r => if r.1 then addAll A l' r.2 else some r) := by
  induction l generalizing s with
  | nil => simp [addAll]
  | cons v l ih =>
    simp only [List.cons_append, addAll]
    cases A.add s v with
    | none => rfl
    | some r =>
      obtain ⟨s', ok⟩ := r
      cases ok <;> simp [ih]

/-- What the operations return, given the valid values. -/
def aggregated (A : Accumulator S V R) (vs : List V) : Option (Aggregated S) :=
  match vs with
  | [] => some ⟨false, true, A.init⟩
  | _ :: _ => (addAll A vs A.init).map (fun r => ⟨true, r.1, r.2⟩)

theorem valuesAt_cons (p : InPolicy V) (vals : List V) (i : Nat) (l : List Nat)
    (hi : i < vals.length) :
    valuesAt p vals (i :: l) =
      if NoDataAt p vals i then valuesAt p vals l else vals[i] :: valuesAt p vals l := by
  unfold valuesAt
  by_cases h : NoDataAt p vals i
  · rw [List.filterMap_cons_none (by simp [h]), if_pos h]
  · rw [List.filterMap_cons_some (b := vals[i]) (by simp [h, hi]), if_neg h]

theorem valuesAt_append (p : InPolicy V) (vals : List V) (l l' : List Nat) :
    valuesAt p vals (l ++ l') = valuesAt p vals l ++ valuesAt p vals l' := by
  simp [valuesAt, List.filterMap_append]

theorem isNoData_eq {p : InPolicy V} {vals : List V} (hp : PolicyFor p vals.length) {i : Nat}
    (hi : i < vals.length) : p.isNoData vals i = some (decide (NoDataAt p vals i)) := by
  obtain ⟨b, hb, h⟩ := isNoData_spec hp rfl hi
  rw [hb]; congr 1
  by_cases hn : NoDataAt p vals i
  · simp [hn, h.2 hn]
  · simp only [hn, decide_false]
    cases b
    · rfl
    · exact absurd (h.1 rfl) hn

variable (A : Accumulator S V R) {p : InPolicy V} {vals : List V} (hp : PolicyFor p vals.length)

include hp

theorem aggregateRest_eq (l : List Nat) (hl : ∀ i ∈ l, i < vals.length) (s : S) :
    aggregateRest A p vals l s = addAll A (valuesAt p vals l) s := by
  induction l generalizing s with
  | nil => rfl
  | cons i l ih =>
    have hi := hl i (by simp)
    have hl' : ∀ i ∈ l, i < vals.length := fun j hj => hl j (by simp [hj])
    rw [valuesAt_cons _ _ _ _ hi]
    simp only [aggregateRest, isNoData_eq hp hi, Option.bind_eq_bind, Option.bind_some]
    by_cases h : NoDataAt p vals i
    · simp [h, ih hl']
    · simp only [h, decide_false, if_false, Bool.false_eq_true, addAll, List.getElem?_eq_getElem hi,
        Option.bind_some]
      cases A.add s vals[i] with
      | none => rfl
      | some r =>
        simp only [Option.bind_some]
        split <;> simp_all

theorem aggregateFirst_eq (l : List Nat) (hl : ∀ i ∈ l, i < vals.length) :
    aggregateFirst A p vals l = aggregated A (valuesAt p vals l) := by
  induction l with
  | nil => rfl
  | cons i l ih =>
    have hi := hl i (by simp)
    have hl' : ∀ i ∈ l, i < vals.length := fun j hj => hl j (by simp [hj])
    rw [valuesAt_cons _ _ _ _ hi]
    simp only [aggregateFirst, isNoData_eq hp hi, Option.bind_eq_bind, Option.bind_some]
    by_cases h : NoDataAt p vals i
    · simp [h, ih hl']
    · simp only [h, decide_false, if_false, Bool.false_eq_true, aggregated, addAll,
        List.getElem?_eq_getElem hi, Option.bind_some, aggregateRest_eq A hp l hl']
      cases A.add A.init vals[i] with
      | none => rfl
      | some r =>
        simp only [Option.bind_some]
        split
        · cases addAll A (valuesAt p vals l) r.1 <;> rfl
        · rfl

theorem aggregate1d_eq (r : IndexRange) (hr : r.e ≤ vals.length) :
    aggregate1d A p vals r = aggregated A (valuesAt p vals r.indices) :=
  aggregateFirst_eq A hp _ (fun i hi => by
    simp only [IndexRange.indices, List.mem_range'_1] at hi; omega)

/-! The 2D operation. -/

theorem contCols_eq (k j index : Nat) (h : ∀ d < k, index + d < vals.length) (s : S) :
    contCols A p vals k j index s true =
      match addAll A (valuesAt p vals (List.range' index k)) s with
      | none => none
      | some (ok, s') => some
          ((contCols A p vals k j index s true).elim j Prod.fst, s', ok) := by
  induction k generalizing j index s with
  | zero => rfl
  | succ k ih =>
    have hi : index < vals.length := h 0 (by omega)
    have h' : ∀ d < k, index + 1 + d < vals.length := fun d hd => by
      have := h (d + 1) (by omega); omega
    rw [List.range'_succ, valuesAt_cons _ _ _ _ hi]
    simp only [contCols, isNoData_eq hp hi, Option.bind_eq_bind, Option.bind_some]
    by_cases hn : NoDataAt p vals index
    · simp only [hn, decide_true, if_true]
      rw [ih (j + 1) (index + 1) h' s]
      cases addAll A (valuesAt p vals (List.range' (index + 1) k)) s <;> rfl
    · simp only [hn, decide_false, if_false, Bool.false_eq_true, addAll,
        List.getElem?_eq_getElem hi, Option.bind_some]
      cases A.add s vals[index] with
      | none => rfl
      | some r =>
        obtain ⟨s', ok⟩ := r
        cases ok
        · rfl
        · simp only [Option.bind_some, if_true]
          rw [ih (j + 1) (index + 1) h' s']
          cases addAll A (valuesAt p vals (List.range' (index + 1) k)) s' <;> rfl

/-- `j` reaches the end of the row if and only if the result stays within range. -/
theorem contCols_j (k j index : Nat) (h : ∀ d < k, index + d < vals.length) (s s' : S) (j' : Nat)
    (ok : Bool) (hc : contCols A p vals k j index s true = some (j', s', ok)) :
    (j' = j + k ↔ ok = true) := by
  induction k generalizing j index s with
  | zero =>
    simp only [contCols, Option.some.injEq, Prod.mk.injEq] at hc
    obtain ⟨rfl, -, rfl⟩ := hc; simp
  | succ k ih =>
    have hi : index < vals.length := h 0 (by omega)
    have h' : ∀ d < k, index + 1 + d < vals.length := fun d hd => by
      have := h (d + 1) (by omega); omega
    simp only [contCols, isNoData_eq hp hi, Option.bind_eq_bind, Option.bind_some] at hc
    by_cases hn : NoDataAt p vals index
    · simp only [hn, decide_true, if_true] at hc
      have := ih (j + 1) (index + 1) h' s hc
      rw [← this]; omega
    · simp only [hn, decide_false, if_false, Bool.false_eq_true, List.getElem?_eq_getElem hi,
        Option.bind_some] at hc
      cases ha : A.add s vals[index] with
      | none => simp [ha] at hc
      | some r =>
        obtain ⟨s2, ok2⟩ := r
        cases ok2
        · simp only [ha, Option.bind_some, Bool.false_eq_true, if_false, Option.some.injEq,
            Prod.mk.injEq] at hc
          obtain ⟨rfl, -, rfl⟩ := hc
          simp
        · simp only [ha, Option.bind_some, if_true] at hc
          have := ih (j + 1) (index + 1) h' s2 hc
          rw [← this]; omega

omit hp in
/-- The cells that are left: `k` rows from `i`, the first of them from `j`. -/
def cellsLeft (nrCols : Nat) (cols : IndexRange) (k i j : Nat) : List Nat :=
  match k with
  | 0 => []
  | k + 1 => List.range' (linearIndex nrCols i j) (cols.e - j) ++
      cells2d nrCols ⟨⟨i + 1, i + 1 + k⟩, cols⟩

omit hp in
theorem cellsLeft_succ (nrCols : Nat) (cols : IndexRange) (k i j : Nat) :
    cellsLeft nrCols cols (k + 1) i j = List.range' (linearIndex nrCols i j) (cols.e - j) ++
      cells2d nrCols ⟨⟨i + 1, i + 1 + k⟩, cols⟩ := rfl

omit hp in
theorem cells2d_succ (nrCols : Nat) (cols : IndexRange) (i k : Nat) :
    cells2d nrCols ⟨⟨i, i + (k + 1)⟩, cols⟩ = cellsLeft nrCols cols (k + 1) i cols.b := by
  simp only [cells2d, cellsLeft, IndexRange.indices]
  rw [show i + (k + 1) - i = (i + 1 + k - (i + 1)) + 1 by omega, List.range'_succ,
    List.flatMap_cons]

omit hp in
theorem cells2d_eq_cellsLeft (nrCols : Nat) (cols : IndexRange) (i k : Nat) :
    cells2d nrCols ⟨⟨i, i + k⟩, cols⟩ = cellsLeft nrCols cols k i cols.b := by
  cases k with
  | zero => simp [cells2d, cellsLeft, IndexRange.indices]
  | succ k => exact cells2d_succ _ _ _ _

omit hp in
/-- All elements in the rows and columns exist. -/
def InBounds (vals : List V) (nrCols : Nat) (cols : IndexRange) (k i : Nat) : Prop :=
  ∀ a < k, ∀ j < cols.e, linearIndex nrCols (i + a) j < vals.length

omit hp in
theorem InBounds.tail {nrCols : Nat} {cols : IndexRange} {k i : Nat}
    (h : InBounds vals nrCols cols (k + 1) i) : InBounds vals nrCols cols k (i + 1) := by
  intro a ha j hj
  have := h (a + 1) (by omega) j hj
  rwa [show i + (a + 1) = i + 1 + a by omega] at this

omit hp in
theorem InBounds.drop {nrCols : Nat} {cols : IndexRange} {k i m : Nat}
    (h : InBounds vals nrCols cols k i) (hm : m ≤ k) :
    InBounds vals nrCols cols (k - m) (i + m) := by
  intro a ha j hj
  have := h (m + a) (by omega) j hj
  rwa [show i + (m + a) = i + m + a by omega] at this

omit hp in
theorem InBounds.row {nrCols : Nat} {cols : IndexRange} {k i : Nat}
    (h : InBounds vals nrCols cols (k + 1) i) (j : Nat) :
    ∀ d < cols.e - j, linearIndex nrCols i j + d < vals.length := by
  intro d hd
  have := h 0 (by omega) (j + d) (by omega)
  simp only [linearIndex, Nat.add_zero] at this ⊢
  omega

theorem contRows_eq (nrCols : Nat) (cols : IndexRange) (hcols : cols.b ≤ cols.e) (k i j : Nat)
    (hb : InBounds vals nrCols cols k i) (hj : j ≤ cols.e) (s : S) :
    contRows A p vals nrCols cols k i j s true =
      (addAll A (valuesAt p vals (cellsLeft nrCols cols k i j)) s).map (fun r => (r.2, r.1)) := by
  induction k generalizing i j s with
  | zero => rfl
  | succ k ih =>
    simp only [contRows, cellsLeft, valuesAt_append, addAll_append]
    have hrow := hb.row j
    have e := contCols_eq A hp (cols.e - j) j (linearIndex nrCols i j) hrow s
    cases hc : addAll A (valuesAt p vals (List.range' (linearIndex nrCols i j) (cols.e - j))) s with
    | none => rw [hc] at e; simp [e]
    | some r =>
      obtain ⟨ok, s'⟩ := r
      rw [hc] at e
      simp only at e
      have hje := contCols_j A hp _ _ _ hrow _ _ _ _ e
      rw [e]
      simp only [Option.bind_eq_bind, Option.bind_some]
      have hje' : (contCols A p vals (cols.e - j) j (linearIndex nrCols i j) s true).elim j Prod.fst
          = cols.e ↔ ok = true := by rw [← hje]; omega
      cases ok
      · rw [if_pos (by rw [Ne, hje']; simp)]
        rfl
      · rw [if_neg (by rw [Ne, hje']; simp)]
        simp only [if_true]
        rw [ih (i + 1) cols.b hb.tail hcols s', ← cells2d_eq_cellsLeft]

theorem initCols_eq (k j index : Nat) (h : ∀ d < k, index + d < vals.length) :
    (valuesAt p vals (List.range' index k) = [] ∧ initCols A p vals k j index = some none) ∨
    ∃ (d : Nat) (hd : d < k), valuesAt p vals (List.range' index k) =
        (vals[index + d]'(h d hd)) :: valuesAt p vals (List.range' (index + d + 1) (k - d - 1)) ∧
      initCols A p vals k j index =
        (A.add A.init (vals[index + d]'(h d hd))).map (fun r => some (j + d, r.1, r.2)) := by
  induction k generalizing j index with
  | zero => exact .inl ⟨rfl, rfl⟩
  | succ k ih =>
    have hi : index < vals.length := h 0 (by omega)
    have h' : ∀ d < k, index + 1 + d < vals.length := fun d hd => by
      have := h (d + 1) (by omega); omega
    rw [List.range'_succ, valuesAt_cons _ _ _ _ hi]
    simp only [initCols, isNoData_eq hp hi, Option.bind_eq_bind, Option.bind_some]
    by_cases hn : NoDataAt p vals index
    · simp only [hn, decide_true, if_true]
      rcases ih (j + 1) (index + 1) h' with ⟨h1, h2⟩ | ⟨d, hd, h1, h2⟩
      · exact .inl ⟨h1, h2⟩
      · refine .inr ⟨d + 1, by omega, ?_, ?_⟩
        · rw [h1]
          simp only [show index + (d + 1) = index + 1 + d by omega,
            show k + 1 - (d + 1) - 1 = k - d - 1 by omega]
        · rw [h2]
          simp only [show index + (d + 1) = index + 1 + d by omega,
            show j + (d + 1) = j + 1 + d by omega]
    · refine .inr ⟨0, by omega, ?_, ?_⟩
      · simp [hn]
      · simp only [hn, decide_false, if_false, Bool.false_eq_true, List.getElem?_eq_getElem hi,
          Option.bind_some, Nat.add_zero]
        cases A.add A.init vals[index] <;> rfl

theorem initRows_eq (nrCols : Nat) (cols : IndexRange) (hcols : cols.b < cols.e) (k i : Nat)
    (hb : InBounds vals nrCols cols k i) :
    (valuesAt p vals (cellsLeft nrCols cols k i cols.b) = [] ∧
      initRows A p vals nrCols cols k i = some none) ∨
    ∃ (v : V) (m j : Nat), m ≤ k ∧ j ≤ cols.e ∧ valuesAt p vals (cellsLeft nrCols cols k i cols.b) =
        v :: valuesAt p vals (cellsLeft nrCols cols (k - m) (i + m) j) ∧
      initRows A p vals nrCols cols k i =
        (A.add A.init v).map (fun r => some (i + m, j, r.1, r.2)) := by
  induction k generalizing i with
  | zero => exact .inl ⟨rfl, rfl⟩
  | succ k ih =>
    simp only [initRows, Option.bind_eq_bind, cellsLeft_succ, valuesAt_append]
    have hrow := hb.row cols.b
    rcases initCols_eq A hp (cols.e - cols.b) cols.b (linearIndex nrCols i cols.b) hrow with
      ⟨h1, h2⟩ | ⟨d, hd, h1, h2⟩
    · rw [h1, h2, cells2d_eq_cellsLeft]
      simp only [Option.bind_some, List.nil_append]
      rcases ih (i + 1) hb.tail with ⟨h3, h4⟩ | ⟨v, m, j, hm, hj, h3, h4⟩
      · exact .inl ⟨h3, h4⟩
      · refine .inr ⟨v, m + 1, j, by omega, hj, ?_, ?_⟩
        · rw [h3, show k + 1 - (m + 1) = k - m by omega, show i + (m + 1) = i + 1 + m by omega]
        · rw [h4, show i + (m + 1) = i + 1 + m by omega]
    · rw [h1, h2]
      right
      by_cases hlast : cols.b + d < cols.e - 1
      · refine ⟨vals[linearIndex nrCols i cols.b + d]'(hrow d hd), 0, cols.b + d + 1, by omega,
          by omega, ?_, ?_⟩
        · simp only [Nat.sub_zero, Nat.add_zero, cellsLeft_succ, valuesAt_append, List.cons_append]
          simp only [linearIndex, show i * nrCols + cols.b + d + 1 = i * nrCols + (cols.b + d + 1) by
            omega, show cols.e - cols.b - d - 1 = cols.e - (cols.b + d + 1) by omega]
        · cases A.add A.init (vals[linearIndex nrCols i cols.b + d]'(hrow d hd)) with
          | none => rfl
          | some r => simp [hlast]
      · refine ⟨vals[linearIndex nrCols i cols.b + d]'(hrow d hd), 1, cols.b, by omega,
          by omega, ?_, ?_⟩
        · rw [show cols.e - cols.b - d - 1 = 0 by omega, cells2d_eq_cellsLeft]
          simp [valuesAt]
        · cases A.add A.init (vals[linearIndex nrCols i cols.b + d]'(hrow d hd)) with
          | none => rfl
          | some r => simp [hlast]

omit hp in
/-- Adding one value to a new accumulator is within range. -/
def FirstInRange (A : Accumulator S V R) (vs : List V) : Prop :=
  ∀ v ∈ vs, ∀ s ok, A.add A.init v = some (s, ok) → ok = true

/-- The 2D operation returns the same as the 1D operation on the same elements. -/
theorem aggregate2d_eq (nrCols : Nat) (r : IndexRanges2) (hr : r.rows.b ≤ r.rows.e)
    (hb : InBounds vals nrCols r.cols (r.rows.e - r.rows.b) r.rows.b)
    (hA : FirstInRange A (valuesAt p vals (cells2d nrCols r))) :
    aggregate2d A p vals nrCols r = aggregated A (valuesAt p vals (cells2d nrCols r)) := by
  obtain ⟨⟨b1, e1⟩, cols⟩ := r
  simp only at hr hb
  unfold aggregate2d
  simp only
  by_cases hne : b1 < e1 ∧ cols.b < cols.e
  · rw [if_pos hne]
    have hc : cells2d nrCols ⟨⟨b1, e1⟩, cols⟩ = cellsLeft nrCols cols (e1 - b1) b1 cols.b := by
      rw [← cells2d_eq_cellsLeft, show b1 + (e1 - b1) = e1 by omega]
    rw [hc] at hA ⊢
    rcases initRows_eq A hp nrCols cols hne.2 (e1 - b1) b1 hb with ⟨h1, h2⟩ |
      ⟨v, m, j, hm, hj, h1, h2⟩
    · rw [h1, h2]; rfl
    · rw [h1] at hA
      rw [h1, h2]
      simp only [aggregated, addAll]
      cases ha : A.add A.init v with
      | none => rfl
      | some x =>
        obtain ⟨s, ok⟩ := x
        have hok := hA v (by simp) s ok ha
        subst hok
        simp only [Option.map_some, Option.bind_eq_bind, Option.bind_some, if_true]
        rw [show e1 - (b1 + m) = e1 - b1 - m by omega,
          contRows_eq A hp nrCols cols hne.2.le _ _ _ (hb.drop hm) hj s]
        cases addAll A (valuesAt p vals (cellsLeft nrCols cols (e1 - b1 - m) (b1 + m) j)) s <;> rfl
  · rw [if_neg hne]
    have : cells2d nrCols ⟨⟨b1, e1⟩, cols⟩ = [] := by
      simp only [cells2d, IndexRange.indices]
      by_cases h1 : b1 < e1
      · have : cols.e - cols.b = 0 := by omega
        simp [this]
      · simp [show e1 - b1 = 0 by omega]
    rw [this]; rfl

end Fern
