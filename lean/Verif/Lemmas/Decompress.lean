import Verif.Lemmas.Compress
namespace Fern

open Spec

variable {P V : Type}

theorem rank_succ_valid {inp : InPolicy P} {pvals : List P} {i : Nat}
    (h : ¬ NoDataAt inp pvals i) : rank inp pvals (i + 1) = rank inp pvals i + 1 := by
  simp [rank, List.range_succ, List.filter_append, h]

theorem rank_succ_noData {inp : InPolicy P} {pvals : List P} {i : Nat}
    (h : NoDataAt inp pvals i) : rank inp pvals (i + 1) = rank inp pvals i := by
  simp [rank, List.range_succ, List.filter_append, h]

theorem rank_mono {inp : InPolicy P} {pvals : List P} {i j : Nat} (h : i ≤ j) :
    rank inp pvals i ≤ rank inp pvals j := by
  obtain ⟨k, rfl⟩ := Nat.exists_eq_add_of_le h
  simp [rank, List.range_add, List.filter_append]

theorem getElem?_modify_other {α : Type} {a i : Nat} (h : i ≠ a) (f : α → α) (s : List α) :
    (s.modify a f)[i]? = s[i]? := by
  rw [List.getElem?_modify]
  cases s[i]? with
  | none => rfl
  | some x => simp [Ne.symm h]

theorem decompressLoop_spec {inp : InPolicy P} {pvals : List P} {outp : OutPolicy V}
    {value : List V} {n : Nat} (hv : pvals.length = n) (hp : PolicyFor inp n)
    (hval : rank inp pvals n ≤ value.length) (k a : Nat) (hk : a + k = n) (s : List (Cell V))
    (hs : s.length = n) :
    ∃ out, decompressLoop inp pvals outp value (List.range' a k) (rank inp pvals a) s = some out ∧
      out.length = n ∧ (∀ i < a, out[i]? = s[i]?) ∧
      ∀ i c, a ≤ i → s[i]? = some c → ∃ c', out[i]? = some c' ∧
        DecompressCell inp pvals outp value i c c' := by
  induction k generalizing a s with
  | zero =>
    refine ⟨s, rfl, hs, fun _ _ => rfl, fun i c hi hc => ?_⟩
    have := (List.getElem?_eq_some_iff.mp hc).1
    omega
  | succ k ih =>
    obtain ⟨b, hb, hnd⟩ := isNoData_spec hp hv (i := a) (by omega)
    rw [List.range'_succ]
    unfold decompressLoop
    cases b with
    | true =>
      have h : NoDataAt inp pvals a := hnd.mp rfl
      obtain ⟨out, ho, hl, hpre, hpost⟩ := ih (a + 1) (by omega) (s.modify a outp.mark) (by simp [hs])
      rw [rank_succ_noData h] at ho
      refine ⟨out, ?_, hl, fun i hi => ?_, fun i c hi hc => ?_⟩
      · simp only [hb, Option.bind_eq_bind, Option.bind_some, if_true]
        rw [modifyAt_eq_some (by omega), Option.bind_some, ho]
      · rw [hpre i (by omega), getElem?_modify_other (by omega)]
      · by_cases hia : i = a
        · subst hia
          refine ⟨outp.mark c, ?_, fun _ => mark_spec _ _, fun hn => absurd h hn⟩
          rw [hpre i (by omega), List.getElem?_modify, hc]
          simp
        · refine hpost i c (by omega) ?_
          rw [getElem?_modify_other hia, hc]
    | false =>
      have h : ¬ NoDataAt inp pvals a := fun h => by simpa using hnd.mpr h
      have hr : rank inp pvals a < value.length := by
        have := rank_mono (inp := inp) (pvals := pvals) (show a + 1 ≤ n by omega)
        rw [rank_succ_valid h] at this
        omega
      obtain ⟨out, ho, hl, hpre, hpost⟩ := ih (a + 1) (by omega)
        (s.modify a (storeAct value[rank inp pvals a])) (by simp [hs])
      rw [rank_succ_valid h] at ho
      refine ⟨out, ?_, hl, fun i hi => ?_, fun i c hi hc => ?_⟩
      · simp only [hb, Option.bind_eq_bind, Option.bind_some, Bool.false_eq_true, if_false]
        rw [List.getElem?_eq_getElem hr, Option.bind_some, modifyAt_eq_some (by omega),
          Option.bind_some, ho]
      · rw [hpre i (by omega), getElem?_modify_other (by omega)]
      · by_cases hia : i = a
        · subst hia
          refine ⟨storeAct value[rank inp pvals i] c, ?_, fun hn => absurd hn h, fun _ =>
            ⟨value[rank inp pvals i], List.getElem?_eq_getElem hr, rfl⟩⟩
          rw [hpre i (by omega), List.getElem?_modify, hc]
          simp
        · refine hpost i c (by omega) ?_
          rw [getElem?_modify_other hia, hc]

theorem decompressLoop_all {inp : InPolicy P} {pvals : List P} {outp : OutPolicy V}
    {value : List V} {n : Nat} (hv : pvals.length = n) (hp : PolicyFor inp n)
    (hval : rank inp pvals n ≤ value.length) (s : List (Cell V)) (hs : s.length = n) :
    ∃ out, decompressLoop inp pvals outp value (List.range n) 0 s = some out ∧
      Elementwise (DecompressCell inp pvals outp value) s out := by
  obtain ⟨out, ho, hl, _, he⟩ := decompressLoop_spec (outp := outp) hv hp hval n 0 (by omega) s hs
  refine ⟨out, ?_, by omega, fun i c hc => he i c (Nat.zero_le _) hc⟩
  rw [List.range_eq_range']
  simpa [rank] using ho

theorem validValues_length {inp : InPolicy V} {values : List V} :
    (validValues inp values).length = rank inp values values.length := by
  classical
  unfold validValues validAt rank
  have h : ∀ l : List Nat, (∀ i ∈ l, i < values.length) →
      (l.filterMap (fun i => values[i]?)).length = l.length := by
    intro l hl
    induction l with
    | nil => rfl
    | cons i l ih =>
      have : i < values.length := hl i (by simp)
      simp [List.filterMap_cons, this, ih (fun j hj => hl j (by simp [hj]))]
  apply h
  intro i hi
  simpa using (List.mem_filter.mp hi).1

/-- The valid value at position `i` is found at its rank. -/
theorem validValues_rank {inp : InPolicy V} {values : List V} {i : Nat} {v : V}
    (hi : values[i]? = some v) (h : ¬ NoDataAt inp values i) :
    (validValues inp values)[rank inp values i]? = some v := by
  classical
  have hil : i < values.length := (List.getElem?_eq_some_iff.mp hi).1
  have e : List.range values.length =
      List.range i ++ i :: (List.range' (i + 1) (values.length - i - 1)) := by
    rw [List.range_eq_range', List.range_eq_range']
    have : values.length = i + (1 + (values.length - i - 1)) := by omega
    conv => lhs; rw [this]
    rw [← List.range'_append_1, Nat.zero_add]
    congr 1
    rw [Nat.add_comm 1, List.range'_succ]
  have hlen : (validAt inp values (List.range i)).length = rank inp values i := by
    unfold validAt rank
    have h : ∀ l : List Nat, (∀ i ∈ l, i < values.length) →
        (l.filterMap (fun i => values[i]?)).length = l.length := by
      intro l hl
      induction l with
      | nil => rfl
      | cons i l ih =>
        have : i < values.length := hl i (by simp)
        simp [List.filterMap_cons, this, ih (fun j hj => hl j (by simp [hj]))]
    apply h
    intro j hj
    have := (List.mem_filter.mp hj).1
    rw [List.mem_range] at this
    omega
  have e2 : validAt inp values (i :: (List.range' (i + 1) (values.length - i - 1))) =
      v :: validAt inp values (List.range' (i + 1) (values.length - i - 1)) := by
    simp [validAt, h, hi]
  rw [validValues, e, validAt_append, e2, List.getElem?_append_right (by omega), hlen, Nat.sub_self]
  rfl

/-- A list is determined by having the right values at the ranks of the valid positions. -/
theorem validValues_eq_of_rank {inp : InPolicy V} {values c : List V}
    (hlen : c.length = rank inp values values.length)
    (h : ∀ i v, values[i]? = some v → ¬ NoDataAt inp values i → c[rank inp values i]? = some v) :
    validValues inp values = c := by
  classical
  have key : ∀ k ≤ values.length, ∀ j < rank inp values k,
      (validValues inp values)[j]? = c[j]? := by
    intro k
    induction k with
    | zero => intro _ j hj; simp [rank] at hj
    | succ k ih =>
      intro hk j hj
      by_cases hn : NoDataAt inp values k
      · rw [rank_succ_noData hn] at hj
        exact ih (by omega) j hj
      · rw [rank_succ_valid hn] at hj
        by_cases hjk : j < rank inp values k
        · exact ih (by omega) j hjk
        · have : j = rank inp values k := by omega
          subst this
          have hv : values[k]? = some (values[k]'(by omega)) := by simp
          rw [validValues_rank hv hn, h k _ hv hn]
  apply List.ext_getElem?
  intro j
  by_cases hj : j < rank inp values values.length
  · exact key _ (Nat.le_refl _) j hj
  · rw [List.getElem?_eq_none (by rw [validValues_length]; omega),
      List.getElem?_eq_none (by omega)]

end Fern
