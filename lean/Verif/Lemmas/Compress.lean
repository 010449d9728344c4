import Verif.Lemmas.LocalOps
import Verif.Lemmas.IndexRangesSpec
import Verif.Model.Compress
import Verif.Spec.Compress
namespace Fern

open Spec

variable {V : Type}

/-- Stores of consecutive values. -/
def writeActs : Nat → List V → List (Act V)
  | _, [] => []
  | t, v :: vs => ⟨t, fun _ => v⟩ :: writeActs (t + 1) vs

theorem compressLoop_eq {inp : InPolicy V} {value : List V} {n : Nat} (hv : value.length = n)
    (hp : PolicyFor inp n) (idxs : List Nat) (hi : ∀ i ∈ idxs, i < n) (t : Nat) :
    compressLoop inp value idxs t = some (writeActs t (validAt inp value idxs),
      t + (validAt inp value idxs).length) := by
  classical
  induction idxs generalizing t with
  | nil => simp [compressLoop, validAt, writeActs]
  | cons i is ih =>
    have hin : i < n := hi i (by simp)
    obtain ⟨b, hb, hnd⟩ := isNoData_spec hp hv hin
    have ih' := fun t => ih (fun j hj => hi j (by simp [hj])) t
    have hiv : value[i]? = some (value[i]'(by omega)) := by simp
    unfold compressLoop
    cases b with
    | true =>
      have h : NoDataAt inp value i := hnd.mp rfl
      have e : validAt inp value (i :: is) = validAt inp value is := by simp [validAt, h]
      rw [e]
      simp [hb, ih']
    | false =>
      have h : ¬ NoDataAt inp value i := fun h => by simpa using hnd.mpr h
      have e : validAt inp value (i :: is) = (value[i]'(by omega)) :: validAt inp value is := by
        simp [validAt, h, hiv]
      rw [e]
      simp only [hb, Option.bind_eq_bind, Option.bind_some, Bool.not_false, if_true, hiv, ih',
        writeActs, List.length_cons]
      congr 2
      omega

/-- Replace the elements from position `t` on by those of `ks`. -/
def splice (t : Nat) (ks s : List V) : List V := s.take t ++ ks ++ s.drop (t + ks.length)

theorem runActs_append (a b : List (Act V)) (s : List V) :
    runActs (a ++ b) s = (runActs a s).bind (runActs b) := by
  unfold runActs
  rw [forIn'_append]

theorem runActs_writeActs (t : Nat) (ks s : List V) (h : t + ks.length ≤ s.length) :
    runActs (writeActs t ks) s = some (splice t ks s) := by
  induction ks generalizing t s with
  | nil => simp [writeActs, runActs, forIn', splice]
  | cons k ks ih =>
    simp only [List.length_cons] at h
    unfold writeActs runActs
    rw [forIn'_cons]
    have ht : t < s.length := by omega
    rw [modifyAt_eq_some ht, Option.bind_some]
    have := ih (t + 1) (s.modify t (fun _ => k)) (by simp; omega)
    unfold runActs at this
    rw [this]
    congr 1
    unfold splice
    apply List.ext_getElem
    · simp; omega
    · intro i h1 h2
      simp only [List.append_assoc, List.getElem_append, List.getElem_take, List.getElem_drop,
        List.length_take, List.getElem_modify, List.length_modify, List.getElem_cons, List.length_cons]
      split_ifs <;> first | omega | rfl | (congr 1; omega) | skip
      all_goals first | omega | (congr 1; omega)

theorem splice_length {t : Nat} {ks s : List V} (h : t + ks.length ≤ s.length) :
    (splice t ks s).length = s.length := by
  simp [splice]; omega

theorem copyInPlace_eq (k src dst : Nat) (s : List V) (h1 : dst ≤ src) (h2 : src + k ≤ s.length) :
    copyInPlace k src dst s = some (splice dst ((s.drop src).take k) s) := by
  induction k generalizing src dst s with
  | zero => simp [copyInPlace, splice]
  | succ k ih =>
    have hs : src < s.length := by omega
    have hd : dst < s.length := by omega
    simp only [copyInPlace, Option.bind_eq_bind]
    rw [List.getElem?_eq_getElem hs, Option.bind_some, modifyAt_eq_some hd, Option.bind_some,
      ih _ _ _ (by omega) (by simp; omega)]
    congr 1
    unfold splice
    apply List.ext_getElem
    · simp; omega
    · intro i h1 h2
      simp only [List.append_assoc, List.getElem_append, List.getElem_take, List.getElem_drop,
        List.length_take, List.getElem_modify, List.length_modify, List.length_drop]
      split_ifs <;> first | omega | rfl | (congr 1; omega) | skip

theorem splice_getElem? {t : Nat} {ks s : List V} (h : t + ks.length ≤ s.length) (i : Nat) :
    (splice t ks s)[i]? =
      if i < t then s[i]? else if i < t + ks.length then ks[i - t]? else s[i]? := by
  unfold splice
  simp only [List.append_assoc, List.getElem?_append, List.length_take, List.getElem?_take,
    List.getElem?_drop]
  have : min t s.length = t := by omega
  rw [this]
  split_ifs <;> first | rfl | omega | (congr 1; omega)

/-- The values `ks` are found at position `p`. -/
def Has (s : List V) (p : Nat) (ks : List V) : Prop := ∀ j < ks.length, s[p + j]? = ks[j]?

theorem Has.take {s ks : List V} (h : Has s 0 ks) (hl : ks.length ≤ s.length) :
    s.take ks.length = ks := by
  apply List.ext_getElem?
  intro i
  by_cases hi : i < ks.length
  · rw [List.getElem?_take, if_pos hi, ← h i hi, Nat.zero_add]
  · rw [List.getElem?_take, if_neg hi, List.getElem?_eq_none (by omega)]

/-- Blocks that lie side by side from `a` up to `e`. -/
def GoodBlocks (a e : Nat) : List CompressBlock → Prop
  | [] => a = e
  | b :: bs => b.initial = a ∧ b.idxs = List.range' a b.size ∧ GoodBlocks (a + b.size) e bs

theorem GoodBlocks.le {a e : Nat} {bs : List CompressBlock} (h : GoodBlocks a e bs) : a ≤ e := by
  induction bs generalizing a with
  | nil => exact Nat.le_of_eq h
  | cons b bs ih => have := ih h.2.2; omega

theorem GoodBlocks.bounds {a e : Nat} {bs : List CompressBlock} (h : GoodBlocks a e bs) :
    ∀ b ∈ bs, a ≤ b.initial ∧ b.initial + b.size ≤ e ∧ b.idxs = List.range' b.initial b.size := by
  induction bs generalizing a with
  | nil => simp
  | cons b bs ih =>
    obtain ⟨h1, h2, h3⟩ := h
    intro c hc
    rcases List.mem_cons.mp hc with rfl | hc
    · exact ⟨by omega, by have := h3.le; omega, by rw [h1, h2]⟩
    · obtain ⟨k1, k2, k3⟩ := ih h3 c hc
      exact ⟨by omega, k2, k3⟩

theorem GoodBlocks.flatten {a e : Nat} {bs : List CompressBlock} (h : GoodBlocks a e bs) :
    bs.flatMap CompressBlock.idxs = List.range' a (e - a) := by
  induction bs generalizing a with
  | nil => simp only [GoodBlocks] at h; subst h; simp
  | cons b bs ih =>
    have hle := h.2.2.le
    rw [List.flatMap_cons, ih h.2.2, h.2.1, List.range'_append_1]
    congr 1
    omega

theorem validAt_append (inp : InPolicy V) (value : List V) (a b : List Nat) :
    validAt inp value (a ++ b) = validAt inp value a ++ validAt inp value b := by
  simp [validAt]

theorem validAt_flatMap (inp : InPolicy V) (value : List V) (bs : List CompressBlock) :
    validAt inp value (bs.flatMap CompressBlock.idxs) =
      bs.flatMap (fun b => validAt inp value b.idxs) := by
  induction bs with
  | nil => simp [validAt]
  | cons b bs ih => rw [List.flatMap_cons, validAt_append, ih, List.flatMap_cons]

theorem validAt_length_le (inp : InPolicy V) (value : List V) (l : List Nat) :
    (validAt inp value l).length ≤ l.length := by
  unfold validAt
  exact le_trans (List.length_filterMap_le _ _) (List.length_filter_le _ _)

theorem writeActs_idx {t : Nat} {ks : List V} {a : Act V} (h : a ∈ writeActs t ks) :
    t ≤ a.idx ∧ a.idx < t + ks.length := by
  induction ks generalizing t with
  | nil => simp [writeActs] at h
  | cons k ks ih =>
    rcases List.mem_cons.mp h with rfl | h
    · simp
    · have := ih h
      simp only [List.length_cons]
      omega

section Blocks

variable (inp : InPolicy V) (value : List V)

theorem compressTask_eq {n : Nat} (hv : value.length = n) (hp : PolicyFor inp n)
    (b : CompressBlock) (hi : ∀ i ∈ b.idxs, i < n) :
    compressTask inp value b = some (writeActs b.initial (validAt inp value b.idxs),
      (validAt inp value b.idxs).length) := by
  unfold compressTask
  rw [compressLoop_eq hv hp _ hi]
  simp

theorem compressTasks_eq {n : Nat} (hv : value.length = n) (hp : PolicyFor inp n)
    (bs : List CompressBlock) (hi : ∀ b ∈ bs, ∀ i ∈ b.idxs, i < n) :
    bs.mapM (compressTask inp value) = some (bs.map (fun b =>
      (writeActs b.initial (validAt inp value b.idxs), (validAt inp value b.idxs).length))) := by
  induction bs with
  | nil => rfl
  | cons b bs ih =>
    rw [List.mapM_cons, compressTask_eq inp value hv hp b (hi b (by simp)),
      ih (fun c hc => hi c (by simp [hc]))]
    rfl

theorem blocks_run {a e : Nat} {bs : List CompressBlock} (h : GoodBlocks a e bs) (s : List V)
    (hs : e ≤ s.length) :
    ∃ out, runActs (bs.map (fun b => writeActs b.initial (validAt inp value b.idxs))).flatten s =
        some out ∧ out.length = s.length ∧ (∀ i < a, out[i]? = s[i]?) ∧
        ∀ b ∈ bs, Has out b.initial (validAt inp value b.idxs) := by
  induction bs generalizing a s with
  | nil => exact ⟨s, rfl, rfl, fun _ _ => rfl, by simp⟩
  | cons b bs ih =>
    obtain ⟨h1, h2, h3⟩ := h
    have hle := h3.le
    have hlen : (validAt inp value b.idxs).length ≤ b.size := by
      have := validAt_length_le inp value b.idxs
      rw [h2] at this ⊢
      simpa using this
    have hfit : b.initial + (validAt inp value b.idxs).length ≤ s.length := by omega
    obtain ⟨out, ho, hol, hpre, hhas⟩ := ih h3 (splice b.initial (validAt inp value b.idxs) s)
      (by rw [splice_length hfit]; exact hs)
    refine ⟨out, ?_, by rw [hol, splice_length hfit], fun i hi => ?_, ?_⟩
    · rw [List.map_cons, List.flatten_cons, runActs_append, runActs_writeActs _ _ _ hfit,
        Option.bind_some, ho]
    · rw [hpre i (by omega), splice_getElem? hfit, if_pos (by omega)]
    · intro c hc
      rcases List.mem_cons.mp hc with rfl | hc
      · intro j hj
        rw [hpre _ (by omega), splice_getElem? hfit, if_neg (by omega), if_pos (by omega)]
        congr 1
        omega
      · exact hhas c hc

theorem blocks_disjoint {a e : Nat} {bs : List CompressBlock} (h : GoodBlocks a e bs) :
    DisjointTasks (bs.map (fun b => writeActs b.initial (validAt inp value b.idxs))) := by
  unfold DisjointTasks
  induction bs generalizing a with
  | nil => simp
  | cons b bs ih =>
    rw [List.map_cons, List.pairwise_cons]
    refine ⟨?_, ih h.2.2⟩
    intro u hu x hx y hy
    obtain ⟨c, hc, rfl⟩ := List.mem_map.mp hu
    have hx := writeActs_idx hx
    have hy := writeActs_idx hy
    have hb := h.2.2.bounds c hc
    have hlen := validAt_length_le inp value b.idxs
    rw [h.2.1] at hlen hx
    simp only [List.length_range'] at hlen
    have h1 := h.1
    omega

theorem copyRegional_run {a e : Nat} {bs : List CompressBlock} (h : GoodBlocks a e bs)
    (s : List V) (hs : e ≤ s.length) (target : Nat) (ht : target ≤ a)
    (hhas : ∀ b ∈ bs, Has s b.initial (validAt inp value b.idxs)) :
    ∃ out, copyRegional (bs.zip (bs.map (fun b => (validAt inp value b.idxs).length))) a target s =
        some (out, target + (bs.flatMap (fun b => validAt inp value b.idxs)).length) ∧
      out.length = s.length ∧ (∀ i < target, out[i]? = s[i]?) ∧
      Has out target (bs.flatMap (fun b => validAt inp value b.idxs)) := by
  induction bs generalizing a s target with
  | nil => exact ⟨s, by simp [copyRegional], rfl, fun _ _ => rfl, by simp [Has]⟩
  | cons b bs ih =>
    obtain ⟨h1, h2, h3⟩ := h
    have hle := h3.le
    have hlen : (validAt inp value b.idxs).length ≤ b.size := by
      have := validAt_length_le inp value b.idxs
      rw [h2] at this ⊢
      simpa using this
    have hcl : ((s.drop a).take b.size).length = b.size := by simp; omega
    have hfit : target + ((s.drop a).take b.size).length ≤ s.length := by omega
    have hb := hhas b (by simp)
    have hget : ∀ j < (validAt inp value b.idxs).length,
        (splice target ((s.drop a).take b.size) s)[target + j]? =
          (validAt inp value b.idxs)[j]? := by
      intro j hj
      rw [splice_getElem? hfit, if_neg (by omega), if_pos (by omega), List.getElem?_take,
        if_pos (by omega), List.getElem?_drop, ← hb j hj]
      congr 1
      omega
    obtain ⟨out, ho, hol, hpre, hh⟩ := ih h3 (splice target ((s.drop a).take b.size) s)
      (by rw [splice_length hfit]; exact hs) (target + (validAt inp value b.idxs).length)
      (by omega) (by
        intro c hc j hj
        have hcb := h3.bounds c hc
        rw [splice_getElem? hfit, if_neg (by omega), if_neg (by omega)]
        exact hhas c (by simp [hc]) j hj)
    refine ⟨out, ?_, by rw [hol, splice_length hfit], fun i hi => ?_, ?_⟩
    · rw [List.map_cons, List.zip_cons_cons, copyRegional, copyInPlace_eq _ _ _ _ ht (by omega)]
      simp only [assert', hlen, decide_true, if_true, Option.bind_eq_bind, Option.bind_some]
      rw [ho, List.flatMap_cons, List.length_append, Nat.add_assoc]
    · rw [hpre i (by omega), splice_getElem? hfit, if_pos hi]
    · intro j hj
      rw [List.flatMap_cons, List.getElem?_append]
      split
      · next hj' => rw [hpre _ (by omega), hget j hj']
      · next hj' =>
        rw [List.flatMap_cons, List.length_append] at hj
        rw [← hh (j - (validAt inp value b.idxs).length) (by omega)]
        congr 1
        omega

/-- All outcomes of a parallel compress. -/
theorem compressPar_spec {n : Nat} (hv : value.length = n) (hp : PolicyFor inp n)
    {bs : List CompressBlock} (h : GoodBlocks 0 n bs) (result : List V) (hr : result.length = n) :
    ∃ out, (∀ o, CompressPar inp value (some bs) result o ↔
        o = some (out, (validValues inp value).length)) ∧
      out.length = result.length ∧
      out.take (validValues inp value).length = validValues inp value := by
  have hidx : ∀ b ∈ bs, ∀ i ∈ b.idxs, i < n := by
    intro b hb i hi
    obtain ⟨k1, k2, k3⟩ := h.bounds b hb
    rw [k3, List.mem_range'_1] at hi
    omega
  obtain ⟨s, hs, hsl, _, hhas⟩ := blocks_run inp value h result (by omega)
  obtain ⟨out, ho, hol, _, hout⟩ := copyRegional_run inp value h s (by omega) 0 (Nat.le_refl _) hhas
  have hvv : bs.flatMap (fun b => validAt inp value b.idxs) = validValues inp value := by
    rw [← validAt_flatMap, h.flatten, validValues, hv, List.range_eq_range']
    rfl
  rw [hvv, Nat.zero_add] at ho
  rw [hvv] at hout
  refine ⟨out, fun o => ?_, by omega, hout.take ?_⟩
  · have hpar : ∀ r, ParResult (some (bs.map (fun b =>
        writeActs b.initial (validAt inp value b.idxs)))) result r ↔ r = some s := by
      apply parResult_iff
      rintro r ⟨l, hl, hrun⟩
      rw [← hrun, interleave_runActs hl (blocks_disjoint inp value h), hs]
      intro t ht a ha
      obtain ⟨b, hb, rfl⟩ := List.mem_map.mp ht
      have := writeActs_idx ha
      obtain ⟨k1, k2, k3⟩ := h.bounds b hb
      have hlen := validAt_length_le inp value b.idxs
      rw [k3] at hlen this
      simp only [List.length_range'] at hlen
      omega
    unfold CompressPar
    rw [Option.bind_some, compressTasks_eq inp value hv hp bs hidx]
    simp only [Option.map_some, List.map_map]
    constructor
    · rintro ⟨r, hr', rfl⟩
      have := (hpar r).mp hr'
      subst this
      exact ho
    · rintro rfl
      exact ⟨some s, (hpar _).mpr rfl, ho.symm⟩
  · have := validAt_length_le inp value (List.range value.length)
    simp only [List.length_range] at this
    unfold validValues
    omega

theorem compressSeq_spec {n : Nat} (hv : value.length = n) (hp : PolicyFor inp n)
    (b : CompressBlock) (h0 : b.initial = 0) (hb : b.idxs = List.range n) (result : List V)
    (hr : n ≤ result.length) :
    compressSeq inp value b result =
      some (validValues inp value ++ result.drop (validValues inp value).length,
        (validValues inp value).length) := by
  have hvv : validAt inp value b.idxs = validValues inp value := by rw [hb, validValues, hv]
  have hlen := validAt_length_le inp value b.idxs
  rw [hvv, hb, List.length_range] at hlen
  unfold compressSeq
  rw [compressTask_eq inp value hv hp b (by rw [hb]; simp), hvv, h0]
  simp only [Option.bind_eq_bind, Option.bind_some]
  rw [runActs_writeActs _ _ _ (by omega)]
  simp [splice]

end Blocks

theorem goodBlocks_1d {a e : Nat} {l : List IndexRange} (h : Consecutive a e l) :
    GoodBlocks a e (l.map compressBlock1d) := by
  induction l generalizing a with
  | nil => exact h
  | cons r rs ih =>
    obtain ⟨h1, h2, h3⟩ := h
    refine ⟨h1, ?_, ?_⟩
    · simp only [compressBlock1d, IndexRange.indices, IndexRange.size, h1]
    · have : a + (compressBlock1d r).size = r.e := by
        simp only [compressBlock1d, IndexRange.size]; omega
      rw [this]
      exact ih h3

theorem goodBlocks_2d {a e n2 : Nat} {l : List IndexRange} (h : Consecutive a e l) :
    GoodBlocks (a * n2) (e * n2)
      (l.map (fun r => compressBlock2d n2 ⟨r, ⟨0, n2⟩⟩)) := by
  induction l generalizing a with
  | nil => simp only [Consecutive] at h; subst h; rfl
  | cons r rs ih =>
    obtain ⟨h1, h2, h3⟩ := h
    have hsz : (compressBlock2d n2 ⟨r, ⟨0, n2⟩⟩).size = (r.e - r.b) * n2 := by
      simp [compressBlock2d, IndexRanges2.size, IndexRange.size]
    refine ⟨?_, ?_, ?_⟩
    · simp [compressBlock2d, h1]
    · simp only [hsz]
      simp only [compressBlock2d, cells2d_band, h1]
    · have : a * n2 + (compressBlock2d n2 ⟨r, ⟨0, n2⟩⟩).size = r.e * n2 := by
        rw [hsz, ← Nat.add_mul]; congr 1; omega
      rw [this]
      exact ih h3

end Fern
