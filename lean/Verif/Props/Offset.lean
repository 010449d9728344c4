import Verif.Lemmas.Offset
/-
Properties C21 (shifting an array), C22 (in parallel) and C23 (type of the offset).
-/
namespace Fern

open Spec

variable {V : Type}

theorem offset_elementwise {inp : InPolicy V} {outp : OutPolicy V} {fill : Option V} {value : List V}
    {src src' : Nat → Nat → Prop} (hu : SrcUnique src) (hp : PolicyFor inp value.length)
    (hb : ∀ d s, src d s → s < value.length) {res : List (Cell V)}
    (hsrc : ∀ d < res.length, ∀ s, src d s ↔ src' d s) :
    Elementwise (fun d => OffsetCell inp outp fill value (src' d)) res
      (res.mapIdx (shiftFn inp outp fill value src)) := by
  refine ⟨by simp, fun d c hc => ⟨_, by simp only [List.getElem?_mapIdx, hc]; rfl, ?_⟩⟩
  have hd : d < res.length := (List.getElem?_eq_some_iff.mp hc).1
  have he : src d = src' d := funext fun s => propext (hsrc d hd s)
  beta_reduce
  rw [← he]
  exact shiftFn_cell hu hp (hb d) c

theorem runActs_append_cells (l l' : List (Act (Cell V))) (s : List (Cell V)) :
    runActs (l ++ l') s = (runActs l s).bind (runActs l') := forIn'_append l l' _ s

/-- What the 1D version does, for a non-empty array: sequential result, tasks. -/
theorem offset1d_main (t w : Nat) (ht : 1 ≤ t) (hw : 1 ≤ w) (inp : InPolicy V)
    (outp : OutPolicy V) (value : List V) (o : Int) (fill : Option V) (res : List (Cell V))
    (hpos : value.length ≠ 0) (hsize : res.length = value.length)
    (hn : value.length < 2 ^ (w - 1)) (ho : OffsetOfType w o) (hp : PolicyFor inp value.length) :
    offset1dSeq w inp outp value o fill res = some (res.mapIdx (shiftFn inp outp fill value
      (fun d s => Shifted1 value.length o d s ∧ d < value.length))) ∧
    ∃ copies i, offset1dTasks t w inp outp value o fill res = some (copies ++ [i]) ∧
      (∀ l, Interleave (copies ++ [i]) l → runActs l res = some (res.mapIdx
        (shiftFn inp outp fill value (fun d s => Shifted1 value.length o d s ∧ d < value.length)))) ∧
      (∀ p q (hp : p < (copies ++ [i]).length) (hq : q < (copies ++ [i]).length), p ≠ q →
        ∀ a ∈ (copies ++ [i])[p], ∀ b ∈ (copies ++ [i])[q], a.idx ≠ b.idx) ∧
      ∀ d < res.length, ∃ task ∈ copies ++ [i], ∃ a ∈ task, a.idx = d := by
  have hu : SrcUnique (fun d s => Shifted1 value.length o d s ∧ d < value.length) :=
    fun d s s' h h' => shifted1_unique _ _ d s s' h.1 h'.1
  have hsz : (if fill.isSome then res.length else value.length) = value.length := by
    rw [hsize, ite_self]
  obtain ⟨i, hi, hit⟩ := offsetInit1d_task outp fill o hw hn
  rw [← hsize] at hit
  constructor
  · obtain ⟨c, hc, hct⟩ := offsetCopy1d_task (r := ⟨0, value.length⟩) outp hw hn ho hp
      (by simp only; omega) (le_refl _)
    simp only [offset1dSeq, if_neg hpos, hc, hsz, hi, Option.bind_eq_bind, Option.bind_some]
    rw [← runActs_append_cells]
    rw [hsize] at hit
    refine run_tasks (blocks := [fun s => 0 ≤ s ∧ s < value.length]) (copies := [c]) hu ?_
      (.cons hct .nil) ?_ (i := i) (by rw [hsize]; exact hit) (by simp)
    · rintro d s ⟨_, h⟩; omega
    · rintro d s ⟨⟨h, _⟩, _⟩; exact ⟨_, List.mem_singleton.mpr rfl, by omega, h⟩
  · obtain ⟨l, hl, hcons⟩ := indexRanges_consecutive ht value.length
    have hall : ∀ r ∈ l, ∃ c, offsetCopy1d w inp outp value o r = some c ∧
        CopyTask inp outp value (fun d s => Shifted1 value.length o d s ∧ d < value.length)
          (fun s => r.b ≤ s ∧ s < r.e) c := by
      intro r hr
      obtain ⟨k, hk, rfl⟩ := List.getElem_of_mem hr
      have hb := hcons.bounds k hk
      exact offsetCopy1d_task outp hw hn ho hp hb.2.1 hb.2.2
    obtain ⟨copies, hcopies, hf⟩ := mapM_exists hall
    have hf' : List.Forall₂ (CopyTask inp outp value
        (fun d s => Shifted1 value.length o d s ∧ d < value.length))
        (l.map (fun (r : IndexRange) (s : Nat) => r.b ≤ s ∧ s < r.e)) copies := by
      rw [List.forall₂_map_left_iff]; exact hf
    rw [hsize] at hit
    have hcov : ∀ d s, (Shifted1 value.length o d s ∧ d < value.length) →
        ∃ b ∈ l.map (fun (r : IndexRange) (s : Nat) => r.b ≤ s ∧ s < r.e), b s := by
      rintro d s ⟨⟨h, _⟩, _⟩
      obtain ⟨k, hk, hin, _⟩ := hcons.exactCover s (Nat.zero_le _) h
      exact ⟨_, List.mem_map.mpr ⟨l[k], List.getElem_mem hk, rfl⟩, hin.1, hin.2⟩
    refine ⟨copies, i, ?_, ?_, ?_⟩
    · simp only [offset1dTasks, if_neg hpos, hl, hcopies, hsz, hi, Option.bind_eq_bind,
        Option.bind_some]
    · intro il hil
      refine run_tasks hu ?_ hf' hcov (by rw [hsize]; exact hit) hil.perm
      rintro d s ⟨_, h⟩; omega
    · refine ⟨disjoint_tasks hu hf' ?_ hit, tasks_cover hf' hcov (by rw [hsize]; exact hit)⟩
      intro p q hp' hq' hpq s hs hs'
      simp only [List.length_map] at hp' hq'
      simp only [List.getElem_map] at hs hs'
      have hsn : s < value.length := by
        have := (hcons.bounds p hp').2.2; omega
      obtain ⟨k, hk, _, huniq⟩ := hcons.exactCover s (Nat.zero_le _) hsn
      have e1 := huniq p hp' ⟨hs.1, hs.2⟩
      have e2 := huniq q hq' ⟨hs'.1, hs'.2⟩
      omega

/-- **C21, 1D** (`fill = none`: no-data in elements without source; `fill = some v`: fill value):
each element of the result gets the value of the element `o` positions before it. Proved for extents
that fit the type of the offset (C23). -/
theorem C21_offset_1d (w : Nat) (hw : 1 ≤ w) (inp : InPolicy V) (outp : OutPolicy V)
    (value : List V) (o : Int) (fill : Option V) (res : List (Cell V))
    (hsize : res.length = value.length) (hn : value.length < 2 ^ (w - 1)) (ho : OffsetOfType w o)
    (hp : PolicyFor inp value.length) :
    ∃ out, offset1dSeq w inp outp value o fill res = some out ∧
      Elementwise (fun d => OffsetCell inp outp fill value (Shifted1 value.length o d)) res out := by
  by_cases hpos : value.length = 0
  · refine ⟨res, by simp [offset1dSeq, hpos], rfl, fun d c hc => ?_⟩
    have := (List.getElem?_eq_some_iff.mp hc).1
    omega
  · refine ⟨_, (offset1d_main 1 w (le_refl _) hw inp outp value o fill res hpos hsize hn ho hp).1, ?_⟩
    refine offset_elementwise (fun d s s' h h' => shifted1_unique _ _ d s s' h.1 h'.1) hp ?_ ?_
    · rintro d s ⟨⟨h, _⟩, _⟩; exact h
    · intro d hd s
      constructor
      · exact fun h => h.1
      · exact fun h => ⟨h, by omega⟩

/-- C21: an offset of at least the array's extent, in either direction, leaves no element of the
array. -/
theorem C21_offset_1d_beyond (w : Nat) (hw : 1 ≤ w) (inp : InPolicy V) (outp : OutPolicy V)
    (value : List V) (o : Int) (fill : Option V) (res : List (Cell V))
    (hsize : res.length = value.length) (hn : value.length < 2 ^ (w - 1)) (ho : OffsetOfType w o)
    (hp : PolicyFor inp value.length) (hbeyond : value.length ≤ o.natAbs) :
    ∃ out, offset1dSeq w inp outp value o fill res = some out ∧
      Elementwise (fun _ => Initialised outp fill) res out := by
  obtain ⟨out, h1, h2, h3⟩ := C21_offset_1d w hw inp outp value o fill res hsize hn ho hp
  refine ⟨out, h1, h2, fun d c hc => ?_⟩
  obtain ⟨c', hc', hcell⟩ := h3 d c hc
  refine ⟨c', hc', hcell.2 ?_⟩
  rintro s ⟨hs1, hs2⟩
  have := (List.getElem?_eq_some_iff.mp hc).1
  omega

/-- **C22, 1D**: every schedule of the parallel version gives the sequential result. -/
theorem C22_offset_1d_parallel (t w : Nat) (ht : 1 ≤ t) (hw : 1 ≤ w) (inp : InPolicy V)
    (outp : OutPolicy V) (value : List V) (o : Int) (fill : Option V) (res : List (Cell V))
    (hsize : res.length = value.length) (hn : value.length < 2 ^ (w - 1)) (ho : OffsetOfType w o)
    (hp : PolicyFor inp value.length) (out : Option (List (Cell V))) :
    ParResult (offset1dTasks t w inp outp value o fill res) res out ↔
      out = offset1dSeq w inp outp value o fill res := by
  apply parResult_iff
  intro out hout
  by_cases hpos : value.length = 0
  · simp only [offset1dTasks, offset1dSeq, if_pos hpos] at hout ⊢
    obtain ⟨l, hl, rfl⟩ := hout
    have := hl.perm
    simp only [List.flatten_nil, List.perm_nil] at this
    subst this
    rfl
  · obtain ⟨hseq, copies, i, htasks, hrun, _, _⟩ :=
      offset1d_main t w ht hw inp outp value o fill res hpos hsize hn ho hp
    rw [htasks] at hout
    obtain ⟨l, hl, rfl⟩ := hout
    rw [hrun l hl, hseq]

/-- **C22, 1D**: no two tasks (block copies, initialisation) write the same element, and together they write all of
them. -/
theorem C22_offset_1d_disjoint (t w : Nat) (ht : 1 ≤ t) (hw : 1 ≤ w) (inp : InPolicy V)
    (outp : OutPolicy V) (value : List V) (o : Int) (fill : Option V) (res : List (Cell V))
    (hpos : value.length ≠ 0) (hsize : res.length = value.length)
    (hn : value.length < 2 ^ (w - 1)) (ho : OffsetOfType w o) (hp : PolicyFor inp value.length) :
    ∃ tasks, offset1dTasks t w inp outp value o fill res = some tasks ∧
      (∀ p q (hp : p < tasks.length) (hq : q < tasks.length), p ≠ q →
        ∀ a ∈ tasks[p], ∀ b ∈ tasks[q], a.idx ≠ b.idx) ∧
      ∀ d < value.length, ∃ task ∈ tasks, ∃ a ∈ task, a.idx = d := by
  obtain ⟨_, copies, i, htasks, _, hdis, hcov⟩ :=
    offset1d_main t w ht hw inp outp value o fill res hpos hsize hn ho hp
  exact ⟨_, htasks, hdis, by rwa [hsize] at hcov⟩

/-! ### 2D -/

theorem offset2d_main (t w : Nat) (ht : 1 ≤ t) (hw : 1 ≤ w) (inp : InPolicy V)
    (outp : OutPolicy V) (n1 n2 : Nat) (value : List V) (o1 o2 : Int) (fill : Option V)
    (res : List (Cell V)) (hpos : n1 * n2 ≠ 0) (hv : value.length = n1 * n2)
    (hsize : res.length = n1 * n2) (hn1 : n1 < 2 ^ (w - 1)) (hn2 : n2 < 2 ^ (w - 1))
    (ho1 : OffsetOfType w o1) (ho2 : OffsetOfType w o2) (hp : PolicyFor inp value.length) :
    offset2dSeq w inp outp n1 n2 value o1 o2 fill res =
      some (res.mapIdx (shiftFn inp outp fill value (src2 n1 n2 o1 o2))) ∧
    ∃ copies i, offset2dTasks t w inp outp n1 n2 value o1 o2 fill = some (copies ++ [i]) ∧
      (∀ l, Interleave (copies ++ [i]) l → runActs l res =
        some (res.mapIdx (shiftFn inp outp fill value (src2 n1 n2 o1 o2)))) ∧
      (∀ p q (hp : p < (copies ++ [i]).length) (hq : q < (copies ++ [i]).length), p ≠ q →
        ∀ a ∈ (copies ++ [i])[p], ∀ b ∈ (copies ++ [i])[q], a.idx ≠ b.idx) ∧
      ∀ d < res.length, ∃ task ∈ copies ++ [i], ∃ a ∈ task, a.idx = d := by
  have hu := src2_unique n1 n2 o1 o2
  have h1 : 0 < n1 := Nat.pos_of_ne_zero (fun h => hpos (by simp [h]))
  have h2 : 0 < n2 := Nat.pos_of_ne_zero (fun h => hpos (by simp [h]))
  obtain ⟨i, hi, hit⟩ := offsetInit2d_task outp fill o1 o2 hw hn1 hn2
  constructor
  · obtain ⟨c, hc, hct⟩ := offsetCopy2d_task (r := ⟨0, n1⟩) outp hw hv hn1 hn2 ho1 ho2 hp h1
      (le_refl _) h2
    simp only [offset2dSeq, if_neg hpos, hc, hi, Option.bind_eq_bind, Option.bind_some]
    rw [← runActs_append_cells]
    refine run_tasks (blocks := [fun s => ∃ i c, c < n2 ∧ s = i * n2 + c ∧ 0 ≤ i ∧ i < n1])
      (copies := [c]) hu ?_ (.cons hct .nil) ?_ (i := i) (by rw [hsize]; exact hit) (by simp)
    · rintro d s ⟨_, h⟩; omega
    · rintro d s ⟨⟨r, c, r', c', _, _, hc', hs, hr', _⟩, _⟩
      exact ⟨_, List.mem_singleton.mpr rfl, r', c', hc', hs, by omega, hr'.1⟩
  · obtain ⟨l, hl, hcons⟩ := indexRanges_consecutive ht n1
    have hl2 : indexRanges2 t n1 n2 = some (l.map (fun r => ⟨r, ⟨0, n2⟩⟩)) := by
      rw [indexRanges2_eq, hl]; rfl
    have hall : ∀ r ∈ l, ∃ c, offsetCopy2d w inp outp n1 n2 value o1 o2 ⟨r, ⟨0, n2⟩⟩ = some c ∧
        CopyTask inp outp value (src2 n1 n2 o1 o2)
          (fun s => ∃ i c, c < n2 ∧ s = i * n2 + c ∧ r.b ≤ i ∧ i < r.e) c := by
      intro r hr
      obtain ⟨k, hk, rfl⟩ := List.getElem_of_mem hr
      have hb := hcons.bounds k hk
      exact offsetCopy2d_task outp hw hv hn1 hn2 ho1 ho2 hp hb.2.1 hb.2.2 h2
    obtain ⟨copies, hcopies, hf⟩ := mapM_exists hall
    have hf' : List.Forall₂ (CopyTask inp outp value (src2 n1 n2 o1 o2))
        (l.map (fun (r : IndexRange) (s : Nat) =>
          ∃ i c, c < n2 ∧ s = i * n2 + c ∧ r.b ≤ i ∧ i < r.e)) copies := by
      rw [List.forall₂_map_left_iff]; exact hf
    have hcov : ∀ d s, src2 n1 n2 o1 o2 d s →
        ∃ b ∈ l.map (fun (r : IndexRange) (s : Nat) =>
          ∃ i c, c < n2 ∧ s = i * n2 + c ∧ r.b ≤ i ∧ i < r.e), b s := by
      rintro d s ⟨⟨r, c, r', c', _, _, hc', hs, hr', _⟩, _⟩
      obtain ⟨k, hk, hin, _⟩ := hcons.exactCover r' (Nat.zero_le _) hr'.1
      exact ⟨_, List.mem_map.mpr ⟨l[k], List.getElem_mem hk, rfl⟩, r', c', hc', hs, hin.1, hin.2⟩
    refine ⟨copies, i, ?_, ?_, ?_⟩
    · simp only [offset2dTasks, if_neg hpos, hl2, List.mapM_map, Function.comp_def, hcopies, hi,
        Option.bind_eq_bind, Option.bind_some]
    · intro il hil
      refine run_tasks hu ?_ hf' hcov (by rw [hsize]; exact hit) hil.perm
      rintro d s ⟨_, h⟩; omega
    · refine ⟨disjoint_tasks hu hf' ?_ hit, tasks_cover hf' hcov (by rw [hsize]; exact hit)⟩
      intro p q hp' hq' hpq s hs hs'
      simp only [List.length_map] at hp' hq'
      simp only [List.getElem_map] at hs hs'
      obtain ⟨r, c, hc, hs, hr1, hr2⟩ := hs
      obtain ⟨r', c', hc', hs', hr1', hr2'⟩ := hs'
      obtain ⟨rfl, rfl⟩ := rowMajor_inj hc hc' (hs.symm.trans hs')
      have hsn : r < n1 := by
        have := (hcons.bounds p hp').2.2; omega
      obtain ⟨k, hk, _, huniq⟩ := hcons.exactCover r (Nat.zero_le _) hsn
      have e1 := huniq p hp' ⟨hr1, hr2⟩
      have e2 := huniq q hq' ⟨hr1', hr2'⟩
      omega

/-- **C21, 2D**: rows and columns are shifted independently. -/
theorem C21_offset_2d (w : Nat) (hw : 1 ≤ w) (inp : InPolicy V) (outp : OutPolicy V) (n1 n2 : Nat)
    (value : List V) (o1 o2 : Int) (fill : Option V) (res : List (Cell V))
    (hv : value.length = n1 * n2) (hsize : res.length = n1 * n2) (hn1 : n1 < 2 ^ (w - 1))
    (hn2 : n2 < 2 ^ (w - 1)) (ho1 : OffsetOfType w o1) (ho2 : OffsetOfType w o2)
    (hp : PolicyFor inp value.length) :
    ∃ out, offset2dSeq w inp outp n1 n2 value o1 o2 fill res = some out ∧
      Elementwise (fun d => OffsetCell inp outp fill value (Shifted2 n1 n2 o1 o2 d)) res out := by
  by_cases hpos : n1 * n2 = 0
  · refine ⟨res, by simp only [offset2dSeq, if_pos hpos], rfl, fun d c hc => ?_⟩
    have := (List.getElem?_eq_some_iff.mp hc).1
    omega
  · refine ⟨_, (offset2d_main 1 w (le_refl _) hw inp outp n1 n2 value o1 o2 fill res hpos hv hsize
      hn1 hn2 ho1 ho2 hp).1, ?_⟩
    refine offset_elementwise (src2_unique n1 n2 o1 o2) hp ?_ ?_
    · rintro d s ⟨⟨r, c, r', c', _, _, hc', hs, hr', _⟩, _⟩
      rw [hs, hv]
      exact rowMajor_lt hr'.1 hc'
    · intro d hd s
      constructor
      · exact fun h => h.1
      · exact fun h => ⟨h, by omega⟩

/-- C21, 2D: an offset of at least the number of rows or columns. -/
theorem C21_offset_2d_beyond (w : Nat) (hw : 1 ≤ w) (inp : InPolicy V) (outp : OutPolicy V)
    (n1 n2 : Nat) (value : List V) (o1 o2 : Int) (fill : Option V) (res : List (Cell V))
    (hv : value.length = n1 * n2) (hsize : res.length = n1 * n2) (hn1 : n1 < 2 ^ (w - 1))
    (hn2 : n2 < 2 ^ (w - 1)) (ho1 : OffsetOfType w o1) (ho2 : OffsetOfType w o2)
    (hp : PolicyFor inp value.length) (hbeyond : n1 ≤ o1.natAbs ∨ n2 ≤ o2.natAbs) :
    ∃ out, offset2dSeq w inp outp n1 n2 value o1 o2 fill res = some out ∧
      Elementwise (fun _ => Initialised outp fill) res out := by
  obtain ⟨out, h1, h2, h3⟩ :=
    C21_offset_2d w hw inp outp n1 n2 value o1 o2 fill res hv hsize hn1 hn2 ho1 ho2 hp
  refine ⟨out, h1, h2, fun d c hc => ?_⟩
  obtain ⟨c', hc', hcell⟩ := h3 d c hc
  refine ⟨c', hc', hcell.2 ?_⟩
  rintro s ⟨x, y, x', y', hy, hd, hy', hs', ⟨h11, h12⟩, ⟨h21, h22⟩⟩
  have hdl := (List.getElem?_eq_some_iff.mp hc).1
  rw [hsize, hd] at hdl
  have := rowMajor_lt_row hdl
  omega

/-- **C22, 2D**: every schedule of the parallel version gives the sequential result. -/
theorem C22_offset_2d_parallel (t w : Nat) (ht : 1 ≤ t) (hw : 1 ≤ w) (inp : InPolicy V)
    (outp : OutPolicy V) (n1 n2 : Nat) (value : List V) (o1 o2 : Int) (fill : Option V)
    (res : List (Cell V)) (hv : value.length = n1 * n2) (hsize : res.length = n1 * n2)
    (hn1 : n1 < 2 ^ (w - 1)) (hn2 : n2 < 2 ^ (w - 1)) (ho1 : OffsetOfType w o1)
    (ho2 : OffsetOfType w o2) (hp : PolicyFor inp value.length) (out : Option (List (Cell V))) :
    ParResult (offset2dTasks t w inp outp n1 n2 value o1 o2 fill) res out ↔
      out = offset2dSeq w inp outp n1 n2 value o1 o2 fill res := by
  apply parResult_iff
  intro out hout
  by_cases hpos : n1 * n2 = 0
  · simp only [offset2dTasks, offset2dSeq, if_pos hpos] at hout ⊢
    obtain ⟨l, hl, rfl⟩ := hout
    have := hl.perm
    simp only [List.flatten_nil, List.perm_nil] at this
    subst this
    rfl
  · obtain ⟨hseq, copies, i, htasks, hrun, _, _⟩ := offset2d_main t w ht hw inp outp n1 n2 value o1 o2
      fill res hpos hv hsize hn1 hn2 ho1 ho2 hp
    rw [htasks] at hout
    obtain ⟨l, hl, rfl⟩ := hout
    rw [hrun l hl, hseq]

/-- **C22, 2D**: no two tasks write the same element, and together they write all of
them. -/
theorem C22_offset_2d_disjoint (t w : Nat) (ht : 1 ≤ t) (hw : 1 ≤ w) (inp : InPolicy V)
    (outp : OutPolicy V) (n1 n2 : Nat) (value : List V) (o1 o2 : Int) (fill : Option V)
    (hpos : n1 * n2 ≠ 0) (hv : value.length = n1 * n2)
    (hn1 : n1 < 2 ^ (w - 1)) (hn2 : n2 < 2 ^ (w - 1)) (ho1 : OffsetOfType w o1)
    (ho2 : OffsetOfType w o2) (hp : PolicyFor inp value.length) (v : Cell V) :
    ∃ tasks, offset2dTasks t w inp outp n1 n2 value o1 o2 fill = some tasks ∧
      (∀ p q (hp : p < tasks.length) (hq : q < tasks.length), p ≠ q →
        ∀ a ∈ tasks[p], ∀ b ∈ tasks[q], a.idx ≠ b.idx) ∧
      ∀ d < n1 * n2, ∃ task ∈ tasks, ∃ a ∈ task, a.idx = d := by
  obtain ⟨_, copies, i, htasks, _, hdis, hcov⟩ := offset2d_main t w ht hw inp outp n1 n2 value o1 o2
    fill (List.replicate (n1 * n2) v) hpos hv (by simp) hn1 hn2 ho1 ho2 hp
  exact ⟨_, htasks, hdis, by simpa using hcov⟩

/-! ### C23 -/

/-- **C23**: if the extent is not representable in the offset's type and a positive offset is asked
for, the array is shifted by a negative number of elements and an element before the array is
written to. E.g. `w = 32` and an array of more than 2^31 elements. (That it works for extents that
are representable are C21 and C22.) -/
theorem C23_extent_not_representable (w : Nat) (hw : 1 ≤ w) (inp : InPolicy V) (outp : OutPolicy V)
    (value : List V) (o : Int) (fill : Option V) (res : List (Cell V)) (ho : 0 < o)
    (hn : 2 ^ (w - 1) < value.length) (hn' : value.length < 2 ^ w) :
    offset1dSeq w inp outp value o fill res = none := by
  have e : 2 ^ w = 2 * 2 ^ (w - 1) := by
    rw [← Nat.pow_succ']; congr 1; omega
  have hc : castOffset w value.length = value.length - (2 ^ w : Nat) := by
    unfold castOffset
    rw [Int.bmod_def, Int.emod_eq_of_lt (by omega) (by omega), if_neg (by omega)]
  have hmin : min o (castOffset w value.length) = value.length - (2 ^ w : Nat) := by
    rw [hc]; omega
  have habs : absSigned w ((value.length : Int) - (2 ^ w : Nat)) =
      some (2 ^ w - value.length) := by
    unfold absSigned
    rw [if_neg (by rw [← pow_cast]; omega)]
    congr 1
    omega
  have hcopy : offsetCopy1d w inp outp value o ⟨0, value.length⟩ = none := by
    have hr : rangeToCopy w ⟨0, value.length⟩ value.length o =
        some (⟨0, value.length - (2 ^ w - value.length)⟩, (value.length : Int) - (2 ^ w : Nat)) := by
      unfold rangeToCopy
      simp only [if_neg (show ¬ o ≤ 0 by omega), hmin, habs, Option.bind_eq_bind, Option.bind_some]
      have a1 : 2 ^ w - value.length ≤ value.length := by omega
      have a2 : 0 < value.length := by omega
      have a3 : value.length - (2 ^ w - value.length) ≤ value.length := by omega
      simp [assert', a1, a2, IndexRange.make]
    simp only [offsetCopy1d, hr, Option.bind_eq_bind, Option.bind_some]
    have hlen : value.length - (2 ^ w - value.length) =
        (value.length - (2 ^ w - value.length) - 1) + 1 := by omega
    unfold IndexRange.indices
    simp only [Nat.sub_zero]
    rw [hlen, List.range'_succ, List.mapM_cons]
    have hidx : toIndex ((0 : Nat) + ((value.length : Int) - (2 ^ w : Nat))) = none := by
      unfold toIndex; rw [if_neg]; omega
    simp only [hidx, Option.bind_eq_bind, Option.bind_none]
    cases copyAct inp outp value 0 <;> rfl
  have hpos : value.length ≠ 0 := by omega
  simp only [offset1dSeq, if_neg hpos, hcopy, Option.bind_eq_bind, Option.bind_none]

/-- C23: the hypotheses of the previous theorem are met, with an `int` offset of 1. -/
theorem C23_int_counterexample (res : List (Cell Nat)) :
    ∃ value : List Nat, value.length = 2 ^ 31 + 10 ∧
      offset1dSeq 32 .skip .dontMark value 1 none res = none :=
  ⟨List.replicate (2 ^ 31 + 10) 0, List.length_replicate,
    C23_extent_not_representable 32 (by decide) _ _ _ 1 none res (by decide)
      (by rw [List.length_replicate]; norm_num) (by rw [List.length_replicate]; norm_num)⟩

/-- C23: a shift that is right if the extent is representable in the type. With an 8 bit offset type
(if that would compile), 100 elements are, -/
example : OffsetOfType 8 (-3) ∧ (100 : Nat) < 2 ^ (8 - 1) := by
  constructor
  · constructor <;> decide
  · decide

example : offset1dSeq 32 (.byMask [0, 1, 0, 0] 1) .markMask [10, 20, 30, 40] 1 none
    [⟨1, false⟩, ⟨2, false⟩, ⟨3, false⟩, ⟨4, false⟩] =
    some [⟨1, true⟩, ⟨10, false⟩, ⟨3, true⟩, ⟨30, false⟩] := by decide

example : offset2dSeq 32 .skip .dontMark 2 3 [1, 2, 3, 4, 5, 6] 1 (-1) (some 9)
    [⟨0, false⟩, ⟨0, false⟩, ⟨0, false⟩, ⟨0, false⟩, ⟨0, false⟩, ⟨0, false⟩] =
    some [⟨9, false⟩, ⟨9, false⟩, ⟨9, false⟩, ⟨2, false⟩, ⟨3, false⟩, ⟨9, false⟩] := by decide

end Fern
