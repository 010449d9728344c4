import Verif.Lemmas.LocalOps
import Verif.Lemmas.IndexRangesSpec
import Verif.Model.Copy
import Verif.Spec.Copy
namespace Fern

open Spec

variable {V : Type}

theorem copyAct_spec {inp : InPolicy V} {outp : OutPolicy V} {source : List V} {n : Nat}
    (hv : source.length = n) (hp : PolicyFor inp n) {i : Nat} (hi : i < n) :
    ∃ f, copyAct inp outp source i = some f ∧
      ∀ c, (NoDataAt inp source i → Marked outp c (f c)) ∧
        (¬ NoDataAt inp source i → ∃ v, source[i]? = some v ∧ f c = ⟨v, c.masked⟩) := by
  obtain ⟨b, hb, hnd⟩ := isNoData_spec hp hv hi
  have e : source[i]? = some (source[i]'(by omega)) := by simp
  cases b with
  | true => exact ⟨outp.mark, by simp [copyAct, hb], fun c =>
      ⟨fun _ => mark_spec _ _, fun h => absurd (hnd.mp rfl) h⟩⟩
  | false => exact ⟨storeAct source[i], by simp [copyAct, hb, e], fun c =>
      ⟨fun h => absurd (hnd.mpr h) (by simp), fun _ => ⟨_, e, rfl⟩⟩⟩

/-- The action function on destination element `d`. -/
noncomputable def copyFn (inp : InPolicy V) (outp : OutPolicy V) (source : List V) (b pos d : Nat) :
    List (Cell V → Cell V) :=
  [(copyAct inp outp source (b + (d - pos))).getD id]

theorem copyLoop_eq {inp : InPolicy V} {outp : OutPolicy V} {source : List V} {n : Nat}
    (hv : source.length = n) (hp : PolicyFor inp n) (b pos k off : Nat) (h : b + off + k ≤ n) :
    copyLoop inp outp source (List.range' (b + off) k) (pos + off) =
      some (elemActs (copyFn inp outp source b pos) (List.range' (pos + off) k)) := by
  induction k generalizing off with
  | zero => rfl
  | succ k ih =>
    obtain ⟨f, hf, _⟩ := copyAct_spec (outp := outp) hv hp (i := b + off) (by omega)
    rw [List.range'_succ, List.range'_succ]
    unfold copyLoop
    have := ih (off + 1) (by omega)
    rw [← Nat.add_assoc, ← Nat.add_assoc] at this
    rw [hf, this]
    have e : copyFn inp outp source b pos (pos + off) = [f] := by
      simp [copyFn, hf]
    simp [elemActs, e]

/-- The effect of copying. -/
noncomputable def copied (inp : InPolicy V) (outp : OutPolicy V) (source : List V) (b pos k : Nat)
    (s : List (Cell V)) : List (Cell V) :=
  s.mapIdx (fun d c => if d ∈ List.range' pos k then
    foldActs (copyFn inp outp source b pos d) c else c)

theorem copied_spec {inp : InPolicy V} {outp : OutPolicy V} {source : List V} {n : Nat}
    (hv : source.length = n) (hp : PolicyFor inp n) (range : IndexRange) (pos : Nat)
    (h : range.e ≤ n) (s : List (Cell V)) :
    Elementwise (CopyCell inp outp source range pos) s
      (copied inp outp source range.b pos range.size s) := by
  refine ⟨by simp [copied], fun d c hc => ⟨_, by simp only [copied, List.getElem?_mapIdx, hc]; rfl, ?_⟩⟩
  constructor
  · intro k hd hk
    subst hd
    have hm : pos + k ∈ List.range' pos range.size := by
      rw [List.mem_range'_1, IndexRange.size]; omega
    simp only [if_pos hm]
    obtain ⟨f, hf, hs⟩ := copyAct_spec (outp := outp) hv hp (i := range.b + k) (by omega)
    have e : foldActs (copyFn inp outp source range.b pos (pos + k)) c = f c := by
      simp [copyFn, foldActs, hf]
    rw [e]
    exact hs c
  · intro hd
    have hm : d ∉ List.range' pos range.size := by
      rw [List.mem_range'_1, IndexRange.size]; omega
    simp only [if_neg hm]

theorem run_copy (F : Nat → List (Cell V → Cell V)) (l : List Nat) (s : List (Cell V)) (hn : l.Nodup)
    (hl : ∀ d ∈ l, d < s.length) :
    runActs (elemActs F l) s =
      some (s.mapIdx (fun d c => if d ∈ l then foldActs (F d) c else c)) := by
  have hpw : Pointwise (elemStep (fun d => some (F d))) (fun d => foldActs (F d)) s.length :=
    elemStep_pointwise (fun _ _ => rfl)
  rw [runActs_elemActs hpw l hl s rfl, pointwise_loop hpw l hl hn s rfl]

theorem positions_go {a e b pos : Nat} {l : List IndexRange} (h : Consecutive a e l) :
    positionPerBlock.go (pos + a)
      (l.map (fun r => (⟨b + r.b, b + r.e⟩ : IndexRange))) = l.map (fun r => pos + r.b) := by
  induction l generalizing a with
  | nil => rfl
  | cons r rs ih =>
    obtain ⟨h1, h2, h3⟩ := h
    rw [List.map_cons, positionPerBlock.go, List.map_cons]
    have : pos + a + IndexRange.size ⟨b + r.b, b + r.e⟩ = pos + r.e := by
      simp only [IndexRange.size]; omega
    rw [this, ih h3, h1]

theorem copyTasks_eq {inp : InPolicy V} {outp : OutPolicy V} {source : List V}
    {n b pos a e : Nat} (hv : source.length = n) (hp : PolicyFor inp n) {l : List IndexRange}
    (h : Consecutive a e l) (he : b + e ≤ n) :
    ((l.map (fun r => (⟨b + r.b, b + r.e⟩ : IndexRange))).zip (l.map (fun r => pos + r.b))).mapM
        (fun p => copyLoop inp outp source p.1.indices p.2) =
      some ((l.map (fun r => List.range' (pos + r.b) (r.e - r.b))).map
        (elemActs (copyFn inp outp source b pos))) := by
  induction l generalizing a with
  | nil => rfl
  | cons r rs ih =>
    obtain ⟨h1, h2, h3⟩ := h
    have hle := h3.le
    have e1 : IndexRange.indices ⟨b + r.b, b + r.e⟩ = List.range' (b + r.b) (r.e - r.b) := by
      simp only [IndexRange.indices]; congr 1; omega
    rw [List.map_cons, List.map_cons, List.zip_cons_cons, List.mapM_cons, ih h3]
    simp only [e1]
    rw [copyLoop_eq hv hp b pos (r.e - r.b) r.b (by omega)]
    rfl

theorem shifted_flatten {a e pos : Nat} {l : List IndexRange} (h : Consecutive a e l) :
    (l.map (fun r => List.range' (pos + r.b) (r.e - r.b))).flatten =
      List.range' (pos + a) (e - a) := by
  induction l generalizing a with
  | nil => simp only [Consecutive] at h; subst h; simp
  | cons r rs ih =>
    obtain ⟨h1, h2, h3⟩ := h
    have hle := h3.le
    have e1 : List.range' (pos + a) (e - a) = List.range' (pos + a) ((r.e - a) + (e - r.e)) := by
      congr 1; omega
    rw [List.map_cons, List.flatten_cons, ih h3, h1, e1, ← List.range'_append_1]
    congr 2
    omega

end Fern
