import Verif.Spec.Gdal
import Verif.Lemmas.Strings
import Verif.Lemmas.Arrays
import Verif.Props.Arrays
import Mathlib.Tactic.Linarith
import Mathlib.Tactic.FieldSimp
import Mathlib.Tactic.Ring

/-!
# Lemmas about reading and writing of GDAL rasters
-/

namespace Fern.Gdal

open Fern Fern.Domains Fern.Features

theorem window_at {α : Type} {imageRows imageCols rows cols : Nat} {new old : List α}
    (ho : old.length = imageRows * imageCols) (hn : new.length = rows * cols)
    {r c : Nat} (hr : r < imageRows) (hc : c < imageCols) :
    Spec.at' imageCols (window imageCols rows cols new old) r c =
      if r < rows ∧ c < cols then Spec.at' cols new r c else Spec.at' imageCols old r c := by
  have hk : r * imageCols + c < old.length := by
    rw [ho]
    calc r * imageCols + c < r * imageCols + imageCols := by omega
      _ = (r + 1) * imageCols := by rw [Nat.add_mul, Nat.one_mul]
      _ ≤ imageRows * imageCols := Nat.mul_le_mul_right _ hr
  have h1 : (r * imageCols + c) / imageCols = r := by
    rw [Nat.add_comm, Nat.add_mul_div_right _ _ (by omega), Nat.div_eq_of_lt hc, Nat.zero_add]
  have h2 : (r * imageCols + c) % imageCols = c := by
    rw [Nat.add_comm, Nat.add_mul_mod_self_right, Nat.mod_eq_of_lt hc]
  unfold Spec.at' window
  rw [List.getElem?_mapIdx, List.getElem?_eq_getElem hk, Option.map_some, h1, h2]
  split
  · rename_i h
    have : r * cols + c < new.length := by
      rw [hn]
      calc r * cols + c < r * cols + cols := by omega
        _ = (r + 1) * cols := by rw [Nat.add_mul, Nat.one_mul]
        _ ≤ rows * cols := Nat.mul_le_mul_right _ h.1
    rw [List.getD_eq_getElem?_getD, List.getElem?_eq_getElem this, Option.getD_some]
  · rfl

theorem window_length {α : Type} (imageCols rows cols : Nat) (new old : List α) :
    (window imageCols rows cols new old).length = old.length := by
  rw [window, List.length_mapIdx]

theorem ext_at {α : Type} {rows cols : Nat} {l m : List α} (hl : l.length = rows * cols)
    (hm : m.length = rows * cols)
    (h : ∀ r c, r < rows → c < cols → Spec.at' cols l r c = Spec.at' cols m r c) : l = m := by
  refine List.ext_getElem? fun k => ?_
  by_cases hk : k < rows * cols
  · have hc : 0 < cols := by
      rcases Nat.eq_zero_or_pos cols with h0 | h0
      · rw [h0] at hk; simp at hk
      · exact h0
    have := h (k / cols) (k % cols) (Nat.div_lt_of_lt_mul (by rwa [Nat.mul_comm])) (Nat.mod_lt _ hc)
    unfold Spec.at' at this
    rwa [Nat.mul_comm, Nat.div_add_mod] at this
  · rw [List.getElem?_eq_none (by omega), List.getElem?_eq_none (by omega)]

theorem window_full {α : Type} {rows cols : Nat} {new old : List α} (ho : old.length = rows * cols)
    (hn : new.length = rows * cols) : window cols rows cols new old = new := by
  refine ext_at (rows := rows) (cols := cols) (by rw [window_length, ho]) hn fun r c hr hc => ?_
  rw [window_at ho hn hr hc, if_pos ⟨hr, hc⟩]

theorem set_same (d : Disk) (n : Str) (f : Option File) : d.set n f n = f := if_pos rfl

theorem set_other (d : Disk) {n m : Str} (f : Option File) (h : m ≠ n) : d.set n f m = d m := if_neg h

theorem set_set (d : Disk) (n : Str) (f g : Option File) : (d.set n f).set n g = d.set n g := by
  funext m
  unfold Disk.set
  split <;> rfl

theorem gdalType_valueType {t : NumTy} {g : GType} (h : gdalType t = some g) : valueType g = some t := by
  unfold gdalType at h
  split at h <;> simp_all <;> subst h <;> rfl

theorem cells {box : Box} {a : FieldArray} {cell : Rat} (h : Spec.Gridded box a cell) :
    (box.east - box.west) / a.cols = cell ∧ (box.north - box.south) / a.rows = cell := by
  have h1 : (a.cols : Rat) ≠ 0 := by have := h.cols; positivity
  have h2 : (a.rows : Rat) ≠ 0 := by have := h.rows; positivity
  rw [h.width, h.height]
  constructor <;> field_simp

/-- The pieces of a path are not empty and have no slashes. -/
theorem splitBy_pieces {s : Str} {t : Str} (h : t ∈ splitBy (· == '/') s) : t ≠ [] ∧ '/' ∉ t := by
  have hr := runs_tokens (splitBy_iff (sep := (· == '/')) (s := s).1 rfl) t h
  exact ⟨hr.1, fun hs => hr.2 _ hs (by simp)⟩

theorem runs_append {dir f : Str} {ts : List Str} (h : Spec.Runs (fun c => (c == '/') = true) dir ts)
    (hd : dir = [] ∨ dir.getLast? = some '/') (hf : f ≠ []) (hs : '/' ∉ f) :
    Spec.Runs (fun c => (c == '/') = true) (dir ++ f) (ts ++ [f]) := by
  have hns : ∀ c ∈ f, ¬ (c == '/') = true := by
    intro c hc he
    rw [beq_iff_eq] at he
    exact hs (he ▸ hc)
  induction h with
  | done g hg =>
    have := Spec.Runs.run (sep := fun c => (c == '/') = true) g f [] [] hg hf hns (by simp)
      (.done [] (by simp))
    rwa [List.append_nil] at this
  | run g t rest ts hg ht hft hr _ ih =>
    have hlast : rest ≠ [] ∧ rest.getLast? = some '/' := by
      have hd' : (g ++ t ++ rest).getLast? = some '/' := by
        rcases hd with hd | hd
        · rw [List.append_eq_nil_iff, List.append_eq_nil_iff] at hd
          exact absurd hd.1.2 ht
        · exact hd
      by_cases h0 : rest = []
      · subst h0
        rw [List.append_nil, List.getLast?_append_of_ne_nil _ ht] at hd'
        exact absurd (by simp : ('/' == '/') = true) (hft '/' (List.mem_of_getLast? hd'))
      · rw [List.getLast?_append_of_ne_nil _ h0] at hd'
        exact ⟨h0, hd'⟩
    have := Spec.Runs.run (sep := fun c => (c == '/') = true) g t (rest ++ f) (ts ++ [f]) hg ht hft
      (fun c hc => hr c (by rwa [List.head?_append_of_ne_nil _ hlast.1] at hc)) (ih (.inr hlast.2))
    rwa [← List.append_assoc] at this

theorem filename_eq {dir f : Str} (hd : dir = [] ∨ dir.getLast? = some '/') (hf : f ≠ []) (hs : '/' ∉ f) :
    (Path.ofString (dir ++ f)).filename = f := by
  have h := splitBy_iff.2 (runs_append (splitBy_iff.1 rfl) hd hf hs)
  have hl : (dir ++ f).getLast? ≠ some '/' := by
    rw [List.getLast?_append_of_ne_nil _ hf]
    exact fun h => hs (List.mem_of_getLast? h)
  unfold Path.ofString Path.filename
  rw [h]
  have : ((dir ++ f).getLast? == some '/') = false := by simpa using hl
  rw [this]
  simp

theorem attributePath_eq {s : Str} (h : s ≠ []) (hs : '/' ∉ s) :
    Path.ofString ('/' :: s ++ '/' :: s) = Spec.attributePath s := by
  have e : '/' :: s ++ '/' :: s = ('/' :: s ++ ['/']) ++ s := by simp
  have hns : ∀ x ∈ s, (x == '/') = false := by
    intro c hc
    simp
    rintro rfl
    exact hs hc
  have hsp : splitBy (· == '/') ('/' :: s ++ '/' :: s) = [s, s] := by
    have h1 : splitBy (· == '/') ('/' :: (s ++ '/' :: s)) = splitBy (· == '/') (s ++ '/' :: s) :=
      splitBy_cons_sep (by simp)
    have h2 : splitBy (· == '/') ('/' :: s) = splitBy (· == '/') s := splitBy_cons_sep (by simp)
    have h3 : splitBy (· == '/') (s ++ []) = s :: splitBy (· == '/') [] := splitBy_run hns h (by simp)
    rw [List.cons_append, h1, splitBy_run hns h (by simp), h2]
    rw [List.append_nil, splitBy_nil] at h3
    rw [h3]
  have hl : ('/' :: s ++ '/' :: s).getLast? ≠ some '/' := by
    rw [e, List.getLast?_append_of_ne_nil _ h]
    exact fun h => hs (List.mem_of_getLast? h)
  unfold Path.ofString
  rw [hsp]
  have : (('/' :: s ++ '/' :: s).getLast? == some '/') = false := by simpa using hl
  rw [this]
  simp [Spec.attributePath]

theorem featurePath_eq {s : Str} (h : s ≠ []) (hs : '/' ∉ s) : Path.ofString ('/' :: s) = ⟨true, [s], false⟩ := by
  have hns : ∀ x ∈ s, (x == '/') = false := by
    intro c hc
    simp
    rintro rfl
    exact hs hc
  have h2 : splitBy (· == '/') ('/' :: s) = splitBy (· == '/') s := splitBy_cons_sep (by simp)
  have h3 : splitBy (· == '/') (s ++ []) = s :: splitBy (· == '/') [] := splitBy_run hns h (by simp)
  rw [List.append_nil, splitBy_nil] at h3
  have hl : ('/' :: s).getLast? ≠ some '/' := by
    have : '/' :: s = ['/'] ++ s := rfl
    rw [this, List.getLast?_append_of_ne_nil _ h]
    exact fun h => hs (List.mem_of_getLast? h)
  unfold Path.ofString
  rw [h2, h3]
  have : (('/' :: s).getLast? == some '/') = false := by simpa using hl
  rw [this]
  simp

theorem stem_noSlash (name : Str) : '/' ∉ stem name := by
  have hf : '/' ∉ (Path.ofString name).filename := by
    unfold Path.filename
    split
    · simp
    · cases hn : (Path.ofString name).names.getLast? with
      | none => simp
      | some t => exact (splitBy_pieces (s := name) (List.mem_of_getLast? hn)).2
  unfold stem
  dsimp only
  split
  · exact hf
  · intro h
    rw [List.mem_reverse] at h
    exact hf (List.mem_reverse.1 ((List.dropWhile_sublist _).subset ((List.drop_sublist _ _).subset h)))

theorem attributePath_contains {ds : Dataset} (h : stem ds.name ≠ []) (p : Path) :
    containsAttribute ds p = decide (p = Spec.attributePath (stem ds.name)) := by
  unfold containsAttribute
  rw [attributePath_eq h (stem_noSlash _)]
  congr 1
  exact propext eq_comm

theorem writablePath_eq {ds : Dataset} (h : stem ds.name ≠ []) (p : Path) :
    writablePath ds p = decide (p = Spec.attributePath (stem ds.name)) := by
  unfold writablePath containsFeature
  rw [attributePath_contains h, featurePath_eq h (stem_noSlash _)]
  by_cases hp : p = Spec.attributePath (stem ds.name)
  · subst hp
    simp [Spec.attributePath, Path.parentPath]
  · simp [hp]

end Fern.Gdal
