import Verif.Lemmas.PrintValue

/-!
# C108: what printing shows of constants, ranges and rasters
-/

namespace Fern.StdOps

open Fern Fern.StdOps.Spec

variable {α : Type}

/-- A range of less than seven elements is printed completely, in order, on a line of its own. -/
theorem C108_short (text : α → List Char) (l : List α) (h : l.length < 7) :
    printRange text l = "[".toList ++ commas (l.map text) ++ "]\n".toList := printRange_short text l h

example : printRange (fun n : Nat => n.repr.toList) [1, 22, 3] = "[1, 22, 3]\n".toList := by decide +kernel
example : printRange (fun n : Nat => n.repr.toList) [] = "[]\n".toList := by decide +kernel

/-- Of a longer range the first three and the last three elements are printed. -/
theorem C108_long (text : α → List Char) (l : List α) (h : 7 ≤ l.length) :
    ∃ x y z u v w, l.take 3 = [x, y, z] ∧ l.drop (l.length - 3) = [u, v, w] ∧
      printRange text l = "[".toList ++ text x ++ ", ".toList ++ text y ++ ", ".toList ++ text z ++ ", ..., ".toList ++
        text u ++ ", ".toList ++ text v ++ ", ".toList ++ text w ++ "]\n".toList := by
  obtain ⟨x, y, z, m, u, v, w, hm, rfl⟩ := seven l h
  refine ⟨x, y, z, u, v, w, by simp, ?_, ?_⟩
  · rw [List.drop_append_of_le_length (by simp), List.drop_of_length_le (by simp)]
    rfl
  · rw [printRange_long text x y z u v w m hm]
    simp [commas]

example : printRange (fun n : Nat => n.repr.toList) [1, 2, 3, 4, 5, 6, 7] = "[1, 2, 3, ..., 5, 6, 7]\n".toList := by
  decide +kernel

/-- From what is printed of a range of less than seven elements all texts of its elements can be told, provided that these are
not empty and have no commas. -/
theorem C108_readable (text : α → List Char) (l k : List α) (hl : l.length < 7) (hk : k.length < 7)
    (ht : ∀ x, text x ≠ [] ∧ ',' ∉ text x) (h : printRange text l = printRange text k) : l.map text = k.map text := by
  rw [C108_short text l hl, C108_short text k hk, List.append_left_inj, List.append_right_inj] at h
  have nonempty (m : List α) : ∀ t ∈ m.map text, t ≠ [] := by
    intro t hm
    obtain ⟨x, _, rfl⟩ := List.mem_map.1 hm
    exact (ht x).1
  have comma (m : List α) : ∀ t ∈ m.map text, ',' ∉ t := by
    intro t hm
    obtain ⟨x, _, rfl⟩ := List.mem_map.1 hm
    exact (ht x).2
  by_cases h1 : l.map text = []
  · by_cases h2 : k.map text = []
    · rw [h1, h2]
    · rw [h1] at h
      exact absurd h.symm (commas_ne_nil _ h2 (nonempty k))
  · by_cases h2 : k.map text = []
    · rw [h2] at h
      exact absurd h (commas_ne_nil _ h1 (nonempty l))
    · exact commas_inj _ _ (comma l) (comma k) h1 h2 h

/-- The texts of natural numbers meet those conditions. -/
example : printRange (fun n : Nat => if n = 0 then "no".toList else "yes".toList) [0, 1] ≠
    printRange (fun n : Nat => if n = 0 then "no".toList else "yes".toList) [1, 0] := by
  intro h
  have := C108_readable _ [0, 1] [1, 0] (by decide) (by decide)
    (fun x => by split <;> decide) h
  revert this
  decide

/-- What is printed of a longer range depends only on its first three and its last three elements: neither what is between
them nor how many there are shows. -/
theorem C108_hidden (text : α → List Char) (a b m n : List α) (ha : a.length = 3) (hb : b.length = 3) (hm : m ≠ [])
    (hn : n ≠ []) : printRange text (a ++ m ++ b) = printRange text (a ++ n ++ b) := by
  obtain ⟨x, y, z, rfl⟩ := List.length_eq_three.1 ha
  obtain ⟨u, v, w, rfl⟩ := List.length_eq_three.1 hb
  rw [printRange_long text x y z u v w m hm, printRange_long text x y z u v w n hn]

/-- So different ranges can look the same. -/
theorem C108_same_false :
    printRange (fun n : Nat => n.repr.toList) [1, 2, 3, 4, 5, 6, 7] =
      printRange (fun n : Nat => n.repr.toList) [1, 2, 3, 100, 200, 5, 6, 7] :=
  C108_hidden _ [1, 2, 3] [5, 6, 7] [4] [100, 200] rfl rfl (by decide) (by decide)

/-- However long a range is, the text is short: if the texts of the elements have at most `n` characters, the text of
the range has at most `6 n + 20`. -/
theorem C108_length (text : α → List Char) (n : Nat) (l : List α) (h : ∀ x ∈ l, (text x).length ≤ n) :
    (printRange text l).length ≤ 6 * n + 20 := by
  by_cases hl : l.length < 7
  · rw [C108_short text l hl]
    have := commas_length n (l.map text) (by
      intro t ht
      obtain ⟨x, hx, rfl⟩ := List.mem_map.1 ht
      exact h x hx)
    rw [List.length_map] at this
    have h6 : l.length * (n + 2) ≤ 6 * (n + 2) := Nat.mul_le_mul_right _ (by omega)
    simp only [List.length_append]
    have e1 : ("[".toList).length = 1 := rfl
    have e2 : ("]\n".toList).length = 2 := rfl
    omega
  · obtain ⟨x, y, z, m, u, v, w, hm, rfl⟩ := seven l (by omega)
    rw [printRange_long text x y z u v w m hm]
    have hx := h x (by simp)
    have hy := h y (by simp)
    have hz := h z (by simp)
    have hu := h u (by simp)
    have hv := h v (by simp)
    have hw := h w (by simp)
    simp [commas]
    omega

/-- A constant is printed on a line of its own; nothing is shown of a raster. -/
theorem C108_others (text : α → List Char) (x y : α) :
    printConstant text x = text x ++ ['\n'] ∧ printRaster x = printRaster y ∧ printRaster x = "[]\n".toList :=
  ⟨rfl, rfl, rfl⟩

end Fern.StdOps
