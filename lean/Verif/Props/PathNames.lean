import Verif.Lemmas.Compiler

/-!
# C112: the names of the files
-/

namespace Fern.Compiler

open Fern.Spec

private theorem filename_last {dir n : Str} (hd : dir = [] ∨ dir.getLast? = some '/') (hn : '/' ∉ n) :
    filename (dir ++ n) = n := by
  rcases hd with rfl | hd
  · rw [List.nil_append, filename, names_plain hn]; rfl
  · obtain ⟨q, rfl⟩ := List.getLast?_eq_some_iff.1 hd
    rw [List.append_assoc]
    change filename (q ++ '/' :: n) = n
    rw [filename, names_append, names_plain hn]
    simp

private theorem lastDot_none {s : Str} (h : '.' ∉ s) : lastDot s = none := by
  induction s with
  | nil => rfl
  | cons c s ih =>
    simp only [List.mem_cons, not_or] at h
    rw [lastDot, ih h.2]
    simp [Ne.symm h.1]

private theorem lastDot_some (b : Str) {e : Str} (h : '.' ∉ e) : lastDot (b ++ '.' :: e) = some b.length := by
  induction b with
  | nil => rw [List.nil_append, lastDot, lastDot_none h]; rfl
  | cons c s ih => rw [List.cons_append, lastDot, ih]; rfl

/-- **C112**: the name of the module is the last name of the path of the source, up to its last dot; a name without dot, or
with only one in front, is kept. -/
theorem C112_stem {dir base ext : Str} (hd : dir = [] ∨ dir.getLast? = some '/') (h1 : '/' ∉ base) (h2 : '/' ∉ ext)
    (h3 : '.' ∉ ext) :
    (base ≠ [] → ¬ (base = ['.'] ∧ ext = []) → stem (dir ++ (base ++ '.' :: ext)) = base) ∧
    ('.' ∉ base → stem (dir ++ base) = base) ∧ stem (dir ++ '.' :: ext) = '.' :: ext := by
  refine ⟨fun hb hh => ?_, fun hn => ?_, ?_⟩
  · have hf : filename (dir ++ (base ++ '.' :: ext)) = base ++ '.' :: ext := filename_last hd (by simp [h1, h2])
    have hne : base ++ '.' :: ext ≠ ['.', '.'] := by
      intro h
      match base, hb with
      | [c], _ =>
        simp at h
        exact hh ⟨by rw [h.1], h.2⟩
      | c :: c' :: l, _ => simp at h
    unfold stem
    simp only [hf, hne, if_false, lastDot_some base h3]
    cases base with
    | nil => exact absurd rfl hb
    | cons c l => simp
  · have hf : filename (dir ++ base) = base := filename_last hd h1
    unfold stem
    simp only [hf, lastDot_none hn, ite_self]
  · have hf : filename (dir ++ '.' :: ext) = '.' :: ext := filename_last hd (by simp [h2])
    unfold stem
    have : lastDot ('.' :: ext) = some 0 := lastDot_some [] h3
    simp only [hf, this, ite_self]

example : stem "a.b/x.y.ad".toList = "x.y".toList :=
  (C112_stem (dir := "a.b/".toList) (base := "x.y".toList) (ext := "ad".toList) (by decide) (by decide) (by decide)
    (by decide)).1 (by decide) (by decide)

/-- **C112**: the directory above, of which the compiler asks whether it can be written: that of a path `a/b` is `a`, of a
single name nothing (the current directory), and of a name in the root the root. -/
theorem C112_above {dir n : Str} (hn : '/' ∉ n) (slashes : Nat) :
    (dir ≠ [] → dir.getLast? ≠ some '/' →
      parentPath (dir ++ (List.replicate (slashes + 1) '/' ++ n)) = dir) ∧
    parentPath n = [] ∧ parentPath (List.replicate (slashes + 1) '/' ++ n) = ['/'] := by
  have hdrop : ∀ k (d : Str), dropSlashes (d ++ List.replicate k '/') = dropSlashes d := by
    intro k d
    unfold dropSlashes
    rw [List.reverse_append, List.reverse_replicate]
    congr 1
    induction k with
    | zero => rfl
    | succ k ih => rw [List.replicate_succ, List.cons_append, List.dropWhile_cons_of_pos (by simp), ih]
  have hlast : (List.replicate (slashes + 1) '/').getLast? = some '/' := by
    rw [List.getLast?_replicate]; simp
  refine ⟨fun h0 h1 => ?_, ?_, ?_⟩
  · have hf : filename (dir ++ (List.replicate (slashes + 1) '/' ++ n)) = n := by
      rw [← List.append_assoc]
      refine filename_last (.inr ?_) hn
      rw [List.getLast?_append, hlast]; rfl
    have ht : (dir ++ (List.replicate (slashes + 1) '/' ++ n)).take
        ((dir ++ (List.replicate (slashes + 1) '/' ++ n)).length - n.length) =
        dir ++ List.replicate (slashes + 1) '/' := by
      rw [← List.append_assoc, List.length_append, Nat.add_sub_cancel, List.take_left]
    have hd : dropSlashes dir = dir := by
      unfold dropSlashes
      rw [← List.head?_reverse] at h1
      cases hr : dir.reverse with
      | nil => exact absurd (List.reverse_eq_nil_iff.1 hr) h0
      | cons c l =>
        rw [hr] at h1
        rw [List.dropWhile_cons_of_neg (by simpa using h1), ← hr, List.reverse_reverse]
    unfold parentPath
    simp only [hf, ht, hdrop, hd, h0, false_and, if_false]
  · have hf : filename n = n := filename_last (dir := []) (.inl rfl) hn
    unfold parentPath
    simp only [hf, Nat.sub_self, List.take_zero]
    rw [if_neg]
    · rfl
    · rintro ⟨-, h⟩
      exact hn (List.mem_of_head? h)
  · have hf : filename (List.replicate (slashes + 1) '/' ++ n) = n := filename_last (.inr hlast) hn
    have ht : (List.replicate (slashes + 1) '/' ++ n).take
        ((List.replicate (slashes + 1) '/' ++ n).length - n.length) = [] ++ List.replicate (slashes + 1) '/' := by
      rw [List.length_append, Nat.add_sub_cancel, List.take_left]; rfl
    unfold parentPath
    simp only [hf, ht, hdrop]
    rw [if_pos]
    exact ⟨rfl, by simp [List.replicate_succ]⟩

example : parentPath "a/b//out".toList = "a/b".toList ∧ parentPath "out".toList = [] ∧ parentPath "/out".toList = ['/'] :=
  ⟨(C112_above (dir := "a/b".toList) (n := "out".toList) (by decide) 1).1 (by decide) (by decide),
    (C112_above (dir := []) (n := "out".toList) (by decide) 0).2⟩

end Fern.Compiler
