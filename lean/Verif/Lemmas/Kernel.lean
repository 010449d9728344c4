import Verif.Model.Kernel
import Verif.Spec.Kernel
import Verif.Lemmas.Arrays
import Verif.Spec.Convolve
/-
Lemmas about the construction of kernels.
-/
namespace Fern.Kernels

open Fern.Spec

variable {T : Type}

theorem writeValues_ok (vs : List T) (k : Nat) (data : List T) (h : k + vs.length ≤ data.length) :
    writeValues k vs data = some (data.take k ++ vs ++ data.drop (k + vs.length)) :=
  (writeValues_spec vs k data).1 h

theorem writeValues_length {vs : List T} {k : Nat} {data w : List T} (h : writeValues k vs data = some w)
    (hk : k + vs.length ≤ data.length) : w.length = data.length := by
  rw [writeValues_ok vs k data hk] at h
  cases h
  simp
  omega

/-- After writing rows `source` and following at their places, the array consists of what it had before and these
rows. -/
theorem kernelLoop_ok (rows : List (List T)) (size : Nat) (hsize : ∀ row ∈ rows, row.length = size) :
    ∀ (n source : Nat) (w : List T), source + n = rows.length → w.length = rows.length * size →
      kernelLoop rows size n source (source * size) w =
        some (w.take (source * size) ++ (rows.drop source).flatten) := by
  intro n
  induction n with
  | zero =>
    intro source w hs hw
    have : source = rows.length := by omega
    subst this
    rw [kernelLoop, List.drop_length, List.flatten_nil, List.append_nil, ← hw, List.take_length]
  | succ n ih =>
    intro source w hs hw
    have hlt : source < rows.length := by omega
    have hrow := hsize _ (List.getElem_mem hlt)
    have hle : source * size + rows[source].length ≤ w.length := by
      rw [hrow, hw, ← Nat.succ_mul]
      exact Nat.mul_le_mul_right _ hlt
    have hl : ((w.take (source * size)).length) = source * size := by
      rw [List.length_take]
      exact Nat.min_eq_left (by omega)
    rw [kernelLoop]
    simp only [List.getElem?_eq_getElem hlt, Option.bind_eq_bind, Option.bind_some, hrow, if_true]
    rw [writeValues_ok _ _ _ hle, Option.bind_some,
      show source * size + size = (source + 1) * size from (Nat.succ_mul source size).symm,
      ih (source + 1) _ (by omega) (by simp; rw [hw] at hle ⊢; omega)]
    rw [List.drop_eq_getElem_cons hlt, List.flatten_cons, ← List.append_assoc]
    congr 2
    rw [Nat.succ_mul, List.take_append_of_le_length (by rw [List.length_append, hl, hrow]),
      List.take_of_length_le (by rw [List.length_append, hl, hrow])]

theorem kernelLoop_none (rows : List (List T)) (size : Nat) :
    ∀ (n source target : Nat) (w : List T), source + n = rows.length →
      (∃ row ∈ rows.drop source, row.length ≠ size) → kernelLoop rows size n source target w = none := by
  intro n
  induction n with
  | zero =>
    rintro source target w hs ⟨row, hrow, _⟩
    rw [List.drop_eq_nil_of_le (by omega)] at hrow
    cases hrow
  | succ n ih =>
    rintro source target w hs ⟨row, hrow, hne⟩
    have hlt : source < rows.length := by omega
    rw [kernelLoop]
    simp only [List.getElem?_eq_getElem hlt, Option.bind_eq_bind, Option.bind_some]
    split
    · next he =>
      rw [List.drop_eq_getElem_cons hlt, List.mem_cons] at hrow
      rcases hrow with rfl | hrow
      · exact absurd he hne
      · cases writeValues target rows[source] w with
        | none => rfl
        | some w' => exact ih _ _ _ (by omega) ⟨row, hrow, hne⟩
    · rfl

/-- Both loops do the same. -/
theorem squareLoop_eq (rows : List (List T)) (size : Nat) :
    ∀ (n i : Nat) (w : List T), squareLoop rows size n i i w = kernelLoop rows size n i (i * size) w := by
  intro n
  induction n with
  | zero => intro i w; rfl
  | succ n ih =>
    intro i w
    rw [squareLoop, kernelLoop]
    cases rows[i]? with
    | none => rfl
    | some row =>
      simp only [Option.bind_eq_bind, Option.bind_some]
      split
      · cases writeValues (i * size) row w with
        | none => rfl
        | some w' =>
          simp only [Option.bind_some]
          rw [ih, Nat.succ_mul]
      · rfl

theorem flatten_get (size : Nat) :
    ∀ (rows : List (List T)), (∀ row ∈ rows, row.length = size) → ∀ (i j : Nat), j < size →
      rows.flatten[i * size + j]? = tableAt rows i j := by
  intro rows
  induction rows with
  | nil => intro _ i j _; simp [tableAt]
  | cons row rows ih =>
    intro h i j hj
    have hr : row.length = size := h row (List.mem_cons_self ..)
    rw [List.flatten_cons]
    cases i with
    | zero =>
      rw [Nat.zero_mul, Nat.zero_add, List.getElem?_append_left (by omega)]
      simp [tableAt]
    | succ i =>
      rw [Nat.succ_mul, List.getElem?_append_right (by omega), hr,
        show i * size + size + j - size = i * size + j from by omega,
        ih (fun r hr => h r (List.mem_cons_of_mem _ hr)) i j hj]
      simp [tableAt]

theorem flatten_length (size : Nat) :
    ∀ (rows : List (List T)), (∀ row ∈ rows, row.length = size) → rows.flatten.length = rows.length * size := by
  intro rows
  induction rows with
  | nil => intro _; simp
  | cons row rows ih =>
    intro h
    rw [List.flatten_cons, List.length_append, ih (fun r hr => h r (List.mem_cons_of_mem _ hr)),
      h row (List.mem_cons_self ..), List.length_cons, Nat.succ_mul, Nat.add_comm]

theorem ofRows_eq {default : T} {radius : Nat} {rows : List (List T)} (h : SquareTable radius rows) :
    Kernel.ofRows default radius rows = some ⟨radius, 2 * radius + 1, rows.flatten⟩ := by
  obtain ⟨h1, h2⟩ := h
  have := kernelLoop_ok rows (2 * radius + 1) h2 (2 * radius + 1) 0
    (List.replicate ((2 * radius + 1) * (2 * radius + 1)) default) (by omega) (by simp [h1])
  rw [Nat.zero_mul] at this
  simp only [Kernel.ofRows, h1, if_true, this]
  simp

theorem ofRows_none {default : T} {radius : Nat} {rows : List (List T)} (h : ¬ SquareTable radius rows) :
    Kernel.ofRows default radius rows = none := by
  simp only [Kernel.ofRows]
  split
  · next h1 =>
    have : ∃ row ∈ rows, row.length ≠ 2 * radius + 1 := by
      by_contra hne
      push Not at hne
      exact h ⟨h1, hne⟩
    rw [kernelLoop_none rows _ _ 0 0 _ (by omega) (by simpa using this)]
    rfl
  · rfl

theorem square_eq {radius : Nat} {garbage : List T} {rows : List (List T)} (h : SquareTable radius rows)
    (hg : garbage.length = (2 * radius + 1) * (2 * radius + 1)) :
    Square.ofRows radius garbage rows = some ⟨rows.flatten⟩ := by
  obtain ⟨h1, h2⟩ := h
  have := kernelLoop_ok rows (2 * radius + 1) h2 (2 * radius + 1) 0 garbage (by omega) (by rw [hg, h1])
  simp only [Square.ofRows, h1, if_true, squareLoop_eq, this]
  simp

theorem square_none {radius : Nat} {garbage : List T} {rows : List (List T)} (h : ¬ SquareTable radius rows) :
    Square.ofRows radius garbage rows = none := by
  simp only [Square.ofRows]
  split
  · next h1 =>
    have : ∃ row ∈ rows, row.length ≠ 2 * radius + 1 := by
      by_contra hne
      push Not at hne
      exact h ⟨h1, hne⟩
    rw [squareLoop_eq, kernelLoop_none rows _ _ 0 _ _ (by omega) (by simpa using this)]
    rfl
  · rfl

theorem const_eq (default : T) (radius : Nat) (weight : T) :
    Kernel.const default radius weight =
      some ⟨radius, 2 * radius + 1, List.replicate ((2 * radius + 1) * (2 * radius + 1)) weight⟩ := by
  simp only [Kernel.const]
  rw [writeValues_ok _ _ _ (by simp)]
  simp

end Fern.Kernels
