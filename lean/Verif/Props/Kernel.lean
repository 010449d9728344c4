import Verif.Lemmas.Kernel
import Verif.Props.Convolve
/-
Property C109: kernels are the tables of weights that they are made of.
-/
namespace Fern.Kernels

open Fern.Spec

variable {T V W : Type}

/-- **C109**: a kernel can be made exactly if the table is a square with sides of twice the radius plus one. -/
theorem C109_made (default : T) (radius : Nat) (rows : List (List T)) :
    (∃ k, Kernel.ofRows default radius rows = some k) ↔ SquareTable radius rows := by
  constructor
  · rintro ⟨k, hk⟩
    by_contra h
    rw [ofRows_none h] at hk
    cases hk
  · intro h
    exact ⟨_, ofRows_eq h⟩

/-- **C109**, squares whose radius is known beforehand: the same. -/
theorem C109_made_square (radius : Nat) (garbage : List T) (rows : List (List T))
    (hg : garbage.length = (2 * radius + 1) * (2 * radius + 1)) :
    (∃ s, Square.ofRows radius garbage rows = some s) ↔ SquareTable radius rows := by
  constructor
  · rintro ⟨k, hk⟩
    by_contra h
    rw [square_none h] at hk
    cases hk
  · intro h
    exact ⟨_, square_eq h hg⟩

/-- **C109**: a kernel has the radius it is given, sides of an odd number of cells, and in each row and column the
weight of the table. -/
theorem C109_weights {default : T} {radius : Nat} {rows : List (List T)} {k : Kernel T}
    (hk : Kernel.ofRows default radius rows = some k) :
    k.radius = radius ∧ k.size = 2 * radius + 1 ∧
      ∀ i < 2 * radius + 1, ∀ j < 2 * radius + 1, ∃ w, tableAt rows i j = some w ∧ k.get (k.index i j) = some w := by
  have h : SquareTable radius rows := (C109_made default radius rows).1 ⟨k, hk⟩
  rw [ofRows_eq h] at hk
  cases hk
  refine ⟨rfl, rfl, fun i hi j hj => ?_⟩
  have hi' : i < rows.length := by rw [h.1]; exact hi
  have hrow := h.2 _ (List.getElem_mem hi')
  have hlt : i * (2 * radius + 1) + j < (2 * radius + 1) * (2 * radius + 1) := by
    calc i * (2 * radius + 1) + j < i * (2 * radius + 1) + (2 * radius + 1) := by omega
      _ = (i + 1) * (2 * radius + 1) := (Nat.succ_mul _ _).symm
      _ ≤ _ := Nat.mul_le_mul_right _ hi
  have hj' : j < rows[i].length := by omega
  refine ⟨rows[i][j], ?_, ?_⟩
  · simp [tableAt, List.getElem?_eq_getElem hi', List.getElem?_eq_getElem hj']
  · simp only [Kernel.get, Kernel.index, hlt, if_true]
    rw [flatten_get _ rows h.2 i j hj]
    simp [tableAt, List.getElem?_eq_getElem hi', List.getElem?_eq_getElem hj']

/-- **C109**: the same for squares, whatever their memory contained. -/
theorem C109_weights_square {radius : Nat} {garbage : List T} {rows : List (List T)} {s : Square T radius}
    (hg : garbage.length = (2 * radius + 1) * (2 * radius + 1))
    (hs : Square.ofRows radius garbage rows = some s) :
    ∀ i < 2 * radius + 1, ∀ j < 2 * radius + 1, ∃ w, tableAt rows i j = some w ∧ s.get (s.index i j) = some w := by
  intro i hi j hj
  have h : SquareTable radius rows := (C109_made_square radius garbage rows hg).1 ⟨s, hs⟩
  obtain ⟨_, _, hw⟩ := C109_weights (ofRows_eq (default := s.weights.headD (rows.flatten.headD
    (garbage[0]'(by rw [hg]; exact Nat.mul_pos (Nat.succ_pos _) (Nat.succ_pos _))))) h)
  obtain ⟨w, h1, h2⟩ := hw i hi j hj
  rw [square_eq h hg] at hs
  cases hs
  exact ⟨w, h1, h2⟩

/-- **C109**: a convolution can't tell a kernel and a square made of the same table apart. -/
theorem C109_same {A R : Type} {default : W} {radius : Nat} {garbage : List W} {table : List (List W)} {k : Kernel W}
    {s : Square W radius} (hg : garbage.length = (2 * radius + 1) * (2 * radius + 1))
    (hk : Kernel.ofRows default radius table = some k) (hs : Square.ofRows radius garbage table = some s)
    (ops : ConvolveOps V W A R) (rows cols : Nat) (source : List V) (noData : InPolicy V) (pol : ConvolvePolicy V)
    (outp : OutPolicy R) (res : List (Cell R)) :
    let a := k.args rows cols source noData
    let b := s.args rows cols source noData
    convolveSequential ops a pol outp (innerPart ops a pol outp) res =
      convolveSequential ops b pol outp (innerPart ops b pol outp) res := by
  have h := (C109_made default radius table).1 ⟨k, hk⟩
  rw [ofRows_eq h] at hk
  rw [square_eq h hg] at hs
  cases hk
  cases hs
  rfl

/-- **C109**: a kernel of one weight is the kernel of the table that has this weight everywhere. -/
theorem C109_constant (default other : T) (radius : Nat) (w : T) :
    ∃ k, Kernel.const default radius w = some k ∧
      Kernel.ofRows other radius (List.replicate (2 * radius + 1) (List.replicate (2 * radius + 1) w)) = some k := by
  refine ⟨_, const_eq default radius w, ?_⟩
  rw [ofRows_eq ⟨by simp, fun row hrow => by rw [List.eq_of_mem_replicate hrow]; simp⟩]
  simp

/-- **C109**: outside of the square there are no weights. -/
theorem C109_outside {default : T} {radius : Nat} {rows : List (List T)} {k : Kernel T}
    (hk : Kernel.ofRows default radius rows = some k) (index : Nat)
    (h : (2 * radius + 1) * (2 * radius + 1) ≤ index) (v : T) : k.get index = none ∧ k.set index v = none := by
  obtain ⟨_, h2, _⟩ := C109_weights hk
  have : ¬ index < k.size * k.size := by rw [h2]; omega
  simp only [Kernel.get, Kernel.set, this, if_false, and_self]

/-- **C109**: a weight that is changed has the new value, all others stay. -/
theorem C109_changed {default : T} {radius : Nat} {rows : List (List T)} {k : Kernel T}
    (hk : Kernel.ofRows default radius rows = some k) (i j : Nat) (hi : i < 2 * radius + 1) (hj : j < 2 * radius + 1)
    (v : T) :
    ∃ k', k.set (k.index i j) v = some k' ∧ k'.radius = radius ∧ k'.size = k.size ∧
      k'.get (k'.index i j) = some v ∧
      ∀ i' < 2 * radius + 1, ∀ j' < 2 * radius + 1, (i', j') ≠ (i, j) →
        k'.get (k'.index i' j') = tableAt rows i' j' := by
  have hsq := (C109_made default radius rows).1 ⟨k, hk⟩
  have hw := (C109_weights hk).2.2
  rw [ofRows_eq hsq] at hk
  cases hk
  have hlt : i * (2 * radius + 1) + j < (2 * radius + 1) * (2 * radius + 1) := by
    calc i * (2 * radius + 1) + j < i * (2 * radius + 1) + (2 * radius + 1) := by omega
      _ = (i + 1) * (2 * radius + 1) := (Nat.succ_mul _ _).symm
      _ ≤ _ := Nat.mul_le_mul_right _ hi
  have hl : rows.flatten.length = (2 * radius + 1) * (2 * radius + 1) := by
    rw [flatten_length _ rows hsq.2, hsq.1]
  have hset : Kernel.set (⟨radius, 2 * radius + 1, rows.flatten⟩ : Kernel T) (i * (2 * radius + 1) + j) v =
      some ⟨radius, 2 * radius + 1, rows.flatten.modify (i * (2 * radius + 1) + j) (fun _ => v)⟩ := by
    simp only [Kernel.set, hlt, if_true, modifyAt, hl]
    rfl
  refine ⟨_, hset, rfl, rfl, ?_, ?_⟩
  · simp only [Kernel.get, Kernel.index, hlt, if_true]
    rw [List.getElem?_modify_eq, List.getElem?_eq_getElem (by omega)]
    rfl
  · intro i' hi' j' hj' hne
    obtain ⟨w, h1, h2⟩ := hw i' hi' j' hj'
    rw [h1, ← h2]
    simp only [Kernel.get, Kernel.index]
    suffices he : i * (2 * radius + 1) + j ≠ i' * (2 * radius + 1) + j' by
      simp [he]
      rfl
    intro he
    apply hne
    have hmod := congrArg (· % (2 * radius + 1)) he
    have hdiv := congrArg (· / (2 * radius + 1)) he
    have hpos : 0 < 2 * radius + 1 := by omega
    simp only [Nat.mul_add_mod', Nat.mod_eq_of_lt hj, Nat.mod_eq_of_lt hj'] at hmod
    simp only [Nat.mul_comm _ (2 * radius + 1), Nat.mul_add_div hpos, Nat.div_eq_of_lt hj,
      Nat.div_eq_of_lt hj'] at hdiv
    simp only [Nat.add_zero] at hdiv
    rw [hmod, hdiv]

/-- **C109**: the neighbours that count in a convolution have the weights of the table: kernel cell `(p, q)`, row `p`
and column `q` of the table, is put on the cell `p - radius` rows below and `q - radius` columns right of the focus. -/
theorem C109_neighbourhood {default : W} {radius : Nat} {table : List (List W)} {k : Kernel W}
    (hk : Kernel.ofRows default radius table = some k) (rows cols : Nat) (source : List V) (noData : InPolicy V)
    (i j : Nat) :
    neighbourhood (k.args rows cols source noData) i j =
      (kernelCells radius).filterMap (fun pq =>
        open Classical in
        if InImage rows cols radius i j pq ∧ ¬ NoDataAt noData source (below cols radius i j pq) then
          (source[below cols radius i j pq]?).bind (fun v => (tableAt table pq.1 pq.2).map (fun w => (v, w)))
        else none) := by
  have hsq := (C109_made default radius table).1 ⟨k, hk⟩
  rw [ofRows_eq hsq] at hk
  cases hk
  unfold neighbourhood
  apply List.filterMap_congr
  rintro ⟨p, q⟩ hpq
  have hq : q < 2 * radius + 1 := by
    simp only [kernelCells, Kernel.args, List.mem_flatMap, List.mem_map, List.mem_range] at hpq
    obtain ⟨_, _, _, hq, he⟩ := hpq
    cases he
    exact hq
  simp only [Kernel.args, weightAt]
  rw [flatten_get _ table hsq.2 p q hq]
  congr

/-- **C109**: the arguments of a convolution with a kernel fit if the image does. -/
theorem C109_fits {default : W} {radius : Nat} {table : List (List W)} {k : Kernel W}
    (hk : Kernel.ofRows default radius table = some k) (rows cols : Nat) (source : List V) (noData : InPolicy V)
    (hs : source.length = rows * cols) (hn : PolicyFor noData (rows * cols)) (hr : 2 * radius ≤ rows)
    (hc : 2 * radius ≤ cols) : ArgsOk (k.args rows cols source noData) := by
  have hsq := (C109_made default radius table).1 ⟨k, hk⟩
  rw [ofRows_eq hsq] at hk
  cases hk
  exact ⟨hs, hn, by simp only [Kernel.args]; rw [flatten_length _ table hsq.2, hsq.1], hr, hc⟩

/-! A kernel and a square of three by three weights, and tables that are none. -/

example : Kernel.ofRows 0 1 [[1, 2, 3], [4, 5, 6], [7, 8, 9]] = some ⟨1, 3, [1, 2, 3, 4, 5, 6, 7, 8, 9]⟩ := by decide

example : Square.ofRows 1 (List.replicate 9 77) [[1, 2, 3], [4, 5, 6], [7, 8, 9]] =
    some ⟨[1, 2, 3, 4, 5, 6, 7, 8, 9]⟩ := by decide

example : Kernel.ofRows 0 1 [[1, 2, 3], [4, 5], [7, 8, 9]] = none := by decide

example : Kernel.ofRows 0 1 [[1, 2], [4, 5]] = none := by decide

example : SquareTable 1 [[1, 2, 3], [4, 5, 6], [7, 8, 9]] := by unfold SquareTable; decide

end Fern.Kernels
