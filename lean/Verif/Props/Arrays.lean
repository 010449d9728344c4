import Verif.Lemmas.Arrays
import Verif.Lemmas.Offset
import Verif.Lemmas.CInt
import Verif.Props.LocalOps
import Mathlib.Data.Set.Function
import Mathlib.Tactic.NormNum
import Mathlib.Tactic.FieldSimp
import Mathlib.Tactic.Positivity

/-!
# Row-major indexing (C49), masks (C50), reserved no-data values (C51), nested lists (C69)
-/

namespace Fern

/-! ### C49 -/

/-- `size_t` arithmetic does not matter for cells of arrays whose number of elements can be
represented. -/
theorem C49_size_t (n1 n2 i j : Nat) (hn : n1 * n2 ≤ 18446744073709551616) (hi : i < n1)
    (hj : j < n2) : index64 n2 i j = i * n2 + j := by
  have h : i * n2 + j < n1 * n2 := rowMajor_lt hi hj
  have hm : sizeTModulus = 18446744073709551616 := rfl
  rw [index64, hm]
  generalize i * n2 = x at *
  omega

/-- The linear index is a bijection from the cells to `0 .. n1 * n2 - 1`. -/
theorem C49_bijection (n1 n2 : Nat) (hn : n1 * n2 ≤ 18446744073709551616) :
    Set.BijOn (fun c : Nat × Nat => index64 n2 c.1 c.2) {c | c.1 < n1 ∧ c.2 < n2}
      {k | k < n1 * n2} := by
  refine ⟨?_, ?_, ?_⟩
  · rintro ⟨i, j⟩ ⟨hi, hj⟩
    simp only [Set.mem_ofPred_eq]
    rw [C49_size_t n1 n2 i j hn hi hj]
    exact rowMajor_lt hi hj
  · rintro ⟨i, j⟩ ⟨hi, hj⟩ ⟨i', j'⟩ ⟨hi', hj'⟩ h
    simp only at h hi hj hi' hj'
    rw [C49_size_t n1 n2 i j hn hi hj, C49_size_t n1 n2 i' j' hn hi' hj'] at h
    obtain ⟨rfl, rfl⟩ := rowMajor_inj hj hj' h
    rfl
  · intro k hk
    have h0 : 0 < n2 := by
      rcases Nat.eq_zero_or_pos n2 with h | h
      · subst h; simp at hk
      · exact h
    have hi : k / n2 < n1 := Nat.div_lt_of_lt_mul (by rw [Nat.mul_comm]; exact hk)
    have hj : k % n2 < n2 := Nat.mod_lt _ h0
    refine ⟨(k / n2, k % n2), ⟨hi, hj⟩, ?_⟩
    simp only
    rw [C49_size_t n1 n2 _ _ hn hi hj, Nat.mul_comm]
    exact Nat.div_add_mod k n2

/-- Consecutive columns are consecutive indices, and the first column of a row follows the last one
of the row before. -/
theorem C49_consecutive (n1 n2 i j : Nat) (hn : n1 * n2 ≤ 18446744073709551616) (hi : i < n1) :
    (j + 1 < n2 → index64 n2 i (j + 1) = index64 n2 i j + 1) ∧
    (j + 1 = n2 → i + 1 < n1 → index64 n2 (i + 1) 0 = index64 n2 i j + 1) := by
  constructor
  · intro hj
    rw [C49_size_t n1 n2 _ _ hn hi hj, C49_size_t n1 n2 i j hn hi (by omega)]
    omega
  · intro hj hi'
    rw [C49_size_t n1 n2 _ _ hn hi' (by omega), C49_size_t n1 n2 i j hn hi (by omega),
      Nat.add_mul]
    omega

/-- The 2D loops with an incremented index: whatever the body does, the loop over the sub-range
handles exactly its cells, row by row, each once. -/
theorem C49_loop {σ : Type} (n2 r0 r1 c0 c1 : Nat) (body : Nat → σ → Option σ) (s : σ) :
    loop2d n2 ⟨⟨r0, r1⟩, ⟨c0, c1⟩⟩ body s =
      ((List.range' r0 (r1 - r0)).flatMap (fun i =>
        (List.range' c0 (c1 - c0)).map (fun j => (i, j)))).foldlM
          (fun s c => body (c.1 * n2 + c.2) s) s := by
  rw [loop2d_eq]
  have : cells2d n2 ⟨⟨r0, r1⟩, ⟨c0, c1⟩⟩ =
      (((List.range' r0 (r1 - r0)).flatMap (fun i =>
        (List.range' c0 (c1 - c0)).map (fun j => (i, j))))).map (fun c => c.1 * n2 + c.2) := by
    rw [cells2d, List.map_flatMap]
    congr 1
    funext i
    rw [List.map_map, linearIndex]
    have : ((fun c : Nat × Nat => c.1 * n2 + c.2) ∘ fun j => (i, j)) = fun j => i * n2 + j := rfl
    rw [this, List.map_add_range']
  rw [this, forIn', List.foldlM_map]

/-- The list of cells in `C49_loop` has each cell of the sub-range once. -/
theorem C49_loop_cells (r0 r1 c0 c1 : Nat) :
    let cells := (List.range' r0 (r1 - r0)).flatMap (fun i =>
        (List.range' c0 (c1 - c0)).map (fun j => (i, j)))
    cells.Nodup ∧ ∀ i j, (i, j) ∈ cells ↔ (r0 ≤ i ∧ i < r1) ∧ (c0 ≤ j ∧ j < c1) := by
  intro cells
  constructor
  · refine List.nodup_flatMap.2 ⟨fun i _ => ?_, ?_⟩
    · exact List.Nodup.map (fun a b h => by simpa using h) List.nodup_range'
    · refine List.Pairwise.imp ?_ (List.nodup_range' (s := r0) (n := r1 - r0))
      intro a b hab
      simp only [Function.onFun]
      intro x hx hy
      simp only [List.mem_map] at hx hy
      obtain ⟨_, _, rfl⟩ := hx
      obtain ⟨_, _, h⟩ := hy
      injection h with h1
      exact hab h1.symm
  · intro i j
    simp only [cells, List.mem_flatMap, List.mem_map, Prod.mk.injEq, List.mem_range'_1]
    constructor
    · rintro ⟨a, ha, b, hb, rfl, rfl⟩
      omega
    · intro h
      exact ⟨i, by omega, j, by omega, rfl, rfl⟩

example : loop2d 5 ⟨⟨1, 3⟩, ⟨2, 4⟩⟩ (fun k s => some (s ++ [k])) [] = some [7, 8, 12, 13] := rfl

example : index64 5 2 3 = 13 ∧ 4 * 5 ≤ 18446744073709551616 := by decide

/-! ### C50 -/

section Mask

variable {T : Type}

/-- `set_mask(value)` masks the elements equal to the value, in addition to those masked already;
values are unchanged. -/
theorem C50_set_mask_value [DecidableEq T] (a : MaskedArray T) (v : T)
    (h : a.mask.length = a.values.length) :
    ∃ b, a.setMaskValue v = some b ∧ b.values = a.values ∧ b.mask.length = a.mask.length ∧
      ∀ i : Nat, b.mask[i]? = some true ↔ a.mask[i]? = some true ∨ a.values[i]? = some v := by
  obtain ⟨out, h1, h2, h3⟩ := setMaskLoop_spec
    (fun i => (a.values[i]?).map (fun x => decide (x = v))) a.values.length 0 a.mask (by omega)
    (fun j _ hj => by rw [List.getElem?_eq_getElem (by omega)]; simp)
  refine ⟨⟨a.values, out⟩, ?_, rfl, h2, fun i => ?_⟩
  · rw [MaskedArray.setMaskValue, h1]; rfl
  · rw [h3]
    refine or_congr_right ?_
    constructor
    · rintro ⟨-, -, h⟩
      obtain ⟨x, hx, hd⟩ := Option.map_eq_some_iff.1 h
      rw [hx, of_decide_eq_true hd]
    · intro h
      refine ⟨by omega, ?_, by rw [h]; simp⟩
      have := (List.getElem?_eq_some_iff.1 h).1
      omega

/-- `set_mask(mask, value)` masks the elements for which the mask image has the value, in addition
to those masked already. -/
theorem C50_set_mask (u : IntTy) (a : MaskedArray T) (image : List Int) (v : Int)
    (h : a.mask.length = a.values.length) (hi : image.length = a.values.length)
    (hf : ∀ m ∈ image, Spec.Fits u m) (hv : Spec.Fits u v) :
    ∃ b, a.setMask u image v = some b ∧ b.values = a.values ∧ b.mask.length = a.mask.length ∧
      ∀ i : Nat, b.mask[i]? = some true ↔ a.mask[i]? = some true ∨ image[i]? = some v := by
  obtain ⟨out, h1, h2, h3⟩ := setMaskLoop_spec
    (fun i => (image[i]?).map (fun m => cEq u u m v)) a.values.length 0 a.mask (by omega)
    (fun j _ hj => by rw [List.getElem?_eq_getElem (by omega)]; simp)
  refine ⟨⟨a.values, out⟩, ?_, rfl, h2, fun i => ?_⟩
  · rw [MaskedArray.setMask, h1, hi]
    simp [assert']
  · rw [h3]
    refine or_congr_right ?_
    have hc : ∀ m, Spec.Fits u m → (cEq u u m v = true ↔ m = v) := by
      intro m hm
      rw [cEq, wrap_common_self hm, wrap_common_self hv, beq_iff_eq]
    constructor
    · rintro ⟨-, -, h⟩
      obtain ⟨x, hx, hd⟩ := Option.map_eq_some_iff.1 h
      rw [hx, (hc x (hf x (List.mem_of_getElem? hx))).1 hd]
    · intro h
      refine ⟨by omega, ?_, ?_⟩
      · have := (List.getElem?_eq_some_iff.1 h).1
        omega
      · rw [h, Option.map_some, (hc v hv).2 rfl]

/-- The assertion about the sizes. -/
theorem C50_set_mask_sizes (u : IntTy) (a : MaskedArray T) (image : List Int) (v : Int)
    (hi : image.length ≠ a.values.length) :
    a.setMask u image v = none ∧ a.writeMask u image = none := by
  constructor
  · rw [MaskedArray.setMask]
    simp [assert', hi]
  · rw [MaskedArray.writeMask, if_neg hi]

/-- The mask image written has 0 for the masked elements and another value for the others. -/
theorem C50_write_mask (u : IntTy) (a : MaskedArray T) (image : List Int)
    (hi : image.length = a.values.length) :
    ∃ out, a.writeMask u image = some out ∧ out.length = a.mask.length ∧
      (∀ m ∈ out, Spec.Fits u m) ∧
      ∀ i : Nat, (a.mask[i]? = some true ↔ out[i]? = some 0) ∧
        (a.mask[i]? = some false ↔ ∃ m, out[i]? = some m ∧ m ≠ 0) := by
  refine ⟨_, by rw [MaskedArray.writeMask, if_pos hi], by rw [List.length_map], ?_, fun i => ?_⟩
  · intro m hm
    obtain ⟨b, -, rfl⟩ := List.mem_map.1 hm
    cases b <;> exact fits_wrap _ _
  · rw [List.getElem?_map]
    cases hm : a.mask[i]? with
    | none => simp
    | some b =>
      cases b <;> cases u <;> simp [IntTy.wrap, IntTy.signed, IntTy.bits]

/-- Round trip: setting the mask written to an array on another array of the same size without
masked values gives the same mask. -/
theorem C50_round_trip {U : Type} (u : IntTy) (a : MaskedArray T) (b : MaskedArray U) (image : List Int)
    (ha : a.mask.length = a.values.length) (hi : image.length = a.values.length)
    (hb : b.mask = List.replicate b.values.length false) (hs : b.values.length = a.values.length) :
    ∃ out c, a.writeMask u image = some out ∧ b.setMask u out = some c ∧ c.mask = a.mask ∧
      c.values = b.values := by
  obtain ⟨out, h1, h2, h3, h4⟩ := C50_write_mask u a image hi
  have hbl : b.mask.length = b.values.length := by rw [hb, List.length_replicate]
  obtain ⟨c, k1, k2, k3, k4⟩ := C50_set_mask u b out 0 hbl (by omega) h3 (fits_zero u)
  refine ⟨out, c, h1, k1, ?_, k2⟩
  refine List.ext_getElem (by omega) fun i hi1 hi2 => ?_
  have := (k4 i).trans (or_congr_right (h4 i).1.symm)
  have hbf : b.mask[i]? ≠ some true := by
    rw [hb, List.getElem?_replicate]
    split <;> simp
  simp only [hbf, false_or] at this
  rw [List.getElem?_eq_getElem hi1, List.getElem?_eq_getElem hi2] at this
  simp only [Option.some.injEq] at this
  exact Bool.eq_iff_iff.2 this

/-- Writing the mask and setting it back on the array itself changes nothing. -/
theorem C50_round_trip_self (u : IntTy) (a : MaskedArray T) (image : List Int)
    (ha : a.mask.length = a.values.length) (hi : image.length = a.values.length) :
    ∃ out, a.writeMask u image = some out ∧ a.setMask u out = some a := by
  obtain ⟨out, h1, h2, h3, h4⟩ := C50_write_mask u a image hi
  obtain ⟨c, k1, k2, k3, k4⟩ := C50_set_mask u a out 0 ha (by omega) h3 (fits_zero u)
  refine ⟨out, h1, ?_⟩
  rw [k1]
  have : c.mask = a.mask := by
    refine List.ext_getElem (by omega) fun i hi1 hi2 => ?_
    have := (k4 i).trans (or_congr_right (h4 i).1.symm)
    rw [or_self, List.getElem?_eq_getElem hi1, List.getElem?_eq_getElem hi2] at this
    simp only [Option.some.injEq] at this
    exact Bool.eq_iff_iff.2 this
  cases c; cases a
  simp_all

/-- `has_masked_values`, and which elements are masked after construction, `mask_all` and `clone`. -/
theorem C50_has_masked_values (a : MaskedArray T) :
    a.hasMaskedValues = true ↔ ∃ i : Nat, a.mask[i]? = some true := by
  rw [MaskedArray.hasMaskedValues, List.any_eq_true]
  simp only [id, exists_eq_right_right]
  constructor
  · rintro ⟨x, hx, rfl⟩
    exact List.mem_iff_getElem?.1 hx
  · rintro ⟨i, hi⟩
    exact ⟨true, List.mem_of_getElem? hi, rfl⟩

theorem C50_constructed (values : List T) (scalars : List (T × Bool)) (n : Nat) (v : T)
    (a : MaskedArray T) :
    ((MaskedArray.ofValues values).hasMaskedValues = false ∧
      (MaskedArray.ofValues values).values = values) ∧
    ((MaskedArray.filled n v).hasMaskedValues = false ∧
      (MaskedArray.filled n v).values = List.replicate n v) ∧
    (∀ (i : Nat) x m, scalars[i]? = some (x, m) → (MaskedArray.ofScalars scalars).values[i]? = some x ∧
      (MaskedArray.ofScalars scalars).mask[i]? = some m) ∧
    ((MaskedArray.maskAll a).values = a.values ∧ ∀ i : Nat, i < a.mask.length →
      (MaskedArray.maskAll a).mask[i]? = some true) ∧
    ((a.clone v).hasMaskedValues = false ∧ (a.clone v).values.length = a.values.length) := by
  have hf : ∀ n, (List.replicate n false).any id = false := by
    intro n; rw [List.any_replicate]; split <;> rfl
  refine ⟨⟨hf _, rfl⟩, ⟨hf _, rfl⟩, ?_, ⟨rfl, ?_⟩, hf _, by simp [MaskedArray.clone, MaskedArray.filled]⟩
  · intro i x m h
    simp [MaskedArray.ofScalars, h]
  · intro i hi
    simp [MaskedArray.maskAll, hi]

example : ∃ b, (MaskedArray.mk [5, 6, 5] [false, true, false]).setMaskValue 5 = some b ∧
    b.mask = [true, true, true] := ⟨_, rfl, rfl⟩

example : (MaskedArray.mk [5, 6, 5] [false, true, false]).writeMask .i8 [7, 7, 7] =
    some [-1, 0, -1] := rfl

example : (MaskedArray.mk [5, 6, 5] [false, true, false]).setMask .u8 [255, 0, 0] =
    some (MaskedArray.mk [5, 6, 5] [false, true, true]) := rfl

end Mask

/-! ### C69: arrays made of nested lists -/

section NestedLists

variable {T : Type}

/-- Element `(i, j)` of an array made of rows of equal size is element `j` of row `i`. -/
theorem C69_rectangular (d : T) (rows : List (List T)) (n2 : Nat) (hne : rows ≠ [])
    (hrect : ∀ r ∈ rows, r.length = n2) (hn : rows.length * n2 ≤ 18446744073709551616) :
    ∃ a, Array2d.ofRows d rows = some a ∧ a.size1 = rows.length ∧ a.size2 = n2 ∧
      a.data.length = rows.length * n2 ∧
      ∀ i j r v, rows[i]? = some r → r[j]? = some v → a.get i j = some v := by
  have hflat : ∀ l : List (List T), (∀ r ∈ l, r.length = n2) →
      l.flatten.length = l.length * n2 ∧
      ∀ i j r v, l[i]? = some r → r[j]? = some v → l.flatten[i * n2 + j]? = some v := by
    intro l hl
    induction l with
    | nil => exact ⟨by simp, fun i j r v h => by simp at h⟩
    | cons x l ih =>
      obtain ⟨i1, i2⟩ := ih (fun r hr => hl r (by simp [hr]))
      have hx := hl x (by simp)
      constructor
      · rw [List.flatten_cons, List.length_append, i1, hx, List.length_cons, Nat.add_mul]; omega
      · intro i j r v hr hv
        rw [List.flatten_cons, List.getElem?_append, hx]
        cases i with
        | zero =>
          simp only [List.getElem?_cons_zero, Option.some.injEq] at hr
          subst hr
          have := (List.getElem?_eq_some_iff.1 hv).1
          rw [if_pos (by omega), Nat.zero_mul, Nat.zero_add]
          exact hv
        | succ i =>
          rw [List.getElem?_cons_succ] at hr
          rw [if_neg (by rw [Nat.add_mul]; omega)]
          have := i2 i j r v hr hv
          rw [show (i + 1) * n2 + j - n2 = i * n2 + j from by rw [Nat.add_mul]; omega]
          exact this
  obtain ⟨f1, f2⟩ := hflat rows hrect
  cases rows with
  | nil => exact absurd rfl hne
  | cons first rest =>
    have hf : first.length = n2 := hrect first (by simp)
    rw [Array2d.ofRows, hf]
    have hw := (writeValues_spec (first :: rest).flatten 0
      (List.replicate ((first :: rest).length * n2) d)).1 (by rw [f1, List.length_replicate]; omega)
    rw [hw, List.take_zero, List.nil_append, Nat.zero_add, f1, List.drop_of_length_le (by simp),
      List.append_nil]
    refine ⟨_, rfl, rfl, rfl, f1, ?_⟩
    intro i j r v hr hv
    rw [Array2d.get]
    have hi := (List.getElem?_eq_some_iff.1 hr).1
    have hj := (List.getElem?_eq_some_iff.1 hv).1
    rw [hrect r (List.mem_of_getElem? hr)] at hj
    simp only
    rw [C49_size_t _ n2 i j hn hi hj]
    exact f2 i j r v hr hv

/-- Nothing checks that the rows have equal sizes: the constructor writes outside of the array iff
there are more values than the number of rows times the size of the first row. -/
theorem C69_overrun (d : T) (first : List T) (rest : List (List T)) :
    Array2d.ofRows d (first :: rest) = none ↔
      (first :: rest).length * first.length < (first :: rest).flatten.length := by
  rw [Array2d.ofRows]
  constructor
  · intro h
    by_contra hc
    rw [(writeValues_spec (first :: rest).flatten 0 _).1 (by rw [List.length_replicate]; omega)] at h
    simp at h
  · intro h
    rw [(writeValues_spec (first :: rest).flatten 0 _).2 (by
      intro he; rw [he] at h; simp at h) (by rw [List.length_replicate]; omega)]
    rfl

/-- With a row that is too short the values of the following rows shift. -/
theorem C69_ragged_false : ∃ a, Array2d.ofRows 0 [[1, 2], [3], [4, 5]] = some a ∧
    a.get 2 0 = some 5 ∧ a.get 1 1 = some 4 ∧ a.get 2 1 = some 0 := ⟨_, rfl, rfl, rfl, rfl⟩

example : ∃ a, Array2d.ofRows 0 [[1, 2], [3, 4], [5, 6]] = some a ∧ a.get 2 0 = some 5 :=
  ⟨_, rfl, rfl⟩

end NestedLists

/-! ### C51 -/

section Reserved

/-- The reserved value is a value of the type. -/
theorem C51_representable (t : NumTy) (nd : Rat) (h : noDataValue t = some nd) :
    Spec.Represents t nd := by
  cases t with
  | bool => simp [noDataValue] at h
  | int t =>
    cases h
    refine ⟨if t.signed then t.min else t.max, by split <;> rfl, ?_⟩
    cases t <;> decide
  | f32 =>
    cases h
    exact ⟨1, -126, by norm_num, by norm_num, by norm_num, by norm_num, 126, .inr ⟨by norm_num, by norm_num⟩⟩
  | f64 =>
    cases h
    exact ⟨1, -1022, by norm_num, by norm_num, by norm_num, by norm_num, 1022, .inr ⟨by norm_num, by norm_num⟩⟩

/-- For the integer types it is the least value of the signed types, and the largest value of the
unsigned types. -/
theorem C51_extreme (t : IntTy) :
    ∃ nd : Int, noDataValue (.int t) = some (nd : Rat) ∧ Spec.Fits t nd ∧
      (Spec.Signed t → ∀ v, Spec.Fits t v → nd ≤ v) ∧
      (Spec.Unsigned t → ∀ v, Spec.Fits t v → v ≤ nd) := by
  refine ⟨if t.signed then t.min else t.max, by rw [noDataValue]; split <;> rfl, ?_⟩
  cases t <;>
    simp [IntTy.signed, IntTy.min, IntTy.max, IntTy.bits, Spec.Fits, Spec.Signed, Spec.Unsigned] <;>
    omega

/-- For the floating point types it is an ordinary positive value: half of it is a value too, and so
is its negation. -/
theorem C51_float : ∀ t, t = NumTy.f32 ∨ t = NumTy.f64 → ∃ nd, noDataValue t = some nd ∧ 0 < nd ∧
    nd < 1 ∧ Spec.Represents t (nd / 2) ∧ Spec.Represents t (-nd) := by
  have half : ∀ k : Nat, (1 / 2 ^ k : Rat) / 2 * 2 ^ (k + 1) = ((1 : Int) : Rat) := by
    intro k; rw [pow_succ]; field_simp; norm_num
  have neg : ∀ k : Nat, (-(1 / 2 ^ k) : Rat) * 2 ^ k = ((-1 : Int) : Rat) := by
    intro k; field_simp; norm_num
  have lt : ∀ k : Nat, 0 < k → (1 / 2 ^ k : Rat) < 1 := by
    intro k hk
    rw [div_lt_one (by positivity)]
    exact one_lt_pow₀ (by norm_num) (by omega)
  rintro t (rfl | rfl)
  · refine ⟨_, rfl, by positivity, lt 126 (by norm_num),
      ⟨1, -127, by norm_num, by norm_num, by norm_num, by norm_num, 127, .inr ⟨by norm_num, half 126⟩⟩,
      ⟨-1, -126, by norm_num, by norm_num, by norm_num, by norm_num, 126, .inr ⟨by norm_num, neg 126⟩⟩⟩
  · refine ⟨_, rfl, by positivity, lt 1022 (by norm_num),
      ⟨1, -1023, by norm_num, by norm_num, by norm_num, by norm_num, 1023,
        .inr ⟨by norm_num, half 1022⟩⟩,
      ⟨-1, -1022, by norm_num, by norm_num, by norm_num, by norm_num, 1022,
        .inr ⟨by norm_num, neg 1022⟩⟩⟩

variable {V : Type}

/-- The element has to become no-data. -/
def NoDataWanted (op : LocalOp V Rat) (inp : InPolicy V) (value : List V) (i : Nat) (v : V) : Prop :=
  Spec.NoDataAt inp value i ∨ op.withinDomain v = false ∨ op.withinRange v (op.compute v) = false

theorem reserved_cell {t : NumTy} {nd : Rat} (hnd : noDataValue t = some nd) (op : LocalOp V Rat)
    (inp : InPolicy V) (value : List V) (i : Nat) (v : V) (c c' : Cell Rat)
    (h : Spec.LocalCell op (markNoData t) (Spec.NoDataAt inp value i) v c c') :
    c'.val = nd ↔ NoDataWanted op inp value i v ∨ op.compute v = nd := by
  have hm : markNoData t = .markValue nd := by rw [markNoData, hnd]
  rw [hm] at h
  by_cases h1 : Spec.NoDataAt inp value i
  · have := (h.noData h1).1
    exact ⟨fun _ => .inl (.inl h1), fun _ => this⟩
  cases h2 : op.withinDomain v with
  | false =>
    have := (h.outOfDomain h1 h2).1
    exact ⟨fun _ => .inl (.inr (.inl h2)), fun _ => this⟩
  | true =>
    cases h3 : op.withinRange v (op.compute v) with
    | false =>
      have := (h.outOfRange h1 h2 h3).1
      exact ⟨fun _ => .inl (.inr (.inr h3)), fun _ => this⟩
    | true =>
      rw [h.ok h1 h2 h3]
      constructor
      · intro h; exact .inr h
      · rintro ((h | h | h) | h)
        · exact absurd h h1
        · rw [h2] at h; simp at h
        · rw [h3] at h; simp at h
        · exact h

/-- After an operation that marks no-data by the reserved value, detecting no-data by that value
finds exactly the elements that had to be marked and those whose computed value coincides with the
reserved value. -/
theorem C51_detect_1d (t : NumTy) (nd : Rat) (hnd : noDataValue t = some nd) (op : LocalOp V Rat)
    (inp : InPolicy V) (value : List V) (result : List (Cell Rat))
    (hsize : value.length = result.length) (hp : Spec.PolicyFor inp value.length) :
    ∃ out, unary1d op inp (markNoData t) value result = some out ∧ out.length = value.length ∧
      ∀ i v, value[i]? = some v →
        ((detectNoData t).isNoData (out.map (·.val)) i = some true ↔
          NoDataWanted op inp value i v ∨ op.compute v = nd) := by
  obtain ⟨out, h1, h2, h3⟩ := C09_unary_1d op inp (markNoData t) value result hsize hp
  refine ⟨out, h1, by omega, ?_⟩
  intro i v hv
  have hi := (List.getElem?_eq_some_iff.1 hv).1
  obtain ⟨c', hc', hcell⟩ := h3 i _ (List.getElem?_eq_getElem (by omega))
  rw [← reserved_cell hnd op inp value i v _ c' (hcell v hv), detectNoData, InPolicy.isNoData,
    List.getElem?_map, hc', hnd]
  simp only [Option.map_some, Option.some.injEq, beq_iff_eq]
  exact eq_comm

theorem C51_detect_2d (t : NumTy) (nd : Rat) (hnd : noDataValue t = some nd) (op : LocalOp V Rat)
    (inp : InPolicy V) (n1 n2 : Nat) (value : List V) (result : List (Cell Rat))
    (hv : value.length = n1 * n2) (hr : result.length = n1 * n2)
    (hp : Spec.PolicyFor inp (n1 * n2)) :
    ∃ out, unary2d op inp (markNoData t) (n1, n2) value (n1, n2) result = some out ∧
      out.length = value.length ∧
      ∀ i v, value[i]? = some v →
        ((detectNoData t).isNoData (out.map (·.val)) i = some true ↔
          NoDataWanted op inp value i v ∨ op.compute v = nd) := by
  obtain ⟨out, h1, h2, h3⟩ := C09_unary_2d op inp (markNoData t) n1 n2 value result hv hr hp
  refine ⟨out, h1, by omega, ?_⟩
  intro i v hv
  have hi := (List.getElem?_eq_some_iff.1 hv).1
  obtain ⟨c', hc', hcell⟩ := h3 i _ (List.getElem?_eq_getElem (by omega))
  rw [← reserved_cell hnd op inp value i v _ c' (hcell v hv), detectNoData, InPolicy.isNoData,
    List.getElem?_map, hc', hnd]
  simp only [Option.map_some, Option.some.injEq, beq_iff_eq]
  exact eq_comm

/-- So detection is exact iff no computed value of the other elements equals the reserved value. -/
theorem C51_exact (t : NumTy) (nd : Rat) (hnd : noDataValue t = some nd) (op : LocalOp V Rat)
    (inp : InPolicy V) (value : List V) (result : List (Cell Rat))
    (hsize : value.length = result.length) (hp : Spec.PolicyFor inp value.length) :
    ∃ out, unary1d op inp (markNoData t) value result = some out ∧
      ((∀ i v, value[i]? = some v → ((detectNoData t).isNoData (out.map (·.val)) i = some true ↔
          NoDataWanted op inp value i v)) ↔
        ∀ i v, value[i]? = some v → ¬ NoDataWanted op inp value i v → op.compute v ≠ nd) := by
  obtain ⟨out, h1, -, h3⟩ := C51_detect_1d t nd hnd op inp value result hsize hp
  refine ⟨out, h1, ?_, ?_⟩
  · intro h i v hv hw hc
    exact hw ((h i v hv).1 ((h3 i v hv).2 (.inr hc)))
  · intro h i v hv
    rw [h3 i v hv]
    constructor
    · rintro (hw | hc)
      · exact hw
      · by_contra hw
        exact h i v hv hw hc
    · exact .inl

theorem C51_exact_2d (t : NumTy) (nd : Rat) (hnd : noDataValue t = some nd) (op : LocalOp V Rat)
    (inp : InPolicy V) (n1 n2 : Nat) (value : List V) (result : List (Cell Rat))
    (hv : value.length = n1 * n2) (hr : result.length = n1 * n2) (hp : Spec.PolicyFor inp (n1 * n2)) :
    ∃ out, unary2d op inp (markNoData t) (n1, n2) value (n1, n2) result = some out ∧
      ((∀ i v, value[i]? = some v → ((detectNoData t).isNoData (out.map (·.val)) i = some true ↔
          NoDataWanted op inp value i v)) ↔
        ∀ i v, value[i]? = some v → ¬ NoDataWanted op inp value i v → op.compute v ≠ nd) := by
  obtain ⟨out, h1, -, h3⟩ := C51_detect_2d t nd hnd op inp n1 n2 value result hv hr hp
  refine ⟨out, h1, ?_, ?_⟩
  · intro h i v hv hw hc
    exact hw ((h i v hv).1 ((h3 i v hv).2 (.inr hc)))
  · intro h i v hv
    rw [h3 i v hv]
    constructor
    · rintro (hw | hc)
      · exact hw
      · by_contra hw
        exact h i v hv hw hc
    · exact .inl

/-- The result has to become no-data, given that an argument is no-data or not. -/
def Wanted {W : Type} (op : LocalOp W Rat) (missing : Prop) (v : W) : Prop :=
  missing ∨ op.withinDomain v = false ∨ op.withinRange v (op.compute v) = false

theorem reserved_elements {t : NumTy} {nd : Rat} (hnd : noDataValue t = some nd) {W : Type} (op : LocalOp W Rat)
    {missing : Nat → Prop} {R : Nat → Cell Rat → Cell Rat → Prop} {result out : List (Cell Rat)}
    (h : Spec.Elementwise R result out) (i : Nat) (hi : i < result.length) (v : W)
    (hR : ∀ c c', R i c c' → Spec.LocalCell op (markNoData t) (missing i) v c c') :
    (detectNoData t).isNoData (out.map (·.val)) i = some true ↔ Wanted op (missing i) v ∨ op.compute v = nd := by
  obtain ⟨c', hc', hcell⟩ := h.2 i _ (List.getElem?_eq_getElem hi)
  have h' := hR _ _ hcell
  have key : c'.val = nd ↔ Wanted op (missing i) v ∨ op.compute v = nd := by
    have hm : markNoData t = .markValue nd := by rw [markNoData, hnd]
    rw [hm] at h'
    by_cases h1 : missing i
    · have := (h'.noData h1).1
      exact ⟨fun _ => .inl (.inl h1), fun _ => this⟩
    cases h2 : op.withinDomain v with
    | false =>
      have := (h'.outOfDomain h1 h2).1
      exact ⟨fun _ => .inl (.inr (.inl h2)), fun _ => this⟩
    | true =>
      cases h3 : op.withinRange v (op.compute v) with
      | false =>
        have := (h'.outOfRange h1 h2 h3).1
        exact ⟨fun _ => .inl (.inr (.inr h3)), fun _ => this⟩
      | true =>
        rw [h'.ok h1 h2 h3]
        constructor
        · intro h; exact .inr h
        · rintro ((h | h | h) | h)
          · exact absurd h h1
          · rw [h2] at h; simp at h
          · rw [h3] at h; simp at h
          · exact h
  rw [← key, detectNoData, InPolicy.isNoData, List.getElem?_map, hc', hnd]
  simp only [Option.map_some, Option.some.injEq, beq_iff_eq]
  exact eq_comm

variable {V1 V2 : Type}

/-- The same for binary operations on two rasters: the arguments that are detected as no-data are those of either. -/
theorem C51_detect_2d2d (t : NumTy) (nd : Rat) (hnd : noDataValue t = some nd) (op : LocalOp (V1 × V2) Rat)
    (in1 : InPolicy V1) (in2 : InPolicy V2) (n1 n2 : Nat) (value1 : List V1) (value2 : List V2)
    (result : List (Cell Rat)) (hv1 : value1.length = n1 * n2) (hv2 : value2.length = n1 * n2)
    (hr : result.length = n1 * n2) (h1 : Spec.PolicyFor in1 (n1 * n2)) (h2 : Spec.PolicyFor in2 (n1 * n2)) :
    ∃ out, binary2d2d op in1 in2 (markNoData t) (n1, n2) value1 (n1, n2) value2 (n1, n2) result = some out ∧
      out.length = n1 * n2 ∧
      ∀ i v1 v2, value1[i]? = some v1 → value2[i]? = some v2 →
        ((detectNoData t).isNoData (out.map (·.val)) i = some true ↔
          Wanted op (Spec.NoDataAt in1 value1 i ∨ Spec.NoDataAt in2 value2 i) (v1, v2) ∨ op.compute (v1, v2) = nd) := by
  obtain ⟨out, k1, k2⟩ := C10_binary_2d2d op in1 in2 (markNoData t) n1 n2 value1 value2 result hv1 hv2 hr h1 h2
  refine ⟨out, k1, k2.1.trans hr, fun i v1 v2 e1 e2 => ?_⟩
  have hi := (List.getElem?_eq_some_iff.1 e1).1
  exact reserved_elements hnd op (missing := fun i => Spec.NoDataAt in1 value1 i ∨ Spec.NoDataAt in2 value2 i) k2 i
    (by omega) (v1, v2) fun c c' h => h v1 v2 e1 e2

/-- A raster and a scalar. -/
theorem C51_detect_2d0d (t : NumTy) (nd : Rat) (hnd : noDataValue t = some nd) (op : LocalOp (V1 × V2) Rat)
    (in1 : InPolicy V1) (in2 : InPolicy V2) (n1 n2 : Nat) (value1 : List V1) (v2 : V2)
    (result : List (Cell Rat)) (hv1 : value1.length = n1 * n2)
    (hr : result.length = n1 * n2) (h1 : Spec.PolicyFor in1 (n1 * n2)) (h2 : Spec.PolicyFor in2 1) :
    ∃ out, binary2d0d op in1 in2 (markNoData t) (n1, n2) value1 v2 (n1, n2) result = some out ∧
      out.length = n1 * n2 ∧
      ∀ i v1, value1[i]? = some v1 →
        ((detectNoData t).isNoData (out.map (·.val)) i = some true ↔
          Wanted op (Spec.NoDataAt in1 value1 i ∨ Spec.NoDataAt in2 [v2] 0) (v1, v2) ∨ op.compute (v1, v2) = nd) := by
  obtain ⟨out, k1, k2⟩ := C10_binary_2d0d op in1 in2 (markNoData t) n1 n2 value1 v2 result hv1 hr h1 h2
  refine ⟨out, k1, k2.1.trans hr, fun i v1 e1 => ?_⟩
  have hi := (List.getElem?_eq_some_iff.1 e1).1
  exact reserved_elements hnd op (missing := fun i => Spec.NoDataAt in1 value1 i ∨ Spec.NoDataAt in2 [v2] 0) k2 i
    (by omega) (v1, v2) fun c c' h => h v1 e1

/-- A scalar and a raster. -/
theorem C51_detect_0d2d (t : NumTy) (nd : Rat) (hnd : noDataValue t = some nd) (op : LocalOp (V1 × V2) Rat)
    (in1 : InPolicy V1) (in2 : InPolicy V2) (n1 n2 : Nat) (v1 : V1) (value2 : List V2)
    (result : List (Cell Rat)) (hv2 : value2.length = n1 * n2)
    (hr : result.length = n1 * n2) (h1 : Spec.PolicyFor in1 1) (h2 : Spec.PolicyFor in2 (n1 * n2)) :
    ∃ out, binary0d2d op in1 in2 (markNoData t) v1 (n1, n2) value2 (n1, n2) result = some out ∧
      out.length = n1 * n2 ∧
      ∀ i v2, value2[i]? = some v2 →
        ((detectNoData t).isNoData (out.map (·.val)) i = some true ↔
          Wanted op (Spec.NoDataAt in1 [v1] 0 ∨ Spec.NoDataAt in2 value2 i) (v1, v2) ∨ op.compute (v1, v2) = nd) := by
  obtain ⟨out, k1, k2⟩ := C10_binary_0d2d op in1 in2 (markNoData t) n1 n2 v1 value2 result hv2 hr h1 h2
  refine ⟨out, k1, k2.1.trans hr, fun i v2 e2 => ?_⟩
  have hi := (List.getElem?_eq_some_iff.1 e2).1
  exact reserved_elements hnd op (missing := fun i => Spec.NoDataAt in1 [v1] 0 ∨ Spec.NoDataAt in2 value2 i) k2 i
    (by omega) (v1, v2) fun c c' h => h v2 e2

/-- Two arrays. The second value is converted to the type of the first one. -/
theorem C51_detect_1d1d (t : NumTy) (nd : Rat) (hnd : noDataValue t = some nd) (op : LocalOp (V1 × V1) Rat)
    (conv : V2 → V1) (in1 : InPolicy V1) (in2 : InPolicy V2) (value1 : List V1) (value2 : List V2)
    (result : List (Cell Rat)) (hv1 : value1.length = result.length) (hv2 : value2.length = result.length)
    (h1 : Spec.PolicyFor in1 result.length) (h2 : Spec.PolicyFor in2 result.length) :
    ∃ out, binary1d1d op conv in1 in2 (markNoData t) value1 value2 result = some out ∧
      out.length = result.length ∧
      ∀ i v1 v2, value1[i]? = some v1 → value2[i]? = some v2 →
        ((detectNoData t).isNoData (out.map (·.val)) i = some true ↔
          Wanted op (Spec.NoDataAt in1 value1 i ∨ Spec.NoDataAt in2 value2 i) (v1, conv v2) ∨
            op.compute (v1, conv v2) = nd) := by
  obtain ⟨out, k1, k2⟩ := C10_binary_1d1d_converted op conv in1 in2 (markNoData t) value1 value2 result hv1 hv2 h1 h2
  refine ⟨out, k1, k2.1, fun i v1 v2 e1 e2 => ?_⟩
  have hi := (List.getElem?_eq_some_iff.1 e1).1
  exact reserved_elements hnd op (missing := fun i => Spec.NoDataAt in1 value1 i ∨ Spec.NoDataAt in2 value2 i) k2 i
    (by omega) (v1, conv v2) fun c c' h => h v1 v2 e1 e2

/-- Sums in `uint8_t` of two rasters of a row of three cells, the second cell of the first one being no-data: 200 + 55 is
detected as no-data. -/
example : ∃ out, binary2d2d (V1 := Rat) (V2 := Rat) ⟨fun _ => true, fun v => v.1 + v.2, fun _ _ => true⟩
      (detectNoData (.int .u8)) .skip (markNoData (.int .u8)) (1, 3) [1, 255, 200] (1, 3) [2, 3, 55] (1, 3)
      [⟨0, false⟩, ⟨0, false⟩, ⟨0, false⟩] = some out ∧
    ((List.range 3).map fun i => (detectNoData (.int .u8)).isNoData (out.map (·.val)) i) =
      [some false, some true, some true] := by
  refine ⟨_, rfl, ?_⟩
  decide +kernel

/-- A valid value that becomes no-data: the identity on `uint8_t`. -/
example : ∃ out, unary1d (V := Rat) { withinDomain := fun _ => true, compute := fun v => v, withinRange := fun _ _ => true } .skip
      (markNoData (.int .u8)) [3, 255] [⟨0, false⟩, ⟨0, false⟩] = some out ∧
    (detectNoData (.int .u8)).isNoData (out.map (·.val)) 0 = some false ∧
    (detectNoData (.int .u8)).isNoData (out.map (·.val)) 1 = some true := by
  refine ⟨_, rfl, ?_, ?_⟩ <;> decide

end Reserved

end Fern
