import Verif.Lemmas.PyOps

/-!
# C88: raster operations of the Python extension
-/

namespace Fern.PyOps

open Fern Fern.Spec Spec IntTy

/-! ### Rasters for the examples -/

/-- A raster of one row. -/
def row (t : IntTy) (values : List Int) : Raster := ⟨t, 1, values.length, (10, 20), (1, 1), values⟩

theorem row_wellFormed {t : IntTy} {values : List Int} (h : ∀ v ∈ values, Fits t v) : WellFormed (row t values) :=
  ⟨by simp [row], h⟩

/-! ### Addition -/

/-- The sum of rasters of unsigned integers: cells are masked if one of both is, if the type of the result cannot represent
the sum, and if it is the value that marks masked cells. The result lies where the first raster lies. -/
theorem C88_add_unsigned (garbage : Nat → Int) (l r : Raster) (t : IntTy) (h : Matching l r) (h1 : Unsigned l.type)
    (h2 : Unsigned r.type) (ht : resultInt l.type r.type = some t) :
    Gives (rasterRaster .add garbage l r) t l fun i =>
      both (valueAt l i) (valueAt r i) fun a b => store t (a + b) := by
  refine gives_congr ((rasterRaster_eq .add garbage h.left h.right h.rows h.cols h.leftType h.rightType ht).2 ?_) ?_
  · rintro ⟨i, a, b, ha, hb, he⟩
    obtain ⟨o, ho, _⟩ := C26_add_unsigned _ _ t h1 h2 ht a b (valueAt_fits h.left ha) (valueAt_fits h.right hb)
    simp [Arith.elem, ho] at he
  · intro i
    refine both_congr fun a b ha hb => ?_
    obtain ⟨o, ho, k1, k2⟩ := C26_add_unsigned _ _ t h1 h2 ht a b (valueAt_fits h.left ha) (valueAt_fits h.right hb)
    rw [store_eq]
    exact outcome_some ho k1 k2

example : rasterRaster .add (fun _ => 77) (row .u8 [1, 255, 200, 200, 7]) (row .u8 [2, 3, 54, 55, 255]) =
    .ok (row .u8 [3, 255, 254, 255, 255]) ∧
    Matching (row .u8 [1, 255, 200, 200, 7]) (row .u8 [2, 3, 54, 55, 255]) ∧
    (valueAt (row .u8 [3, 255, 254, 255, 255]) 2, valueAt (row .u8 [3, 255, 254, 255, 255]) 3) = (some 254, none) := by
  refine ⟨by decide +kernel, ⟨row_wellFormed (by decide), row_wellFormed (by decide), rfl, rfl, .inl rfl, .inl rfl⟩, by decide⟩

/-- Sums of unsigned rasters of different types. -/
example : rasterRaster .add (fun _ => 77) (row .u8 [1, 255]) (row .u32 [4000000000, 3]) =
    .ok (row .u32 [4000000001, 4294967295]) := by decide +kernel

/-- The sum of rasters of signed integers: if the type of the result cannot represent a sum, the behaviour is undefined;
no cell is masked because of it. -/
theorem C88_add_signed (garbage : Nat → Int) (l r : Raster) (t : IntTy) (h : Matching l r) (h1 : Signed l.type)
    (h2 : Signed r.type) (ht : resultInt l.type r.type = some t) :
    (SomePair (valueAt l) (valueAt r) (fun a b => ¬ Fits t (a + b)) →
      rasterRaster .add garbage l r = .undefined) ∧
    (¬ SomePair (valueAt l) (valueAt r) (fun a b => ¬ Fits t (a + b)) →
      Gives (rasterRaster .add garbage l r) t l fun i =>
        both (valueAt l i) (valueAt r i) fun a b => store t (a + b)) := by
  have hn := wide_result (.inl h1) h.leftType h.rightType ht
  have hc := fun a b ha hb => C27_add_signed_wide _ _ t h1 h2 ht hn a b ha hb
  have hp := somePair_congr (a := valueAt l) (b := valueAt r) (p := fun a b => Arith.add.elem l.type r.type a b = none)
    (q := fun a b => ¬ Fits t (a + b))
    fun i a b ha hb => (hc a b (valueAt_fits h.left ha) (valueAt_fits h.right hb)).1
  obtain ⟨k1, k2⟩ := rasterRaster_eq .add garbage h.left h.right h.rows h.cols h.leftType h.rightType ht
  rw [hp] at k1 k2
  refine ⟨k1, fun hno => gives_congr (k2 hno) fun i => both_congr fun a b ha hb => ?_⟩
  have hf : Fits t (a + b) := by
    by_contra hf
    exact hno ⟨i, a, b, ha, hb, hf⟩
  rw [store_eq, if_pos hf]
  simp only [Arith.elem, (hc a b (valueAt_fits h.left ha) (valueAt_fits h.right hb)).2 hf, outcome, Option.bind_some,
    if_pos]

example : rasterRaster .add (fun _ => 77) (row .i32 [-5, -2147483648, 2147483647]) (row .i32 [3, 3, 0]) =
    .ok (row .i32 [-2, -2147483648, 2147483647]) := by decide +kernel

example : rasterRaster .add (fun _ => 77) (row .i32 [2147483647]) (row .i32 [1]) = .undefined := by decide +kernel

/-- The sum of a raster of signed integers and one of unsigned integers of at most 32 bits: the behaviour is undefined if
the type of the result cannot represent a sum; otherwise cells are masked, although the sum could be represented, unless the
signed value is positive or the unsigned value is zero. -/
theorem C88_add_mixed (garbage : Nat → Int) (l r : Raster) (t : IntTy) (h : Matching l r) (h1 : Signed l.type)
    (h2 : Unsigned r.type) (h64 : r.type ≠ .u64) (ht : resultInt l.type r.type = some t) :
    (SomePair (valueAt l) (valueAt r) (fun a b => ¬ Fits t (a + b)) →
      rasterRaster .add garbage l r = .undefined) ∧
    (¬ SomePair (valueAt l) (valueAt r) (fun a b => ¬ Fits t (a + b)) →
      Gives (rasterRaster .add garbage l r) t l fun i =>
        both (valueAt l i) (valueAt r i) fun a b => if 0 < a ∨ b = 0 then store t (a + b) else none) := by
  have hn := wide_result (.inl h1) h.leftType h.rightType ht
  have hc := fun a b ha hb => C28_add_mixed _ _ t h1 h2 h64 ht a b ha hb
  have hp := somePair_congr (a := valueAt l) (b := valueAt r) (p := fun a b => Arith.add.elem l.type r.type a b = none)
    (q := fun a b => ¬ Fits t (a + b))
    fun i a b ha hb => (hc a b (valueAt_fits h.left ha) (valueAt_fits h.right hb)).1.trans (and_iff_right hn)
  obtain ⟨k1, k2⟩ := rasterRaster_eq .add garbage h.left h.right h.rows h.cols h.leftType h.rightType ht
  rw [hp] at k1 k2
  refine ⟨k1, fun hno => gives_congr (k2 hno) fun i => both_congr fun a b ha hb => ?_⟩
  have hf : Fits t (a + b) := by
    by_contra hf
    exact hno ⟨i, a, b, ha, hb, hf⟩
  obtain ⟨c1, _, c2⟩ := hc a b (valueAt_fits h.left ha) (valueAt_fits h.right hb)
  cases he : addElem l.type r.type a b with
  | none => exact absurd hf (c1.1 he).2
  | some o =>
    simp only [Arith.elem]
    rw [outcome_some he (c2 o he).1 (c2 o he).2, store_eq, if_pos hf]
    simp [hf]

/-- `-1 + 5` is masked, `-1 + 0` and `1 + 5` are not. -/
example : rasterRaster .add (fun _ => 77) (row .i32 [-1, -1, 1, 0]) (row .u8 [5, 0, 5, 5]) =
    .ok (row .i32 [-2147483648, -1, 6, -2147483648]) := by decide +kernel

/-- With 64 bit unsigned integers, sums are wrong: the sum of 0 and 9223372036854775813 is negative. -/
theorem C88_add_uint64_false :
    rasterRaster .add (fun _ => 77) (row .i32 [0]) (row .u64 [9223372036854775813]) =
      .ok (row .i64 [-9223372036854775803]) := by decide +kernel

/-! ### Multiplication -/

/-- The product of rasters of unsigned integers. -/
theorem C88_multiply_unsigned (garbage : Nat → Int) (l r : Raster) (t : IntTy) (h : Matching l r) (h1 : Unsigned l.type)
    (h2 : Unsigned r.type) (ht : resultInt l.type r.type = some t) :
    Gives (rasterRaster .multiply garbage l r) t l fun i =>
      both (valueAt l i) (valueAt r i) fun a b => store t (a * b) := by
  have hc := fun a b ha hb => C30_multiply_unsigned _ _ t h1 h2 ht a b ha hb
  have hd : ∀ a b, Fits l.type a → Fits r.type b → mulElem l.type r.type a b ≠ none := fun a b ha hb he =>
    not_u16 h.leftType h.rightType ht ((hc a b ha hb).1.1 he).1
  refine gives_congr ((rasterRaster_eq .multiply garbage h.left h.right h.rows h.cols h.leftType h.rightType ht).2 ?_) ?_
  · rintro ⟨i, a, b, ha, hb, he⟩
    exact hd a b (valueAt_fits h.left ha) (valueAt_fits h.right hb) he
  · intro i
    refine both_congr fun a b ha hb => ?_
    cases he : mulElem l.type r.type a b with
    | none => exact absurd he (hd a b (valueAt_fits h.left ha) (valueAt_fits h.right hb))
    | some o =>
      have := (hc a b (valueAt_fits h.left ha) (valueAt_fits h.right hb)).2 o he
      rw [store_eq]
      exact outcome_some he this.1 this.2

example : rasterRaster .multiply (fun _ => 77) (row .u8 [15, 16, 127, 255]) (row .u8 [17, 16, 2, 1]) =
    .ok (row .u8 [255, 255, 254, 255]) := by decide +kernel

/-- A product is the lowest value of a signed type only where this value is reserved anyway. -/
theorem store_mul {t : IntTy} (hs : Signed t) (p : Int) :
    (if Fits t p ∧ Fits t (-p) then unlessReserved t p else none) = store t p := by
  by_cases h : p = reserved t
  · simp [store, unlessReserved, h]
  · simp only [store, unlessReserved, if_neg h, ne_eq, h, not_false_eq_true, and_true]
    refine if_congr ?_ rfl rfl
    rcases hs with rfl | rfl | rfl | rfl <;> simp only [Fits, reserved] at h ⊢ <;> omega

/-- The product of rasters of which at least one has signed integers: a result is that of arithmetic. -/
theorem C88_multiply_signed (garbage : Nat → Int) (l r : Raster) (t : IntTy) (h : Matching l r)
    (h1 : Signed l.type ∨ Signed r.type) (ht : resultInt l.type r.type = some t) :
    rasterRaster .multiply garbage l r = .undefined ∨
      Gives (rasterRaster .multiply garbage l r) t l fun i =>
        both (valueAt l i) (valueAt r i) fun a b => store t (a * b) := by
  obtain ⟨k1, k2⟩ := rasterRaster_eq .multiply garbage h.left h.right h.rows h.cols h.leftType h.rightType ht
  by_cases hp : SomePair (valueAt l) (valueAt r) (fun a b => Arith.multiply.elem l.type r.type a b = none)
  · exact .inl (k1 hp)
  · refine .inr (gives_congr (k2 hp) fun i => both_congr fun a b ha hb => ?_)
    have fa := valueAt_fits h.left ha
    have fb := valueAt_fits h.right hb
    cases he : mulElem l.type r.type a b with
    | none => exact absurd ⟨i, a, b, ha, hb, he⟩ hp
    | some o =>
      have hts : Signed t := (signed_iff _).2 <| by
        by_cases hs : l.type.signed = r.type.signed
        · rw [(resultInt_same hs ht).1]
          rcases h1 with h1 | h1
          · exact (signed_iff _).1 h1
          · rw [hs]
            exact (signed_iff _).1 h1
        · exact (resultInt_mixed hs ht).1
      rw [← store_mul hts]
      by_cases hl : Signed l.type <;> by_cases hr : Signed r.type
      · have := (C30_multiply_signed _ _ t hl hr ht a b fa fb).2 o he
        exact outcome_some he this.1 this.2
      · have hu : Unsigned r.type := by
          rcases h.rightType with e | e | e | e | e <;> rw [e] at hr ⊢ <;> simp [Signed, Unsigned] at hr ⊢
        have := C30_multiply_mixed _ _ t hu hl (by rw [resultInt_comm, ht]) b a fb fa o (.inr he)
        rw [Int.mul_comm b a] at this
        exact outcome_some he this.1 this.2
      · have hu : Unsigned l.type := by
          rcases h.leftType with e | e | e | e | e <;> rw [e] at hl ⊢ <;> simp [Signed, Unsigned] at hl ⊢
        have := C30_multiply_mixed _ _ t hu hr ht a b fa fb o (.inl he)
        exact outcome_some he this.1 this.2
      · exact absurd h1 (by simp [hl, hr])

/-- Without 64 bit unsigned integers, the behaviour is undefined if and only if a product cannot be represented. -/
theorem C88_multiply_undefined (garbage : Nat → Int) (l r : Raster) (t : IntTy) (h : Matching l r)
    (h1 : Signed l.type ∨ Signed r.type) (h64 : l.type ≠ .u64 ∧ r.type ≠ .u64)
    (ht : resultInt l.type r.type = some t) :
    rasterRaster .multiply garbage l r = .undefined ↔
      SomePair (valueAt l) (valueAt r) (fun a b => ¬ Fits t (a * b)) := by
  have hn := wide_result h1 h.leftType h.rightType ht
  have hfit : t.signed = true ∧ (∀ v, Fits l.type v → Fits t v) ∧ ∀ v, Fits r.type v → Fits t v := by
    by_cases hs : l.type.signed = r.type.signed
    · obtain ⟨e1, e2, e3⟩ := resultInt_same hs ht
      refine ⟨?_, e2, e3⟩
      rw [e1]
      rcases h1 with h1 | h1
      · exact (signed_iff _).1 h1
      · rw [hs]
        exact (signed_iff _).1 h1
    · obtain ⟨e1, e2, e3⟩ := resultInt_mixed hs ht
      exact ⟨e1, e2 h64.1, e3 h64.2⟩
  have hpr : t.promote = t := by
    cases t <;> simp [Narrow] at hn <;> rfl
  have hc : ∀ a b, Fits l.type a → Fits r.type b → (mulElem l.type r.type a b = none ↔ ¬ Fits t (a * b)) := by
    intro a b ha hb
    have hm : ∃ y, mulRange l.type r.type t a b = some y := by
      cases e1 : l.type.signed <;> cases e2 : r.type.signed
      · rcases h1 with h1 | h1 <;> rw [signed_iff] at h1
        · rw [h1] at e1; simp at e1
        · rw [h1] at e2; simp at e2
      · simp only [mulRange, e1, e2]
        exact ⟨_, mulRangeUS_eq e1 e2 hfit.1 ha hb⟩
      · simp only [mulRange, e1, e2]
        exact ⟨_, mulRangeUS_eq e2 e1 hfit.1 hb ha⟩
      · exact ⟨_, mulRange_ss e1 e2 hfit.1 ha hb⟩
    obtain ⟨y, hy⟩ := hm
    simp only [mulElem, ht, Option.bind_eq_bind, Option.bind_some, mulCompute_eq (hfit.2.1 a ha) (hfit.2.2 b hb), hpr,
      hfit.1, hy, true_and]
    by_cases hf : Fits t (a * b) <;> simp [hf]
  have hp := somePair_congr (a := valueAt l) (b := valueAt r)
    (p := fun a b => Arith.multiply.elem l.type r.type a b = none) (q := fun a b => ¬ Fits t (a * b))
    fun i a b ha hb => hc a b (valueAt_fits h.left ha) (valueAt_fits h.right hb)
  obtain ⟨k1, k2⟩ := rasterRaster_eq .multiply garbage h.left h.right h.rows h.cols h.leftType h.rightType ht
  rw [hp] at k1 k2
  refine ⟨fun hu => ?_, k1⟩
  by_contra hno
  obtain ⟨q, hq, _⟩ := k2 hno
  rw [hq] at hu
  simp at hu

example : rasterRaster .multiply (fun _ => 77) (row .i32 [-5, -2147483648, -1073741824]) (row .i64 [3, 3, 2]) =
    .ok (row .i64 [-15, -9223372036854775808, -2147483648]) := by decide +kernel

example : rasterRaster .multiply (fun _ => 77) (row .i32 [-65536]) (row .i32 [32768]) =
      .ok (row .i32 [-2147483648]) ∧
    rasterRaster .multiply (fun _ => 77) (row .i32 [65536]) (row .i32 [32768]) = .undefined := by decide +kernel

/-! ### Both, and numbers -/

/-- Results are unique. -/
theorem gives_unique {o o' : Out Raster} {t : IntTy} {l : Raster} {f : Nat → Option Int} (h : Gives o t l f)
    (h' : Gives o' t l f) : o = o' := by
  obtain ⟨⟨t1, r1, c1, o1, s1, v1⟩, rfl, e1, ⟨a1, a2, a3, a4⟩, w1, x1⟩ := h
  obtain ⟨⟨t2, r2, c2, o2, s2, v2⟩, rfl, e2, ⟨b1, b2, b3, b4⟩, w2, x2⟩ := h'
  simp only at e1 e2 a1 a2 a3 a4 b1 b2 b3 b4
  subst e1 e2 a1 a2 a3 a4
  subst b1 b2 b3 b4
  have := values_ext w1 w2 rfl rfl rfl fun i => (x1 i).trans (x2 i).symm
  simp only at this
  rw [this]

/-- Sums and products do not depend on what the memory of the result contained, and, apart from where the result lies,
they do not depend on the order of the rasters. -/
theorem C88_commutes (o : Arith) (garbage garbage' : Nat → Int) (l r : Raster) (h : Matching l r) :
    (rasterRaster o garbage l r = .undefined ∧ rasterRaster o garbage' r l = .undefined) ∨
    ∃ q q', rasterRaster o garbage l r = .ok q ∧ rasterRaster o garbage' r l = .ok q' ∧ Placed q l ∧ Placed q' r ∧
      q.type = q'.type ∧ q.values = q'.values := by
  obtain ⟨t, ht⟩ := resultInt_some l.type r.type
  have ht' : resultInt r.type l.type = some t := by rw [resultInt_comm, ht]
  have hc := fun i a b (ha : valueAt l i = some a) (hb : valueAt r i = some b) =>
    elem_comm o h.leftType h.rightType (valueAt_fits h.left ha) (valueAt_fits h.right hb) ht
  obtain ⟨k1, k2⟩ := rasterRaster_eq o garbage h.left h.right h.rows h.cols h.leftType h.rightType ht
  obtain ⟨m1, m2⟩ := rasterRaster_eq o garbage' h.right h.left h.rows.symm h.cols.symm h.rightType h.leftType ht'
  by_cases hp : SomePair (valueAt l) (valueAt r) (fun a b => o.elem l.type r.type a b = none)
  · refine .inl ⟨k1 hp, m1 ?_⟩
    obtain ⟨i, a, b, ha, hb, he⟩ := hp
    exact ⟨i, b, a, hb, ha, (hc i a b ha hb).1.2 he⟩
  · have hp' : ¬ SomePair (valueAt r) (valueAt l) (fun a b => o.elem r.type l.type a b = none) := by
      rintro ⟨i, b, a, hb, ha, he⟩
      exact hp ⟨i, a, b, ha, hb, (hc i a b ha hb).1.1 he⟩
    obtain ⟨q, e1, e2, e3, e4, e5⟩ := k2 hp
    obtain ⟨q', f1, f2, f3, f4, f5⟩ := m2 hp'
    refine .inr ⟨q, q', e1, f1, e3, f3, e2.trans f2.symm, ?_⟩
    refine values_ext e4 f4 (e2.trans f2.symm) ?_ ?_ fun i => ?_
    · rw [e3.rows, f3.rows, h.rows]
    · rw [e3.cols, f3.cols, h.cols]
    · rw [e5, f5]
      dsimp only
      cases ha : valueAt l i with
      | none => cases valueAt r i <;> rfl
      | some a =>
        cases hb : valueAt r i with
        | none => rfl
        | some b => exact (hc i a b ha hb).2.symm

@[inherit_doc C88_commutes]
theorem C88_number_commutes (o : Arith) (garbage garbage' : Nat → Int) (l : Raster) (n : Int) (hl : WellFormed l)
    (hs : Supported l.type) : numberRaster o garbage n l = rasterNumber o garbage' l n := by
  have hc := fun i a (ha : valueAt l i = some a) =>
    elem_comm o hs hs (valueAt_fits hl ha) (fits_wrap l.type n) (resultInt_self _)
  obtain ⟨k1, k2⟩ := rasterNumber_eq o garbage' n hl hs
  obtain ⟨m1, m2⟩ := numberRaster_eq o garbage n hl hs
  by_cases hp : ∃ i a, valueAt l i = some a ∧ o.elem l.type l.type a (l.type.wrap n) = none
  · rw [k1 hp, m1]
    obtain ⟨i, a, ha, he⟩ := hp
    exact ⟨i, a, ha, (hc i a ha).1.2 he⟩
  · refine gives_unique (m2 ?_) (gives_congr (k2 hp) fun i => ?_)
    · rintro ⟨i, a, ha, he⟩
      exact hp ⟨i, a, ha, (hc i a ha).1.1 he⟩
    · cases ha : valueAt l i with
      | none => rfl
      | some a => exact (hc i a ha).2.symm

/-- Raster and number: the number is converted to the type of the raster first, whatever this makes of it. Rasters of
unsigned integers. -/
theorem C88_number_unsigned (garbage : Nat → Int) (l : Raster) (n w : Int) (hl : WellFormed l) (hs : Supported l.type)
    (h1 : Unsigned l.type) (hw : Converted l.type n w) :
    (Gives (rasterNumber .add garbage l n) l.type l fun i => (valueAt l i).bind fun a => store l.type (a + w)) ∧
    (Gives (rasterNumber .multiply garbage l n) l.type l fun i =>
      (valueAt l i).bind fun a => store l.type (a * w)) := by
  have fw := hw.1
  obtain rfl := converted_iff.1 hw
  constructor
  · refine gives_congr ((rasterNumber_eq .add garbage n hl hs).2 ?_) fun i => ?_
    · rintro ⟨i, a, ha, he⟩
      obtain ⟨o, ho, _⟩ := C26_add_unsigned _ _ l.type h1 h1 (resultInt_self _) a _ (valueAt_fits hl ha) fw
      simp [Arith.elem, ho] at he
    · cases ha : valueAt l i with
      | none => rfl
      | some a =>
        obtain ⟨o, ho, k1, k2⟩ := C26_add_unsigned _ _ l.type h1 h1 (resultInt_self _) a _ (valueAt_fits hl ha) fw
        simp only [Option.bind_some]
        rw [store_eq]
        exact outcome_some ho k1 k2
  · have hc := fun a ha => C30_multiply_unsigned _ _ l.type h1 h1 (resultInt_self _) a (l.type.wrap n) ha fw
    have hd : ∀ a, Fits l.type a → mulElem l.type l.type a (l.type.wrap n) ≠ none := fun a ha he =>
      not_u16 hs hs (resultInt_self _) ((hc a ha).1.1 he).1
    refine gives_congr ((rasterNumber_eq .multiply garbage n hl hs).2 ?_) fun i => ?_
    · rintro ⟨i, a, ha, he⟩
      exact hd a (valueAt_fits hl ha) he
    · cases ha : valueAt l i with
      | none => rfl
      | some a =>
        simp only [Option.bind_some]
        cases he : mulElem l.type l.type a (l.type.wrap n) with
        | none => exact absurd he (hd a (valueAt_fits hl ha))
        | some o =>
          have := (hc a (valueAt_fits hl ha)).2 o he
          rw [store_eq]
          exact outcome_some he this.1 this.2

/-- Adding 300 to a raster of 8 bit unsigned integers adds 44. -/
example : rasterNumber .add (fun _ => 77) (row .u8 [1, 255, 215]) 300 = .ok (row .u8 [45, 255, 255]) ∧
    Converted .u8 300 44 := by
  refine ⟨by decide +kernel, by unfold Converted; decide⟩

/-- Rasters of signed integers. -/
theorem C88_number_signed (garbage : Nat → Int) (l : Raster) (n w : Int) (hl : WellFormed l) (hs : Supported l.type)
    (h1 : Signed l.type) (hw : Converted l.type n w) :
    ((∃ i a, valueAt l i = some a ∧ ¬ Fits l.type (a + w)) → rasterNumber .add garbage l n = .undefined) ∧
    ((¬ ∃ i a, valueAt l i = some a ∧ ¬ Fits l.type (a + w)) →
      Gives (rasterNumber .add garbage l n) l.type l fun i => (valueAt l i).bind fun a => store l.type (a + w)) ∧
    ((∃ i a, valueAt l i = some a ∧ ¬ Fits l.type (a * w)) → rasterNumber .multiply garbage l n = .undefined) ∧
    ((¬ ∃ i a, valueAt l i = some a ∧ ¬ Fits l.type (a * w)) →
      Gives (rasterNumber .multiply garbage l n) l.type l fun i =>
        (valueAt l i).bind fun a => store l.type (a * w)) := by
  have fw := hw.1
  obtain rfl := converted_iff.1 hw
  have hn := wide_signed h1 hs
  have hc := fun i a (ha : valueAt l i = some a) =>
    C27_add_signed_wide _ _ l.type h1 h1 (resultInt_self _) hn a _ (valueAt_fits hl ha) fw
  have hm := fun i a (ha : valueAt l i = some a) =>
    C30_multiply_signed _ _ l.type h1 h1 (resultInt_self _) a _ (valueAt_fits hl ha) fw
  obtain ⟨k1, k2⟩ := rasterNumber_eq .add garbage n hl hs
  obtain ⟨m1, m2⟩ := rasterNumber_eq .multiply garbage n hl hs
  refine ⟨?_, ?_, ?_, ?_⟩
  · rintro ⟨i, a, ha, he⟩
    exact k1 ⟨i, a, ha, (hc i a ha).1.2 he⟩
  · intro hno
    refine gives_congr (k2 ?_) fun i => ?_
    · rintro ⟨i, a, ha, he⟩
      exact hno ⟨i, a, ha, (hc i a ha).1.1 he⟩
    · cases ha : valueAt l i with
      | none => rfl
      | some a =>
        have hf : Fits l.type (a + l.type.wrap n) := by
          by_contra hf
          exact hno ⟨i, a, ha, hf⟩
        simp only [Option.bind_some]
        rw [store_eq, if_pos hf]
        simp only [Arith.elem, (hc i a ha).2 hf, outcome, Option.bind_some, if_pos]
  · rintro ⟨i, a, ha, he⟩
    exact m1 ⟨i, a, ha, (hm i a ha).1.2 ⟨hn, he⟩⟩
  · intro hno
    refine gives_congr (m2 ?_) fun i => ?_
    · rintro ⟨i, a, ha, he⟩
      exact hno ⟨i, a, ha, ((hm i a ha).1.1 he).2⟩
    · cases ha : valueAt l i with
      | none => rfl
      | some a =>
        simp only [Option.bind_some]
        cases he : mulElem l.type l.type a (l.type.wrap n) with
        | none => exact absurd ⟨i, a, ha, ((hm i a ha).1.1 he).2⟩ hno
        | some o =>
          have := (hm i a ha).2 o he
          rw [← store_mul h1]
          exact outcome_some he this.1 this.2

example : rasterNumber .multiply (fun _ => 77) (row .i32 [3, -2147483648, -4]) (-2) =
      .ok (row .i32 [-6, -2147483648, 8]) ∧
    rasterNumber .add (fun _ => 77) (row .i32 [1]) 4294967297 = .ok (row .i32 [2]) := by decide +kernel

/-! ### In place -/

theorem addRange_overwritten {t : IntTy} {x y : Int} (hx : Fits t x) (hy : Fits t y) : addRange t t t x y x = true := by
  cases hs : t.signed
  · rw [addRange_uu hs hs hs hx hx]
    simp
  · rw [addRange_ss hs hs hs hx hx hy]
    simp

theorem wrap_modulo {t : IntTy} (h : Unsigned t) (x : Int) : t.wrap x = x % 2 ^ t.bits := by
  rcases h with rfl | rfl | rfl | rfl <;>
    simp [wrap_u8, wrap_u16, wrap_u32, wrap_u64, IntTy.bits]

/-- `+=` with rasters of unsigned integers: sums that the type cannot represent are not noticed; they wrap. -/
theorem C88_iadd_unsigned (self : Raster) (other : Other) (h : Matching self (operand self other))
    (ht : (operand self other).type = self.type) (h1 : Unsigned self.type) :
    Gives (inPlace .add self other) self.type self fun i =>
      both (valueAt self i) (valueAt (operand self other) i) fun a b =>
        unlessReserved self.type ((a + b) % 2 ^ self.type.bits) := by
  have hc : ∀ a b, Fits self.type a → Fits self.type b →
      addCompute self.type a b = some ((a + b) % 2 ^ self.type.bits) := by
    intro a b ha hb
    rw [addCompute_eq ha hb, if_neg, wrap_modulo h1]
    rintro ⟨e1, e2⟩
    rcases h1 with e | e | e | e <;> rw [e] at e1 e2 ha hb <;> simp [IntTy.promote, IntTy.bits, IntTy.signed] at e1 <;>
      simp only [Fits, IntTy.promote, IntTy.bits] at * <;> simp at e2 <;> omega
  refine gives_congr ((inPlace_eq .add h.left h.right ht h.rows h.cols h.leftType).2 ?_) fun i => both_congr fun a b ha hb => ?_
  · rintro ⟨i, a, b, ha, hb, he⟩
    have fb := valueAt_fits h.right hb
    rw [ht] at fb
    simp [Arith.undefinedInPlace, hc a b (valueAt_fits h.left ha) fb] at he
  · have fa := valueAt_fits h.left ha
    have fb := valueAt_fits h.right hb
    rw [ht] at fb
    have hx : Fits self.type ((a + b) % 2 ^ self.type.bits) := by
      rw [← wrap_modulo h1]
      exact fits_wrap _ _
    simp only [inPlaceOutcome, Arith.op, addOp, hc a b fa fb, Option.getD_some]
    rw [addRange_overwritten hx (by split <;> assumption), if_pos rfl]

/-- 200 + 100 is 44 in place, but masked otherwise. -/
example : inPlace .add (row .u8 [200, 255, 3]) (.raster (row .u8 [100, 1, 255])) = .ok (row .u8 [44, 255, 255]) ∧
    rasterRaster .add (fun _ => 77) (row .u8 [200, 255, 3]) (row .u8 [100, 1, 255]) =
      .ok (row .u8 [255, 255, 255]) ∧
    inPlace .add (row .u8 [200, 255, 3]) .self = .ok (row .u8 [144, 255, 6]) := by decide +kernel

/-- `+=` with rasters of signed integers. -/
theorem C88_iadd_signed (self : Raster) (other : Other) (h : Matching self (operand self other))
    (ht : (operand self other).type = self.type) (h1 : Signed self.type) :
    (SomePair (valueAt self) (valueAt (operand self other)) (fun a b => ¬ Fits self.type (a + b)) →
      inPlace .add self other = .undefined) ∧
    (¬ SomePair (valueAt self) (valueAt (operand self other)) (fun a b => ¬ Fits self.type (a + b)) →
      Gives (inPlace .add self other) self.type self fun i =>
        both (valueAt self i) (valueAt (operand self other) i) fun a b => store self.type (a + b)) := by
  have hn := wide_signed h1 h.leftType
  have hpr : self.type.promote = self.type := by
    cases e : self.type <;> rw [e] at hn <;> simp [Narrow] at hn <;> rfl
  have hs := (signed_iff _).1 h1
  have hc : ∀ a b, Fits self.type a → Fits self.type b →
      addCompute self.type a b = if Fits self.type (a + b) then some (a + b) else none := by
    intro a b ha hb
    rw [addCompute_eq ha hb, hpr]
    by_cases hf : Fits self.type (a + b)
    · simp [hf, wrap_fits hf]
    · simp [hf, hs]
  have hp := somePair_congr (a := valueAt self) (b := valueAt (operand self other))
    (p := fun a b => Arith.add.undefinedInPlace self.type (own other) a b = true)
    (q := fun a b => ¬ Fits self.type (a + b)) fun i a b ha hb => by
      have fb := valueAt_fits h.right hb
      rw [ht] at fb
      simp only [Arith.undefinedInPlace, hc a b (valueAt_fits h.left ha) fb]
      by_cases hf : Fits self.type (a + b) <;> simp [hf]
  obtain ⟨k1, k2⟩ := inPlace_eq .add h.left h.right ht h.rows h.cols h.leftType
  rw [hp] at k1 k2
  refine ⟨k1, fun hno => gives_congr (k2 hno) fun i => both_congr fun a b ha hb => ?_⟩
  have fb := valueAt_fits h.right hb
  rw [ht] at fb
  have hf : Fits self.type (a + b) := by
    by_contra hf
    exact hno ⟨i, a, b, ha, hb, hf⟩
  simp only [inPlaceOutcome, Arith.op, addOp, hc a b (valueAt_fits h.left ha) fb, if_pos hf, Option.getD_some]
  rw [addRange_overwritten hf (by split <;> assumption), if_pos rfl, store_eq, if_pos hf]

example : inPlace .add (row .i32 [-5, -2147483648]) (.raster (row .i32 [7, 7])) = .ok (row .i32 [2, -2147483648]) ∧
    inPlace .add (row .i32 [2147483647]) .self = .undefined := by decide +kernel

/-- `*=` with rasters of unsigned integers: the product wraps; what is checked is whether the *new* value can be multiplied
once more with the value at the right hand side, which is the new value too if both rasters are the same one. -/
theorem C88_imultiply_unsigned (self : Raster) (other : Other) (h : Matching self (operand self other))
    (ht : (operand self other).type = self.type) (h1 : Unsigned self.type) :
    Gives (inPlace .multiply self other) self.type self fun i =>
      both (valueAt self i) (valueAt (operand self other) i) fun a b =>
        let x := a * b % 2 ^ self.type.bits
        if Fits self.type (x * afterwards other x b) then unlessReserved self.type x
        else none := by
  have hu := (unsigned_iff _).1 h1
  have hc : ∀ a b, Fits self.type a → Fits self.type b →
      mulCompute self.type a b = some (a * b % 2 ^ self.type.bits) := by
    intro a b ha hb
    rw [mulCompute_eq ha hb, if_neg, wrap_modulo h1]
    rintro ⟨e1, e2⟩
    rcases h.leftType with e | e | e | e | e <;> rw [e] at e1 e2 ha hb hu <;>
      simp [IntTy.promote, IntTy.bits, IntTy.signed] at e1 hu
    simp only [Fits, IntTy.promote, IntTy.bits] at *
    have := Int.mul_nonneg ha.1 hb.1
    have : a * b ≤ 255 * 255 := Int.mul_le_mul ha.2 hb.2 hb.1 (by omega)
    simp at e2
    omega
  have hr : ∀ x y, Fits self.type x → Fits self.type y →
      mulRange self.type self.type self.type x y = some (decide (Fits self.type (x * y))) := by
    intro x y hx hy
    rw [mulRange_uu hu hu hu hx hy]
    congr 1
    rw [decide_eq_decide]
    have := Int.mul_nonneg (fits_nonneg hu hx) (fits_nonneg hu hy)
    rcases h1 with e | e | e | e <;> rw [e] <;> simp [Fits, IntTy.max, IntTy.bits, IntTy.signed] <;> omega
  have hxf : ∀ x : Int, Fits self.type (x % 2 ^ self.type.bits) := fun x => by
    rw [← wrap_modulo h1]
    exact fits_wrap _ _
  refine gives_congr ((inPlace_eq .multiply h.left h.right ht h.rows h.cols h.leftType).2 ?_) fun i => both_congr fun a b ha hb => ?_
  · rintro ⟨i, a, b, ha, hb, he⟩
    have fb := valueAt_fits h.right hb
    rw [ht] at fb
    simp only [Arith.undefinedInPlace, hc a b (valueAt_fits h.left ha) fb] at he
    rw [hr _ _ (hxf _) (by split; exacts [hxf _, fb])] at he
    simp at he
  · have fa := valueAt_fits h.left ha
    have fb := valueAt_fits h.right hb
    rw [ht] at fb
    simp only [inPlaceOutcome, Arith.op, mulOp, hc a b fa fb, Option.getD_some]
    rw [hr _ _ (hxf _) (by split; exacts [hxf _, fb]), Option.getD_some]
    cases other <;> simp [own, afterwards] <;> congr

/-- `100 * 2` is masked in place although 200 can be represented; `16 * 16` and `128 * 2` become 0. -/
example : inPlace .multiply (row .u8 [100, 100, 16, 5]) (.raster (row .u8 [2, 5, 15, 3])) =
      .ok (row .u8 [255, 255, 255, 15]) ∧
    inPlace .multiply (row .u8 [16, 128]) (.raster (row .u8 [16, 2])) = .ok (row .u8 [0, 0]) ∧
    inPlace .multiply (row .u8 [4, 3, 16]) .self = .ok (row .u8 [255, 9, 0]) := by decide +kernel

/-- `*=` with rasters of signed integers. -/
theorem C88_imultiply_signed (self : Raster) (other : Other) (h : Matching self (operand self other))
    (ht : (operand self other).type = self.type) (h1 : Signed self.type) :
    (SomePair (valueAt self) (valueAt (operand self other)) (fun a b => ¬ Fits self.type (a * b)) →
      inPlace .multiply self other = .undefined) ∧
    (¬ SomePair (valueAt self) (valueAt (operand self other)) (fun a b => ¬ Fits self.type (a * b)) →
      Gives (inPlace .multiply self other) self.type self fun i =>
        both (valueAt self i) (valueAt (operand self other) i) fun a b =>
          let y := a * b * afterwards other (a * b) b
          if Fits self.type y ∧ Fits self.type (-y) then unlessReserved self.type (a * b) else none) := by
  have hn := wide_signed h1 h.leftType
  have hpr : self.type.promote = self.type := by
    cases e : self.type <;> rw [e] at hn <;> simp [Narrow] at hn <;> rfl
  have hs := (signed_iff _).1 h1
  have hc : ∀ a b, Fits self.type a → Fits self.type b →
      mulCompute self.type a b = if Fits self.type (a * b) then some (a * b) else none := by
    intro a b ha hb
    rw [mulCompute_eq ha hb, hpr]
    by_cases hf : Fits self.type (a * b)
    · simp [hf, wrap_fits hf]
    · simp [hf, hs]
  have hr : ∀ x y, Fits self.type x → Fits self.type y →
      mulRange self.type self.type self.type x y =
        some (decide (Fits self.type (x * y) ∧ Fits self.type (-(x * y)))) := by
    intro x y hx hy
    rw [mulRange_ss hs hs hs hx hy]
    congr 1
    rw [decide_eq_decide]
    generalize x * y = p
    rcases h1 with e | e | e | e <;> rw [e] <;> simp [Fits, IntTy.max, IntTy.bits, IntTy.signed] <;> omega
  have hp := somePair_congr (a := valueAt self) (b := valueAt (operand self other))
    (p := fun a b => Arith.multiply.undefinedInPlace self.type (own other) a b = true)
    (q := fun a b => ¬ Fits self.type (a * b)) fun i a b ha hb => by
      have fb := valueAt_fits h.right hb
      rw [ht] at fb
      simp only [Arith.undefinedInPlace, hc a b (valueAt_fits h.left ha) fb]
      by_cases hf : Fits self.type (a * b)
      · simp only [if_pos hf]
        rw [hr _ _ hf (by split <;> assumption)]
        simp [hf]
      · simp [hf]
  obtain ⟨k1, k2⟩ := inPlace_eq .multiply h.left h.right ht h.rows h.cols h.leftType
  rw [hp] at k1 k2
  refine ⟨k1, fun hno => gives_congr (k2 hno) fun i => both_congr fun a b ha hb => ?_⟩
  have fb := valueAt_fits h.right hb
  rw [ht] at fb
  have hf : Fits self.type (a * b) := by
    by_contra hf
    exact hno ⟨i, a, b, ha, hb, hf⟩
  simp only [inPlaceOutcome, Arith.op, mulOp, hc a b (valueAt_fits h.left ha) fb, if_pos hf, Option.getD_some]
  rw [hr _ _ hf (by split <;> assumption), Option.getD_some]
  cases other <;> simp [own, afterwards] <;> congr

example : inPlace .multiply (row .i32 [-5, -2147483648, 65536]) (.raster (row .i32 [7, 7, 200])) =
    .ok (row .i32 [-35, -2147483648, -2147483648]) := by decide +kernel

/-! ### Comparison -/

/-- Comparisons of rasters: values are compared as numbers, but for negative values which are compared with values of an
unsigned type that is not narrower: they count as large numbers. -/
theorem C88_compare (garbage : Nat → Int) (l r : Raster) (h : Matching l r) :
    (Gives (compareRasters .less garbage l r) .u8 l fun i => both (valueAt l i) (valueAt r i) fun a b =>
      truthValue (seen l.type r.type a < seen r.type l.type b)) ∧
    (Gives (compareRasters .greater garbage l r) .u8 l fun i => both (valueAt l i) (valueAt r i) fun a b =>
      truthValue (seen l.type r.type a > seen r.type l.type b)) := by
  constructor
  · refine gives_congr (compareRasters_eq .less garbage h.left h.right h.rows h.cols h.leftType h.rightType) fun i =>
      both_congr fun a b ha hb => ?_
    rw [compare_seen h.leftType h.rightType (valueAt_fits h.left ha) (valueAt_fits h.right hb)]
    simp [Comparison.holds, truthValue]
  · refine gives_congr (compareRasters_eq .greater garbage h.left h.right h.rows h.cols h.leftType h.rightType) fun i =>
      both_congr fun a b ha hb => ?_
    rw [compare_seen h.leftType h.rightType (valueAt_fits h.left ha) (valueAt_fits h.right hb)]
    simp [Comparison.holds, truthValue]

/-- The comparison is that of numbers if both types are signed, if both are unsigned, and without negative values. -/
theorem C88_seen_exact (t u : IntTy) (a : Int) (ha : Fits t a) (h : Unsigned t ∨ Signed u ∨ 0 ≤ a ∨ u.bits < t.bits) :
    seen t u a = a := by
  rw [seen, if_neg]
  rintro ⟨h1, h2, h3⟩
  rcases h with h | h | h | h
  · rcases h with rfl | rfl | rfl | rfl <;> simp only [Fits] at ha <;> omega
  · rcases h2 with rfl | rfl | rfl | rfl <;> simp [Signed] at h
  · omega
  · omega

/-- -1 is less than 1, except if the latter is an unsigned number of 32 bits. -/
example : compareRasters .less (fun _ => 77) (row .i32 [-1, -2147483648, 0]) (row .u8 [1, 1, 255]) =
      .ok (row .u8 [1, 255, 255]) ∧
    compareRasters .less (fun _ => 77) (row .i32 [-1, -2147483648, 0]) (row .u32 [1, 1, 1]) =
      .ok (row .u8 [0, 255, 1]) := by decide +kernel

/-- Comparisons with a number, of 64 bits: it is not converted to the type of the raster. -/
theorem C88_compare_number (garbage : Nat → Int) (l : Raster) (n : Int) (hl : WellFormed l) (hs : Supported l.type)
    (hn : Fits .i64 n) :
    (Gives (compareNumber .less garbage l n) .u8 l fun i => (valueAt l i).bind fun a =>
      truthValue (seen l.type .i64 a < seen .i64 l.type n)) ∧
    (Gives (compareNumber .greater garbage l n) .u8 l fun i => (valueAt l i).bind fun a =>
      truthValue (seen l.type .i64 a > seen .i64 l.type n)) ∧
    numberCompare .less garbage n l = compareNumber .greater garbage l n ∧
    numberCompare .greater garbage n l = compareNumber .less garbage l n := by
  have hi : Supported .i64 := by simp [Supported]
  have g1 : Gives (compareNumber .less garbage l n) .u8 l fun i => (valueAt l i).bind fun a =>
      truthValue (seen l.type .i64 a < seen .i64 l.type n) := by
    refine gives_congr (compareNumber_eq .less garbage n hl hs) fun i => ?_
    cases ha : valueAt l i with
    | none => rfl
    | some a =>
      simp only [Option.bind_some]
      rw [compare_seen hs hi (valueAt_fits hl ha) hn]
      simp [Comparison.holds, truthValue]
  have g2 : Gives (compareNumber .greater garbage l n) .u8 l fun i => (valueAt l i).bind fun a =>
      truthValue (seen l.type .i64 a > seen .i64 l.type n) := by
    refine gives_congr (compareNumber_eq .greater garbage n hl hs) fun i => ?_
    cases ha : valueAt l i with
    | none => rfl
    | some a =>
      simp only [Option.bind_some]
      rw [compare_seen hs hi (valueAt_fits hl ha) hn]
      simp [Comparison.holds, truthValue]
  refine ⟨g1, g2, gives_unique (gives_congr (numberCompare_eq .less garbage n hl hs) fun i => ?_) g2,
    gives_unique (gives_congr (numberCompare_eq .greater garbage n hl hs) fun i => ?_) g1⟩
  · cases ha : valueAt l i with
    | none => rfl
    | some a =>
      simp only [Option.bind_some]
      rw [compare_seen hi hs hn (valueAt_fits hl ha)]
      simp [Comparison.holds, truthValue]
  · cases ha : valueAt l i with
    | none => rfl
    | some a =>
      simp only [Option.bind_some]
      rw [compare_seen hi hs hn (valueAt_fits hl ha)]
      simp [Comparison.holds, truthValue]

/-- 300 is greater than all values of 8 bits; -1 is not less than a value of 64 unsigned bits. -/
example : compareNumber .less (fun _ => 77) (row .u8 [7, 255, 254]) 300 = .ok (row .u8 [1, 255, 1]) ∧
    numberCompare .less (fun _ => 77) (-1) (row .u64 [7]) = .ok (row .u8 [0]) := by decide +kernel

/-! ### Choice -/

/-- `if_`: where the condition is masked, so is the result. -/
theorem C88_if (garbage : Nat → Int) (c t f : Raster) (h1 : Matching c t) (h2 : Matching c f)
    (hty : f.type = t.type) :
    Gives (ifRasters garbage c t f) t.type c fun i =>
      (valueAt c i).bind fun v => if v ≠ 0 then valueAt t i else valueAt f i :=
  ifRasters_eq garbage h1.left h1.right h2.right h1.rows h1.cols h2.rows h2.cols h1.leftType h1.rightType hty

@[inherit_doc C88_if]
theorem C88_if_number (garbage : Nat → Int) (c r : Raster) (n w : Int) (h : Matching c r)
    (hw : Converted r.type n w) :
    (Gives (ifRasterNumber garbage c r n) r.type c fun i =>
      (valueAt c i).bind fun v => if v ≠ 0 then valueAt r i else unlessReserved r.type w) ∧
    (Gives (ifNumberRaster garbage c n r) r.type c fun i =>
      (valueAt c i).bind fun v => if v ≠ 0 then unlessReserved r.type w else valueAt r i) := by
  obtain rfl := converted_iff.1 hw
  exact ⟨ifRasterNumber_eq garbage n h.left h.right h.rows h.cols h.leftType h.rightType,
    ifNumberRaster_eq garbage n h.left h.right h.rows h.cols h.leftType h.rightType⟩

example : ifRasters (fun _ => 77) (row .u8 [0, 255, 7, 1, 0]) (row .i32 [1, 2, 3, -2147483648, 5])
    (row .i32 [6, 7, 8, 9, -2147483648]) = .ok (row .i32 [6, -2147483648, 3, -2147483648, -2147483648]) := by decide +kernel

/-! ### Other types and sizes -/

/-- There are no operations for rasters of 16 bit integers and of 8 bit signed integers. -/
theorem C88_unsupported (o : Arith) (c : Comparison) (garbage : Nat → Int) (l r : Raster) (other : Other) (n : Int)
    (h : ¬ Supported l.type) :
    rasterRaster o garbage l r = .assertion ∧ rasterRaster o garbage r l = .assertion ∧
    rasterNumber o garbage l n = .assertion ∧ numberRaster o garbage n l = .assertion ∧
    inPlace o l other = .assertion ∧ compareRasters c garbage l r = .assertion ∧
    compareRasters c garbage r l = .assertion ∧ compareNumber c garbage l n = .assertion ∧
    numberCompare c garbage n l = .assertion ∧ ifRasters garbage l r r = .assertion ∧
    ifRasters garbage r l l = .assertion ∧ ifRasterNumber garbage l r n = .assertion ∧
    ifRasterNumber garbage r l n = .assertion ∧ ifNumberRaster garbage l n r = .assertion ∧
    ifNumberRaster garbage r n l = .assertion := by
  rw [unsupported_iff] at h
  simp [rasterRaster, rasterNumber, numberRaster, inPlace, compareRasters, compareNumber, numberCompare, ifRasters,
    ifRasterNumber, ifNumberRaster, h]

example : ¬ Supported .u16 := by unfold Supported; decide

/-- In place, and for both choices, types must be the same: nothing is converted. -/
theorem C88_types_differ (o : Arith) (garbage : Nat → Int) (c l r : Raster) (h : r.type ≠ l.type) :
    inPlace o l (.raster r) = .assertion ∧ ifRasters garbage c l r = .assertion := by
  have h' : l.type ≠ r.type := fun e => h e.symm
  simp [inPlace, ifRasters, h, h']

/-- Rasters of different sizes are not combined. -/
theorem C88_sizes_differ (o : Arith) (c : Comparison) (garbage : Nat → Int) (l r : Raster)
    (h : ¬ (r.rows = l.rows ∧ r.cols = l.cols)) :
    rasterRaster o garbage l r = .assertion ∧ inPlace o l (.raster r) = .assertion ∧
    compareRasters c garbage l r = .assertion := by
  have hb : ∀ op t, binary2d2d op (detect l.type) (detect r.type) (mark t) (l.rows, l.cols) l.values (r.rows, r.cols)
      r.values (l.rows, l.cols) (uninitialised garbage l.rows l.cols) = none := by
    intro op t
    unfold binary2d2d
    by_cases e1 : l.rows = r.rows
    · have e2 : ¬ l.cols = r.cols := fun e => h ⟨e1.symm, e.symm⟩
      simp [assert', e1, e2]
    · simp [assert', e1]
  refine ⟨?_, ?_, ?_⟩
  · unfold rasterRaster
    obtain ⟨t, ht⟩ := resultInt_some l.type r.type
    split
    · rfl
    · rw [ht]
      dsimp only
      rw [hb]
      rfl
  · unfold inPlace
    have : (r.rows == l.rows && r.cols == l.cols) = false := by
      rw [← Bool.not_eq_true]
      simpa using h
    simp only [this, Bool.not_false, if_true]
    split
    · rfl
    · split <;> rfl
  · unfold compareRasters
    split
    · rfl
    · rw [hb]
      rfl

/-- Nor is there a choice between rasters whose sizes are not those of the condition. -/
theorem C88_if_sizes_differ (garbage : Nat → Int) (c t f : Raster) (n : Int)
    (h : ¬ (t.rows = c.rows ∧ t.cols = c.cols)) :
    ifRasters garbage c t f = .assertion ∧ ifRasters garbage c f t = .assertion ∧
    ifRasterNumber garbage c t n = .assertion ∧ ifNumberRaster garbage c n t = .assertion := by
  have hs : assertSame (t.rows, t.cols) (c.rows, c.cols) = none := by
    by_cases e1 : t.rows = c.rows
    · have e2 : ¬ t.cols = c.cols := fun e => h ⟨e1, e⟩
      simp [assertSame, assert', e1, e2]
    · simp [assertSame, assert', e1]
  refine ⟨?_, ?_, ?_, ?_⟩
  · unfold ifRasters ifThenElse2d2d2d
    split
    · rfl
    · split
      · rfl
      · rw [hs]; rfl
  · unfold ifRasters ifThenElse2d2d2d
    split
    · rfl
    · split
      · rfl
      · rw [hs]
        cases assertSame (f.rows, f.cols) (c.rows, c.cols) <;> rfl
  · unfold ifRasterNumber ifThenElse2d2d0d
    split
    · rfl
    · rw [hs]; rfl
  · unfold ifNumberRaster ifThenElse2d0d2d
    split
    · rfl
    · rw [hs]; rfl

/-! ### Construction -/

/-- Rasters of the other types can't be made. -/
theorem C88_unsupported_made (t : IntTy) (rows cols : Nat) (first : List Int) (rest : List (List Int))
    (mask : List (List Bool)) (origin cellSizes : Rat × Rat) (h : ¬ Supported t) :
    fromSizes t rows cols origin cellSizes = .assertion ∧
    fromLists t (first :: rest) mask origin cellSizes = .assertion := by
  rw [unsupported_iff] at h
  simp [fromSizes, fromLists, h]

/-- A raster made from sizes contains zeros. -/
theorem C88_zeros (t : IntTy) (rows cols : Nat) (origin cellSizes : Rat × Rat) (h : Supported t) :
    ∃ q, fromSizes t rows cols origin cellSizes = .ok q ∧ q.type = t ∧ q.rows = rows ∧ q.cols = cols ∧
      q.origin = origin ∧ q.cellSizes = cellSizes ∧ WellFormed q ∧ ∀ i, i < rows * cols → valueAt q i = some 0 := by
  refine ⟨⟨t, rows, cols, origin, cellSizes, List.replicate (rows * cols) 0⟩, ?_, rfl, rfl, rfl, rfl, rfl, ⟨?_, ?_⟩, ?_⟩
  · simp [fromSizes, supported_iff.1 h]
  · simp
  · intro v hv
    rw [(List.mem_replicate.1 hv).2]
    exact fits_zero t
  · intro i hi
    rw [valueAt_some]
    refine ⟨by simp [hi], ?_⟩
    cases t <;> simp [reserved]

example : fromSizes .i32 2 2 (0, 0) (1, 1) = .ok ⟨.i32, 2, 2, (0, 0), (1, 1), [0, 0, 0, 0]⟩ := by decide +kernel

/-- A raster made from lists of values and of mask values, which has the number of columns of the first row: it has these
values, or the cell is masked; elements that the rows have too many are ignored, and if there are too few, or if the type
cannot represent a value, there is an exception. A value that is the reserved one is masked too. -/
theorem C88_lists (t : IntTy) (first : List Int) (rest : List (List Int)) (mask : List (List Bool))
    (origin cellSizes : Rat × Rat) (h : Supported t) (h0 : 0 < first.length) :
    (Complete t (first :: rest) mask first.length →
      ∃ q, fromLists t (first :: rest) mask origin cellSizes = .ok q ∧ q.type = t ∧ q.rows = rest.length + 1 ∧
        q.cols = first.length ∧ q.origin = origin ∧ q.cellSizes = cellSizes ∧ WellFormed q ∧
        ∀ r c, r < q.rows → c < q.cols →
          (element mask r c = some true → valueAt q (r * q.cols + c) = none) ∧
          (element mask r c = some false → ∀ v, element (first :: rest) r c = some v →
            valueAt q (r * q.cols + c) = unlessReserved t v)) ∧
    (¬ Complete t (first :: rest) mask first.length →
      fromLists t (first :: rest) mask origin cellSizes = .error) := by
  obtain ⟨k1, k2⟩ := copyRows_spec (t := t) (values := first :: rest) (mask := mask) (cols := first.length)
    (first :: rest).length 0 (by omega) (.inr h0)
  simp only [Nat.zero_add] at k1 k2
  unfold fromLists
  simp only [List.getElem?_cons_zero, supported_iff.1 h, Bool.not_true, Bool.false_eq_true, if_false]
  constructor
  · intro hc
    obtain ⟨vs, e1, e2, e3⟩ := k2 fun r c hr hc' => complete_iff.2 (hc r c hr hc')
    rw [e1]
    refine ⟨_, rfl, rfl, by simp, rfl, rfl, rfl, ⟨by simpa using e2, ?_⟩, ?_⟩
    · intro v hv
      obtain ⟨i, hi⟩ := List.mem_iff_getElem?.1 hv
      have hlt : i < (first :: rest).length * first.length := by
        rw [← e2]
        exact (List.getElem?_eq_some_iff.1 hi).1
      have e := e3 (i / first.length) (i % first.length) (Nat.div_lt_of_lt_mul (by rwa [Nat.mul_comm]))
        (Nat.mod_lt _ h0)
      rw [Nat.div_add_mod', hi] at e
      unfold copied at e
      obtain ⟨m, _, hm⟩ := Option.bind_eq_some_iff.1 e.symm
      split at hm
      · rw [← Option.some.inj hm]
        exact reserved_fits t
      · obtain ⟨x, _, hx⟩ := Option.bind_eq_some_iff.1 hm
        split at hx
        · next hf =>
          rw [← Option.some.inj hx]
          exact hf
        · simp at hx
    · intro r c hr hc'
      have e := e3 r c (by simpa using hr) hc'
      constructor
      · intro hm
        rw [hm] at e
        rw [valueAt_of (r := ⟨t, _, _, origin, cellSizes, vs⟩) e, if_pos rfl]
      · intro hm v hv
        rcases hc r c (by simpa using hr) hc' with hx | ⟨_, x, hx, hf⟩
        · rw [hm] at hx
          simp at hx
        · rw [hv] at hx
          obtain rfl := Option.some.inj hx
          rw [hm, hv] at e
          simp only [copied, Option.bind_some, Bool.false_eq_true, if_false, if_pos hf] at e
          rw [valueAt_of (r := ⟨t, _, _, origin, cellSizes, vs⟩) e, unlessReserved]
  · intro hc
    have : ∃ r c, r < (first :: rest).length ∧ c < first.length ∧
        copied t (element (first :: rest) r c) (element mask r c) = none := by
      by_contra hno
      refine hc fun r c hr hc' => complete_iff.1 fun he => hno ⟨r, c, hr, hc', he⟩
    rw [k1 this]

/-- The third row is longer; its last element is ignored. -/
example : fromLists .u8 [[1, 2], [3, 255], [4, 5, 6]] [[false, true], [false, false], [false, false]] (0, 0) (1, 1) =
    .ok ⟨.u8, 3, 2, (0, 0), (1, 1), [1, 255, 3, 255, 4, 5]⟩ := by decide +kernel

example : fromLists .u8 [[1, 2], [3]] [[false, true], [false, false]] (0, 0) (1, 1) = .error ∧
    fromLists .u8 [[1, 256]] [[false, false]] (0, 0) (1, 1) = .error ∧
    fromLists .u8 [[1, 256]] [[false, true]] (0, 0) (1, 1) =
      .ok ⟨.u8, 1, 2, (0, 0), (1, 1), [1, 255]⟩ := by decide +kernel

/-- There must be at least one row. -/
theorem C88_lists_empty (t : IntTy) (mask : List (List Bool)) (origin cellSizes : Rat × Rat) :
    fromLists t [] mask origin cellSizes = .error := rfl

end Fern.PyOps
