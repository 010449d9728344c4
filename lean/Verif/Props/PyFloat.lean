import Verif.Lemmas.PyFloat
import Verif.Props.PyOps

/-!
# C119: raster operations of the Python extension with floating point numbers
-/

namespace Fern.PyFloat

open Fern Fern.Spec Fern.Domains Fern.Casts Fern.FloatArith IntTy
open Fern.PyOps (Out Arith Comparison)
open Fern.Casts.Spec (OfType IntegerPart)
open Fern.FloatArith.Spec (Rounded TooLarge)
open _root_.Fern.FloatRaster.Spec (Result IsNumber Mixed ConvertsTo)
open _root_.Fern.PyFloat.Spec

/-! ### Rasters for the examples -/

/-- A raster of one row. -/
def row (t : NumTy) (values : List Flt) : Raster := ⟨t, 1, values.length, (10, 20), (1, 1), values⟩

/-- Zeros, as a raster of one row: they are values of every type. -/
theorem zeros_matching (t1 t2 : NumTy) (h1 : Supported t1) (h2 : Supported t2) (n : Nat) :
    Matching (row t1 (List.replicate n (.fin 0))) (row t2 (List.replicate n (.fin 0))) := by
  have h : ∀ t : NumTy, Supported t → WellFormed (row t (List.replicate n (.fin 0))) := by
    intro t ht
    refine ⟨by simp [row], fun v hv => ?_⟩
    rw [(List.mem_replicate.1 hv).2]
    exact zero_ofType ht
  exact ⟨h t1 h1, h t2 h2, rfl, by simp [row], h1, h2⟩

/-- Not a number, infinity and one: values of both floating point types. -/
theorem special_wellFormed (t : FltTy) : WellFormed (row t.num [.nan, .inf, .fin 1]) := by
  refine ⟨rfl, fun v hv => ?_⟩
  simp only [row, List.mem_cons, List.not_mem_nil, or_false] at hv
  rcases hv with rfl | rfl | rfl
  · exact special_ofType t (by rintro ⟨q, h⟩; cases h)
  · exact special_ofType t (by rintro ⟨q, h⟩; cases h)
  · exact one_ofType t

/-! ### Addition and multiplication -/

/-- The sum or product of two rasters, one of floating point numbers: a cell is masked if one of both is; otherwise both
values are converted to the type of the result, and it is their sum or product, rounded; unless this is infinite or NaN (in
case of a sum with an integer it is kept), or the value that marks masked cells, in which cases the cell is masked. What
the result contained before does not matter. -/
theorem C119_arith (o : Arith) (garbage : Nat → Flt) (l r : Raster) (t : FltTy) (h : Matching l r)
    (ht : resultType l.type r.type = some t) :
    Gives (rasterRaster o garbage l r) t.num l fun i =>
      Both (valueAt l i) (valueAt r i) (ArithCell o l.type r.type t) :=
  rasterRaster_eq o garbage h ht

example : rasterRaster .add (fun _ => .nan) (row .f32 [.fin 1, .fin (1 / 2 ^ 126), .inf, .fin (2 ^ 127), .nan])
    (row .f32 [.fin (1 / 2), .fin 3, .fin 1, .fin (2 ^ 127), .fin 1]) =
    .ok (row .f32 [.fin (3 / 2), .fin (1 / 2 ^ 126), .fin (1 / 2 ^ 126), .fin (1 / 2 ^ 126), .fin (1 / 2 ^ 126)]) := by
  decide +kernel

/-- Infinity remains in the sum with an integer; in the product it does not. -/
example : rasterRaster .add (fun _ => .nan) (row (.int .u8) [.fin 1, .fin 255, .fin 2]) (row .f32 [.inf, .fin 3, .fin 3]) =
    .ok (row .f32 [.inf, .fin (1 / 2 ^ 126), .fin 5]) ∧
    rasterRaster .multiply (fun _ => .nan) (row (.int .u8) [.fin 1, .fin 255, .fin 2])
      (row .f32 [.inf, .fin 3, .fin 3]) =
    .ok (row .f32 [.fin (1 / 2 ^ 126), .fin (1 / 2 ^ 126), .fin 6]) := by
  decide +kernel

example : Matching (row (.int .u8) [.fin 0, .fin 0]) (row .f32 [.fin 0, .fin 0]) ∧
    resultType (.int .u8) .f32 = some .single :=
  ⟨zeros_matching (.int .u8) .f32 (Or.inl rfl) trivial 2, rfl⟩

/-- The sum or product of values is one value, or masked. -/
theorem C119_determined (o : Arith) (t1 t2 : NumTy) (t : FltTy) (v w : Flt) :
    ∃! x, ArithCell o t1 t2 t v w x := by
  classical
  obtain ⟨a, ha⟩ := operand_exists t v
  obtain ⟨b, hb⟩ := operand_exists t w
  obtain ⟨z, hz⟩ := result_exists t o a b
  refine ⟨if IsNumber z ∨ (o = .add ∧ Mixed t1 t2) then unlessReserved t.num z else none,
    ⟨a, b, z, ha, hb, hz, fun h => if_pos h, fun h => if_neg h⟩, fun y hy => ?_⟩
  exact arithCell_unique hy ⟨a, b, z, ha, hb, hz, fun h => if_pos h, fun h => if_neg h⟩

/-- Of numbers of the type of the result, the exact sum or product is rounded; the cell is masked precisely if it is too
large, or rounded to the value that marks masked cells. -/
theorem C119_numbers (o : Arith) (t : FltTy) (x y : Rat) (c : Option Flt) (hx : Represents t.num x)
    (hy : Represents t.num y) (h : ArithCell o t.num t.num t (.fin x) (.fin y) c) (q : Rat)
    (hq : q = match o with | .add => x + y | .multiply => x * y) :
    (TooLarge t q → c = none) ∧
    (¬ TooLarge t q → ∃ z, Rounded t q z ∧ (z = reserved t.num → c = none) ∧ (z ≠ reserved t.num → c = some z)) := by
  obtain ⟨a, b, z, ha, hb, hz, k1, k2⟩ := h
  obtain rfl := operand_unique ha (operand_self (t := t) (v := .fin x) hx)
  obtain rfl := operand_unique hb (operand_self (t := t) (v := .fin y) hy)
  have hm : ¬ (o = .add ∧ Mixed t.num t.num) := fun h => not_mixed t h.2
  have he : FloatRaster.Spec.exact (arithOp o) x y = some q := by cases o <;> rw [hq] <;> rfl
  have hr : Rounded t q z := hz.1 x y q rfl rfl he
  constructor
  · intro hl
    refine k2 ?_
    rintro (⟨w, rfl⟩ | h)
    · have := hr.1 hl
      split at this <;> cases this
    · exact hm h
  · intro hl
    obtain ⟨w, rfl, -⟩ := hr.2 hl
    have := k1 (.inl ⟨w, rfl⟩)
    refine ⟨_, hr, fun h => ?_, fun h => ?_⟩
    · rw [this, unlessReserved, if_pos h]
    · rw [this, unlessReserved, if_neg h]

example : Represents (FltTy.num .single) 1 ∧ ∃ c, ArithCell .add (FltTy.num .single) (FltTy.num .single) .single (.fin 1) (.fin 1) c :=
  ⟨one_ofType .single, (C119_determined _ _ _ _ _ _).exists⟩

/-- A product of valid cells can be the value that marks masked cells: the cell is lost. -/
theorem C119_reserved_false :
    rasterRaster .multiply (fun _ => .nan) (row .f32 [.fin (1 / 2 ^ 63)]) (row .f32 [.fin (1 / 2 ^ 63)]) =
      .ok (row .f32 [.fin (1 / 2 ^ 126)]) ∧
    valueAt (row .f32 [.fin (1 / 2 ^ 63)]) 0 = some (.fin (1 / 2 ^ 63)) ∧
    valueAt (row .f32 [.fin (1 / 2 ^ 126)]) 0 = none := by
  refine ⟨by decide +kernel, ?_, ?_⟩
  · simp only [valueAt, ← noData_eq]
    decide +kernel
  · simp only [valueAt, ← noData_eq]
    decide +kernel

/-- Addition and multiplication commute; only the place of the result is that of the raster on the left hand side. -/
theorem C119_commutes (o : Arith) (garbage garbage' : Nat → Flt) (l r : Raster) (t : FltTy) (h : Matching l r)
    (ht : resultType l.type r.type = some t) :
    ∃ q q', rasterRaster o garbage l r = .ok q ∧ rasterRaster o garbage' r l = .ok q' ∧ Placed q l ∧ Placed q' r ∧
      q.type = q'.type ∧ q.values = q'.values := by
  have h' : Matching r l := ⟨h.right, h.left, h.rows.symm, h.cols.symm, h.rightType, h.leftType⟩
  obtain ⟨q, e, t1, p, w, c⟩ := rasterRaster_eq o garbage h ht
  obtain ⟨q', e', t1', p', w', c'⟩ := rasterRaster_eq o garbage' h' (by rw [resultType_comm, ht])
  refine ⟨q, q', e, e', p, p', t1.trans t1'.symm, ?_⟩
  refine values_ext w w' (t1.trans t1'.symm) (by rw [p.rows, p'.rows, h.rows]) (by rw [p.cols, p'.cols, h.cols]) ?_
  intro i
  have h1 := c i
  have h2 := c' i
  have h2' : Both (valueAt l i) (valueAt r i) (ArithCell o l.type r.type t) (valueAt q' i) :=
    ⟨fun h => h2.1 h.symm, fun v w hv hw => arithCell_comm (h2.2 w v hw hv)⟩
  exact both_unique (P := ArithCell o l.type r.type t) (fun _ _ _ _ h h' => arithCell_unique h h') h1 h2'

/-! ### A raster and a number -/

/-- The sum or product of a raster of floating point numbers and a number, which is converted to the type of the raster
first. -/
theorem C119_raster_number (o : Arith) (garbage : Nat → Flt) (l : Raster) (x : Number) (t : FltTy) (h : WellFormed l)
    (ht : l.type = t.num) :
    Gives (rasterNumber o garbage l x) t.num l fun i =>
      One (valueAt l i) fun v y => ∃ w, FloatRaster.Spec.Operand t x.value w ∧ ArithCell o t.num t.num t v w y :=
  rasterNumber_eq o garbage x h ht

/-- The result does not depend on which is on the left hand side. -/
theorem C119_number_commutes (o : Arith) (garbage garbage' : Nat → Flt) (l : Raster) (x : Number) (t : FltTy)
    (h : WellFormed l) (ht : l.type = t.num) :
    numberRaster o garbage x l = rasterNumber o garbage' l x := by
  refine gives_unique (numberRaster_eq o garbage x h ht)
    (gives_mono (rasterNumber_eq o garbage' x h ht) (Q := fun i => One (valueAt l i) fun v y => ∃ w,
      FloatRaster.Spec.Operand t x.value w ∧ ArithCell o t.num t.num t w v y) ?_) ?_
  · exact fun i y hy => ⟨hy.1, fun v hv => (hy.2 v hv).imp fun w hw => ⟨hw.1, arithCell_comm hw.2⟩⟩
  · refine fun i x' y' h1 h2 => one_unique ?_ h1 h2
    rintro v a b ⟨w, hw, ha⟩ ⟨w', hw', hb⟩
    obtain rfl := operand_unique hw hw'
    exact arithCell_unique ha hb

/-- A number that the type of the raster does not have is rounded first: 1 is lost. -/
example : rasterNumber .add (fun _ => .nan) (row .f32 [.fin 1, .nan]) (.int 16777217) =
    .ok (row .f32 [.fin 16777216, .fin (1 / 2 ^ 126)]) ∧
    rasterNumber .multiply (fun _ => .nan) (row .f64 [.fin 2]) (.real (.fin (1 / 4))) =
      .ok (row .f64 [.fin (1 / 2)]) ∧
    WellFormed (row (FltTy.num .single) [.nan, .inf, .fin 1]) :=
  ⟨by decide +kernel, by decide +kernel, special_wellFormed .single⟩

/-- If the type of the raster cannot represent the number, it is infinite and all cells are masked. -/
example : rasterNumber .add (fun _ => .nan) (row .f32 [.fin 1, .fin 2]) (.real (.fin (2 ^ 200))) =
    .ok (row .f32 [.fin (1 / 2 ^ 126), .fin (1 / 2 ^ 126)]) := by decide +kernel

/-! ### In place -/

/-- The raster on the left hand side gets the sum or product of both; types must be the same. -/
theorem C119_in_place (o : Arith) (self : Raster) (other : Other) (t : FltTy) (h : Matching self (operand self other))
    (hs : self.type = t.num) (ht : (operand self other).type = t.num) :
    Gives (inPlace o self other) t.num self fun i =>
      Both (valueAt self i) (valueAt (operand self other) i) (ArithCell o t.num t.num t) :=
  inPlace_eq o h hs ht

/-- It is the raster that addition or multiplication results in, also if both are the same raster. -/
theorem C119_in_place_same (o : Arith) (garbage : Nat → Flt) (self : Raster) (other : Other) (t : FltTy)
    (h : Matching self (operand self other)) (hs : self.type = t.num) (ht : (operand self other).type = t.num) :
    inPlace o self other = rasterRaster o garbage self (operand self other) := by
  refine gives_unique (inPlace_eq o h hs ht) ?_ fun i x y h1 h2 =>
    both_unique (P := ArithCell o t.num t.num t) (fun _ _ _ _ h h' => arithCell_unique h h') h1 h2
  have := rasterRaster_eq o garbage h (t := t) (by rw [hs, ht]; exact resultType_self t)
  rwa [hs, ht] at this

example : inPlace .multiply (row .f32 [.fin 3, .fin (1 / 2 ^ 126), .fin (2 ^ 100)]) .self =
    .ok (row .f32 [.fin 9, .fin (1 / 2 ^ 126), .fin (1 / 2 ^ 126)]) ∧
    inPlace .add (row .f64 [.fin 3]) (.raster (row .f64 [.fin 4])) = .ok (row .f64 [.fin 7]) ∧
    Matching (row .f64 [.fin 0]) (operand (row .f64 [.fin 0]) .self) :=
  ⟨by decide +kernel, by decide +kernel, zeros_matching .f64 .f64 trivial trivial 1⟩

/-! ### Rasters of integers -/

/-- With rasters of integers, all is as in property C88. -/
theorem C119_integers (o : Arith) (garbage : Nat → Flt) (l r : PyOps.Raster) :
    rasterRaster o garbage (embed l) (embed r) = embedOut (PyOps.rasterRaster o (fun i => toInt (garbage i)) l r) ∧
    inPlace o (embed l) .self = embedOut (PyOps.inPlace o l .self) ∧
    inPlace o (embed l) (.raster (embed r)) = embedOut (PyOps.inPlace o l (.raster r)) := by
  have e : ∀ l : PyOps.Raster, (embed l).type = .int l.type := fun _ => rfl
  have i : ∀ l : PyOps.Raster, ints l.type (embed l) = l := ints_embed
  have s : ∀ t : IntTy, switched (.int t) = PyOps.switched t := fun _ => rfl
  refine ⟨?_, ?_, ?_⟩
  · unfold rasterRaster
    simp only [e, s, i]
    split
    · next h =>
      rw [PyOps.rasterRaster, if_pos h]
      rfl
    · rfl
  · unfold inPlace
    simp only [e, s, i, Bool.not_true, Bool.false_eq_true, if_false, intsOther]
    split
    · next h =>
      simp only [PyOps.inPlace, Bool.not_true, Bool.false_eq_true, if_false, if_pos h]
      rfl
    · rfl
  · unfold inPlace
    simp only [e, s, intsOther]
    by_cases ht : r.type = l.type
    · have h1 : (NumTy.int r.type == NumTy.int l.type) = true := by rw [ht]; simp
      rw [h1]
      simp only [Bool.not_true, Bool.false_eq_true, if_false, i]
      rw [← ht, i r, ht]
      split
      · next h =>
        have h2 : (r.type == l.type) = true := by rw [ht]; simp
        simp only [PyOps.inPlace, h2, Bool.not_true, Bool.false_eq_true, if_false, if_pos h]
        rfl
      · rfl
    · have h1 : (NumTy.int r.type == NumTy.int l.type) = false := by
        rw [← Bool.not_eq_true]
        simpa using ht
      have h2 : (r.type == l.type) = false := by
        rw [← Bool.not_eq_true]
        simpa using ht
      rw [h1]
      simp only [PyOps.inPlace, h2, Bool.not_false, if_true]
      rfl

example : rasterRaster .add (fun _ => .nan) (row (.int .u8) [.fin 1, .fin 255, .fin 200])
    (row (.int .u8) [.fin 2, .fin 3, .fin 200]) = .ok (row (.int .u8) [.fin 3, .fin 255, .fin 255]) := by decide +kernel

/-- So it is with a raster of integers and an integer. -/
theorem C119_integer_number (o : Arith) (garbage : Nat → Flt) (l : PyOps.Raster) (n : Int) :
    rasterNumber o garbage (embed l) (.int n) = embedOut (PyOps.rasterNumber o (fun i => toInt (garbage i)) l n) ∧
    numberRaster o garbage (.int n) (embed l) = embedOut (PyOps.numberRaster o (fun i => toInt (garbage i)) n l) := by
  have e : ∀ l : PyOps.Raster, (embed l).type = .int l.type := fun _ => rfl
  have i : ∀ l : PyOps.Raster, ints l.type (embed l) = l := ints_embed
  have s : ∀ t : IntTy, switched (.int t) = PyOps.switched t := fun _ => rfl
  have c : castTo (.int .i64) (.int l.type) (.fin n) = some (.fin (l.type.wrap n)) := by
    simp [castTo]
  constructor
  · unfold rasterNumber
    simp only [e, s, Number.type, Number.value, c, i, toInt_int]
    split
    · next h =>
      rw [PyOps.rasterNumber, if_pos h]
      rfl
    · simp only [PyOps.rasterNumber, wrap_wrap]
  · unfold numberRaster
    simp only [e, s, Number.type, Number.value, c, i, toInt_int]
    split
    · next h =>
      rw [PyOps.numberRaster, if_pos h]
      rfl
    · simp only [PyOps.numberRaster, wrap_wrap]

/-- A real number is truncated if the raster contains integers: what happens is what happens with its integer part. If
the type of the raster cannot represent this, or if the number is infinite or NaN, the behaviour is undefined. -/
theorem C119_fraction (o : Arith) (garbage : Nat → Flt) (l : PyOps.Raster) (v : Flt) (hs : PyOps.Spec.Supported l.type) :
    (∀ q n, v = .fin q → IntegerPart q n → Fits l.type n →
      rasterNumber o garbage (embed l) (.real v) = rasterNumber o garbage (embed l) (.int n) ∧
      numberRaster o garbage (.real v) (embed l) = numberRaster o garbage (.int n) (embed l)) ∧
    ((∀ q n, v = .fin q → IntegerPart q n → ¬ Fits l.type n) →
      rasterNumber o garbage (embed l) (.real v) = .undefined ∧
      numberRaster o garbage (.real v) (embed l) = .undefined) := by
  have e : (embed l).type = .int l.type := rfl
  have s : switched (.int l.type) = true := supported_iff.1 hs
  constructor
  · intro q n hv hi hf
    have c1 : castTo .f64 (.int l.type) v = some (.fin n) :=
      (FloatRaster.cast_integer .double l.type v _).2 (.inl ⟨_, q, n, rfl, hv, hi, hf, rfl⟩)
    have c2 : castTo (.int .i64) (.int l.type) (.fin n) = some (.fin n) := by
      simp [castTo, wrap_fits hf]
    constructor
    · unfold rasterNumber
      simp only [e, s, Number.type, Number.value, c1, c2]
    · unfold numberRaster
      simp only [e, s, Number.type, Number.value, c1, c2]
  · intro hno
    have c1 : castTo .f64 (.int l.type) v = none := by
      rw [Option.eq_none_iff_forall_ne_some]
      intro w hw
      rcases (FloatRaster.cast_integer .double l.type v w).1 hw with ⟨t, q, n, ht, hv, hi, hf, -⟩ | ⟨t, ht, -⟩
      · rw [← NumTy.int.inj ht] at hf
        exact hno q n hv hi hf
      · exact absurd ht.symm (FloatRaster.num_not_int _ _)
    constructor
    · unfold rasterNumber
      simp only [e, s, Number.type, Number.value, c1, Bool.not_true, Bool.false_eq_true, if_false]
    · unfold numberRaster
      simp only [e, s, Number.type, Number.value, c1, Bool.not_true, Bool.false_eq_true, if_false]

/-- Multiplying by a half gives zeros; adding 300 to bytes is undefined although adding the integer 300 is adding 44. -/
example : rasterNumber .multiply (fun _ => .nan) (row (.int .u8) [.fin 7, .fin 255]) (.real (.fin (1 / 2))) =
      .ok (row (.int .u8) [.fin 0, .fin 255]) ∧
    rasterNumber .add (fun _ => .nan) (row (.int .u8) [.fin 7]) (.real (.fin 300)) = .undefined ∧
    rasterNumber .add (fun _ => .nan) (row (.int .u8) [.fin 7]) (.int 300) = .ok (row (.int .u8) [.fin 51]) ∧
    rasterNumber .add (fun _ => .nan) (row (.int .i32) [.fin 7]) (.real .nan) = .undefined := by decide +kernel

/-- Comparisons of rasters of integers, and of these and integers, are those of property C88. -/
theorem C119_compare_integers (c : Comparison) (garbage : Nat → Flt) (garbage' : Nat → Int) (l r : PyOps.Raster) (n : Int)
    (h : PyOps.Spec.Matching l r) :
    compareRasters c garbage (embed l) (embed r) = embedOut (PyOps.compareRasters c garbage' l r) ∧
    compareNumber c garbage (embed l) (.int n) = embedOut (PyOps.compareNumber c garbage' l n) ∧
    numberCompare c garbage (.int n) (embed l) = embedOut (PyOps.numberCompare c garbage' n l) := by
  refine ⟨?_, ?_, ?_⟩
  · refine gives_unique (gives_mono (compareRasters_eq c garbage (embed_matching h)) (Q := fun i x => x = _) ?_)
      (embed_gives (PyOps.compareRasters_eq c garbage' h.left h.right h.rows h.cols h.leftType h.rightType)) ?_
    · intro i x hx
      simp only [embed_valueAt] at hx
      cases ha : PyOps.Spec.valueAt l i with
      | none => rw [hx.1 (.inl (by rw [ha]; rfl))]; rfl
      | some a =>
        cases hb : PyOps.Spec.valueAt r i with
        | none => rw [hx.1 (.inr (by rw [hb]; rfl))]; rfl
        | some b =>
          rw [hx.2 (.fin a) (.fin b) (by rw [ha]; rfl) (by rw [hb]; rfl)]
          simp only [PyOps.Spec.both, Option.bind_some, Option.map_some, one_or_zero]
          rw [← elem_int]
          rfl
    · rintro i x y rfl rfl
      rfl
  · refine gives_unique (gives_mono (compareNumber_eq c garbage (.int n) (embed_wellFormed h.left) h.leftType)
      (Q := fun i x => x = _) ?_) (embed_gives (PyOps.compareNumber_eq c garbage' n h.left h.leftType)) ?_
    · intro i x hx
      simp only [embed_valueAt] at hx
      cases ha : PyOps.Spec.valueAt l i with
      | none => rw [hx.1 (by rw [ha]; rfl)]; rfl
      | some a =>
        rw [hx.2 (.fin a) (by rw [ha]; rfl)]
        simp only [Option.bind_some, Option.map_some, one_or_zero]
        rw [← elem_int]
        rfl
    · rintro i x y rfl rfl
      rfl
  · refine gives_unique (gives_mono (numberCompare_eq c garbage (.int n) (embed_wellFormed h.left) h.leftType)
      (Q := fun i x => x = _) ?_) (embed_gives (PyOps.numberCompare_eq c garbage' n h.left h.leftType)) ?_
    · intro i x hx
      simp only [embed_valueAt] at hx
      cases ha : PyOps.Spec.valueAt l i with
      | none => rw [hx.1 (by rw [ha]; rfl)]; rfl
      | some a =>
        rw [hx.2 (.fin a) (by rw [ha]; rfl)]
        simp only [Option.bind_some, Option.map_some, one_or_zero]
        rw [← elem_int]
        rfl
    · rintro i x y rfl rfl
      rfl

/-- So is the choice between two rasters of integers. -/
theorem C119_if_integers (garbage : Nat → Flt) (garbage' : Nat → Int) (c t f : PyOps.Raster)
    (h1 : PyOps.Spec.Matching c t) (h2 : PyOps.Spec.Matching c f) (hty : f.type = t.type) :
    ifRasters garbage (embed c) (embed t) (embed f) = embedOut (PyOps.ifRasters garbage' c t f) := by
  refine gives_unique (gives_mono (ifRasters_eq garbage (embed_matching h1) (embed_matching h2) (congrArg NumTy.int hty))
    (Q := fun i x => x = _) ?_)
    (embed_gives (PyOps.C88_if garbage' c t f h1 h2 hty)) ?_
  · rintro i x rfl
    simp only [embed_valueAt]
    cases PyOps.Spec.valueAt c i with
    | none => rfl
    | some v =>
      simp only [Option.map_some, Option.bind_some, ne_eq, Flt.fin.injEq, Int.cast_eq_zero]
      split <;> rfl
  · rintro i x y rfl rfl
    rfl

theorem embed_same (r : PyOps.Raster) : SameRaster r (embed r) :=
  ⟨rfl, rfl, rfl, rfl, rfl, List.forall₂_map_right_iff.2 (List.forall₂_same.2 fun _ _ => rfl)⟩

theorem embedOut_same (o : Out PyOps.Raster) : SameOutcome o (embedOut o) := by
  cases o with
  | ok r => exact .ok _ _ (embed_same r)
  | error => exact .error
  | assertion => exact .assertion
  | undefined => exact .undefined

theorem same_embed {r : PyOps.Raster} {s : Raster} (h : SameRaster r s) : s = embed r := by
  obtain ⟨t, rows, cols, origin, cellSizes, values⟩ := s
  obtain ⟨h1, h2, h3, h4, h5, h6⟩ := h
  cases h1; cases h2; cases h3; cases h4; cases h5
  have : values = r.values.map fun i : Int => Flt.fin i := by
    have h7 : List.Forall₂ (fun (n : Int) v => v = Flt.fin n) r.values values := h6
    clear h6
    revert h7
    generalize r.values = ns
    intro h7
    induction h7 with
    | nil => rfl
    | cons h _ ih => rw [h, ih]; rfl
  rw [embed]
  exact congrArg _ this

/-- **C119**: arithmetic with rasters of integers ends as property C88 says, whether it ends with a raster, an error, a failing
assertion or is undefined. -/
theorem C119_integer_outcomes (o : Arith) (garbage : Nat → Flt) (l r : PyOps.Raster) (s u : Raster) (hl : SameRaster l s)
    (hr : SameRaster r u) (n : Int) :
    SameOutcome (PyOps.rasterRaster o (fun i => toInt (garbage i)) l r) (rasterRaster o garbage s u) ∧
    SameOutcome (PyOps.inPlace o l .self) (inPlace o s .self) ∧
    SameOutcome (PyOps.inPlace o l (.raster r)) (inPlace o s (.raster u)) ∧
    SameOutcome (PyOps.rasterNumber o (fun i => toInt (garbage i)) l n) (rasterNumber o garbage s (.int n)) ∧
    SameOutcome (PyOps.numberRaster o (fun i => toInt (garbage i)) n l) (numberRaster o garbage (.int n) s) := by
  obtain ⟨h1, h2, h3⟩ := C119_integers o garbage l r
  obtain ⟨h4, h5⟩ := C119_integer_number o garbage l n
  rw [same_embed hl, same_embed hr, h1, h2, h3, h4, h5]
  exact ⟨embedOut_same _, embedOut_same _, embedOut_same _, embedOut_same _, embedOut_same _⟩

/-- Squaring 46341 in place is not defined. -/
example : inPlace .multiply (row (.int .i32) [.fin 46341]) .self = .undefined ∧
    SameRaster (PyOps.row .i32 [46341]) (row (.int .i32) [.fin 46341]) :=
  ⟨by decide +kernel, by constructor <;> simp [PyOps.row, row]⟩

example : PyOps.Spec.Matching (PyOps.row .u8 [1, 255, 200]) (PyOps.row .i32 [2, 3, 54]) :=
  ⟨PyOps.row_wellFormed (by decide), PyOps.row_wellFormed (by decide), rfl, rfl, .inl rfl, .inr (.inr (.inl rfl))⟩

/-! ### Comparison -/

/-- `less` and `greater` of two rasters, one of floating point numbers: both values are converted to the larger floating
point type and compared; comparisons with NaN are false. Cells are masked only if one of both is. -/
theorem C119_compare (c : Comparison) (garbage : Nat → Flt) (l r : Raster) (t : FltTy) (h : Matching l r)
    (ht : resultType l.type r.type = some t) :
    Gives (compareRasters c garbage l r) (.int .u8) l fun i =>
      Both (valueAt l i) (valueAt r i) (CompareCell c t) :=
  gives_mono (compareRasters_eq c garbage h) fun _ _ hx =>
    ⟨hx.1, fun v w hv hw => compareCell_of ht (hx.2 v w hv hw)⟩

@[inherit_doc C119_compare]
theorem C119_compare_number (c : Comparison) (garbage : Nat → Flt) (l : Raster) (n : Number) (t : FltTy)
    (h : WellFormed l) (s : Supported l.type) (ht : resultType l.type n.type = some t) :
    (Gives (compareNumber c garbage l n) (.int .u8) l fun i =>
      One (valueAt l i) fun v => CompareCell c t v n.value) ∧
    (Gives (numberCompare c garbage n l) (.int .u8) l fun i =>
      One (valueAt l i) fun v => CompareCell c t n.value v) :=
  ⟨gives_mono (compareNumber_eq c garbage n h s) fun _ _ hx => ⟨hx.1, fun v hv => compareCell_of ht (hx.2 v hv)⟩,
    gives_mono (numberCompare_eq c garbage n h s) fun _ _ hx =>
      ⟨hx.1, fun v hv => compareCell_of (by rw [resultType_comm, ht]) (hx.2 v hv)⟩⟩

example : compareRasters .less (fun _ => .nan) (row .f32 [.fin 1, .nan, .negInf, .fin (1 / 2 ^ 126)])
      (row .f64 [.fin 2, .fin 2, .fin 2, .fin 2]) = .ok (row (.int .u8) [.fin 1, .fin 0, .fin 1, .fin 255]) ∧
    compareNumber .greater (fun _ => .nan) (row .f32 [.fin 1, .nan, .inf]) (.int 0) =
      .ok (row (.int .u8) [.fin 1, .fin 0, .fin 1]) ∧
    resultType .f32 .f64 = some .double ∧ resultType .f32 (Number.type (.int 0)) = some .single ∧
    WellFormed (row (FltTy.num .single) [.nan, .inf, .fin 1]) :=
  ⟨by decide +kernel, by decide +kernel, rfl, rfl, special_wellFormed .single⟩

/-- Swapping the rasters swaps `less` and `greater`: the values of the result are the same. -/
theorem C119_compare_swap (garbage garbage' : Nat → Flt) (l r : Raster) (t : FltTy) (h : Matching l r)
    (ht : resultType l.type r.type = some t) :
    ∃ q q', compareRasters .less garbage l r = .ok q ∧ compareRasters .greater garbage' r l = .ok q' ∧ Placed q l ∧
      Placed q' r ∧ q.values = q'.values := by
  have h' : Matching r l := ⟨h.right, h.left, h.rows.symm, h.cols.symm, h.rightType, h.leftType⟩
  obtain ⟨q, e, t1, p, w, c⟩ := C119_compare .less garbage l r t h ht
  obtain ⟨q', e', t1', p', w', c'⟩ := C119_compare .greater garbage' r l t h' (by rw [resultType_comm, ht])
  refine ⟨q, q', e, e', p, p', ?_⟩
  refine values_ext w w' (t1.trans t1'.symm) (by rw [p.rows, p'.rows, h.rows]) (by rw [p.cols, p'.cols, h.cols]) ?_
  intro i
  have h1 := c i
  have h2 := c' i
  have h2' : Both (valueAt l i) (valueAt r i) (CompareCell .less t) (valueAt q' i) := by
    refine ⟨fun h => h2.1 h.symm, fun v w hv hw => ?_⟩
    obtain ⟨a, b, ha, hb, k1, k2⟩ := h2.2 w v hw hv
    exact ⟨b, a, hb, ha, k1, k2⟩
  exact both_unique (P := CompareCell .less t) (fun _ _ _ _ h h' => compareCell_unique h h') h1 h2'

/-- An integer that the floating point type doesn't have is rounded: 16777217 is neither less nor greater than
16777216. -/
theorem C119_compare_false :
    compareRasters .less (fun _ => .nan) (row .f32 [.fin 16777216]) (row (.int .i32) [.fin 16777217]) =
      .ok (row (.int .u8) [.fin 0]) ∧
    compareRasters .greater (fun _ => .nan) (row .f32 [.fin 16777216]) (row (.int .i32) [.fin 16777217]) =
      .ok (row (.int .u8) [.fin 0]) ∧
    compareNumber .less (fun _ => .nan) (row .f32 [.fin 16777216]) (.int 16777217) =
      .ok (row (.int .u8) [.fin 0]) := by decide +kernel

/-! ### Choice -/

/-- `if_`: where the condition is masked, the result is; where it is not zero (NaN is not), it is the cell of the first
raster; else of the second. -/
theorem C119_if (garbage : Nat → Flt) (c t f : Raster) (h1 : Matching c t) (h2 : Matching c f) (hty : f.type = t.type) :
    Gives (ifRasters garbage c t f) t.type c fun i y =>
      y = (valueAt c i).bind fun v => if v ≠ .fin 0 then valueAt t i else valueAt f i :=
  ifRasters_eq garbage h1 h2 hty

example : ifRasters (fun _ => .nan) (row .f32 [.fin 0, .nan, .fin (1 / 2 ^ 126), .inf])
    (row .f64 [.fin 1, .fin 2, .fin 3, .fin (1 / 2 ^ 1022)]) (row .f64 [.nan, .fin 6, .fin 7, .fin 8]) =
    .ok (row .f64 [.nan, .fin 2, .fin (1 / 2 ^ 1022), .fin (1 / 2 ^ 1022)]) := by decide +kernel

/-- With a number in place of one of the rasters: an integer is converted to a double precision floating point number
first, and the number then to the type of the raster. -/
theorem C119_if_number (garbage : Nat → Flt) (c r : Raster) (x : Number) (d w : Flt) (h : Matching c r)
    (hd : AsFloat .double x d) (hx : Passable x) (hw : ConvertsTo r.type d w) :
    (Gives (ifRasterNumber garbage c r x) r.type c fun i y =>
      y = (valueAt c i).bind fun v => if v ≠ .fin 0 then valueAt r i else unlessReserved r.type w) ∧
    (Gives (ifNumberRaster garbage c x r) r.type c fun i y =>
      y = (valueAt c i).bind fun v => if v ≠ .fin 0 then unlessReserved r.type w else valueAt r i) := by
  have hd' := ifArgument_of hx hd
  obtain ⟨hw', ow⟩ := converts_of h.rightType hw
  exact ⟨ifRasterNumber_eq garbage h hd' hw' ow, ifNumberRaster_eq garbage h hd' hw' ow⟩

/-- If the type of the raster is one of integers and can't represent the integer part, the behaviour is undefined. -/
theorem C119_if_undefined (garbage : Nat → Flt) (c r : Raster) (x : Number) (d : Flt) (h : Matching c r)
    (hd : AsFloat .double x d) (hx : Passable x) (hw : ∀ w, ¬ ConvertsTo r.type d w) :
    ifRasterNumber garbage c r x = .undefined ∧ ifNumberRaster garbage c x r = .undefined := by
  have hd' := ifArgument_of hx hd
  have hc : castTo .f64 r.type d = none := by
    rw [Option.eq_none_iff_forall_ne_some]
    exact fun w hw' => hw w ((converts_iff h.rightType).1 hw')
  have s1 := supported_iff.1 h.leftType
  have s2 := supported_iff.1 h.rightType
  constructor
  · unfold ifRasterNumber
    simp only [hd', s1, s2, Number.type, Number.value, hc, Bool.and_self, Bool.not_true, Bool.false_eq_true, if_false]
  · unfold ifNumberRaster
    simp only [hd', s1, s2, Number.type, Number.value, hc, Bool.and_self, Bool.not_true, Bool.false_eq_true, if_false]

/-- An integer that is too large for a double precision floating point number is refused, whatever the rasters are. -/
theorem C119_if_error (garbage : Nat → Flt) (c r : Raster) (n : Int) (h : TooLarge .double n) :
    ifRasterNumber garbage c r (.int n) = .error ∧ ifNumberRaster garbage c (.int n) r = .error := by
  have hr : Rounded .double (n : Rat) (toDouble n) := round_rounded .double n
  have hnone : ifArgument (.int n) = none := by
    simp only [ifArgument, hr.1 h]
    split_ifs <;> rfl
  constructor
  · simp only [ifRasterNumber, hnone]
  · simp only [ifNumberRaster, hnone]

example : TooLarge .double ((2 ^ 1024 : Int) : Rat) := by unfold TooLarge FloatArith.Spec.limit; decide +kernel

/-- So large integers are rounded although the type of the raster has them, and -1 with a raster of bytes is undefined. -/
theorem C119_if_integer_false :
    ifRasterNumber (fun _ => .nan) (row (.int .u8) [.fin 0]) (row (.int .i64) [.fin 1]) (.int 9007199254740993) =
      .ok (row (.int .i64) [.fin 9007199254740992]) ∧
    ifRasterNumber (fun _ => .nan) (row (.int .u8) [.fin 0]) (row (.int .u8) [.fin 1]) (.int (-1)) = .undefined ∧
    ifNumberRaster (fun _ => .nan) (row (.int .u8) [.fin 1]) (.real (.fin (5 / 2))) (row (.int .u8) [.fin 1]) =
      .ok (row (.int .u8) [.fin 2]) := by decide +kernel

/-! ### Other types and sizes -/

/-- There are no operations for rasters of other types. -/
theorem C119_unsupported (o : Arith) (c : Comparison) (garbage : Nat → Flt) (l r : Raster) (other : Other) (x : Number)
    (hx : Passable x) (h : ¬ Supported l.type) :
    rasterRaster o garbage l r = .assertion ∧ rasterRaster o garbage r l = .assertion ∧
    rasterNumber o garbage l x = .assertion ∧ numberRaster o garbage x l = .assertion ∧
    inPlace o l other = .assertion ∧ compareRasters c garbage l r = .assertion ∧
    compareRasters c garbage r l = .assertion ∧ compareNumber c garbage l x = .assertion ∧
    numberCompare c garbage x l = .assertion ∧ ifRasters garbage l r r = .assertion ∧
    ifRasters garbage r l l = .assertion ∧ ifRasterNumber garbage l r x = .assertion ∧
    ifRasterNumber garbage r l x = .assertion ∧ ifNumberRaster garbage l x r = .assertion ∧
    ifNumberRaster garbage r x l = .assertion := by
  have h : switched l.type = false := by rw [← Bool.not_eq_true, ← supported_iff]; exact h
  obtain ⟨d, hd⟩ := ifArgument_some hx
  simp [rasterRaster, rasterNumber, numberRaster, inPlace, compareRasters, compareNumber, numberCompare, ifRasters,
    ifRasterNumber, ifNumberRaster, h, hd]

example : ¬ Supported .bool ∧ ¬ Supported (.int .u16) := by
  refine ⟨fun h => h, ?_⟩
  unfold Supported PyOps.Spec.Supported
  decide

/-- In place, and for both choices, types must be the same: nothing is converted. -/
theorem C119_types_differ (o : Arith) (garbage : Nat → Flt) (c l r : Raster) (h : r.type ≠ l.type) :
    inPlace o l (.raster r) = .assertion ∧ ifRasters garbage c l r = .assertion := by
  have h' : l.type ≠ r.type := fun e => h e.symm
  simp [inPlace, ifRasters, h, h']

/-- Rasters of different sizes are not combined. -/
theorem C119_sizes_differ (o : Arith) (c : Comparison) (garbage : Nat → Flt) (l r : Raster) (t : FltTy)
    (ht : resultType l.type r.type = some t) (h : ¬ (r.rows = l.rows ∧ r.cols = l.cols)) :
    rasterRaster o garbage l r = .assertion ∧ inPlace o l (.raster r) = .assertion ∧
    compareRasters c garbage l r = .assertion := by
  have hne : ¬ ((l.rows, l.cols) = (r.rows, r.cols)) := fun e =>
    h ⟨(Prod.mk.inj e).1.symm, (Prod.mk.inj e).2.symm⟩
  refine ⟨?_, ?_, ?_⟩
  · unfold rasterRaster
    split
    · rfl
    · split
      · next i1 i2 e1 e2 =>
        rw [e1, e2] at ht
        exact absurd ⟨rfl, rfl⟩ (arith_types ht i1 i2)
      · rw [ht]
        dsimp only
        rw [(FloatRaster.C118_sizes (arithOp o) checks l.type r.type t (detect l.type) (detect r.type) (mark t.num) .nan
          l.values r.values 0 (l.rows, l.cols) (r.rows, r.cols) (l.rows, l.cols)).2.2.2 (.inl hne)]
        rfl
  · unfold inPlace
    have hb : (r.rows == l.rows && r.cols == l.cols) = false := by
      rw [← Bool.not_eq_true]
      simpa using h
    simp only [hb, Bool.not_false, if_true]
    split
    · rfl
    · next h1 =>
      split
      · rfl
      · split
        · next i e =>
          have : r.type = l.type := by simpa using h1
          rw [this, e] at ht
          exact absurd ⟨rfl, rfl⟩ (arith_types ht i i)
        · split <;> rfl
  · unfold compareRasters
    split
    · rfl
    · unfold binary2d2d
      by_cases e1 : l.rows = r.rows
      · have e2 : ¬ l.cols = r.cols := fun e => h ⟨e1.symm, e.symm⟩
        simp [assert', e1, e2, finish]
      · simp [assert', e1, finish]

/-- Nor is there a choice between rasters whose sizes are not those of the condition. -/
theorem C119_if_sizes_differ (garbage : Nat → Flt) (c t f : Raster) (h : ¬ (t.rows = c.rows ∧ t.cols = c.cols)) :
    ifRasters garbage c t f = .assertion ∧ ifRasters garbage c f t = .assertion := by
  have hs : assertSame (t.rows, t.cols) (c.rows, c.cols) = none := by
    by_cases e1 : t.rows = c.rows
    · have e2 : ¬ t.cols = c.cols := fun e => h ⟨e1, e⟩
      simp [assertSame, assert', e1, e2]
    · simp [assertSame, assert', e1]
  refine ⟨?_, ?_⟩
  · unfold ifRasters ifThenElse2d2d2d
    split
    · rfl
    · split
      · rfl
      · rw [hs]; rfl
  · unfold ifRasters ifThenElse2d2d2d
    split
    · rfl
    · split
      · rfl
      · rw [hs]
        cases assertSame (f.rows, f.cols) (c.rows, c.cols) <;> rfl

@[inherit_doc C119_if_sizes_differ]
theorem C119_if_number_sizes_differ (garbage : Nat → Flt) (c r : Raster) (x : Number) (d w : Flt) (hd : AsFloat .double x d)
    (hx : Passable x) (hs : Supported r.type) (hw : ConvertsTo r.type d w) (h : ¬ (r.rows = c.rows ∧ r.cols = c.cols)) :
    ifRasterNumber garbage c r x = .assertion ∧ ifNumberRaster garbage c x r = .assertion := by
  have ha : assertSame (r.rows, r.cols) (c.rows, c.cols) = none := by
    by_cases e1 : r.rows = c.rows
    · have e2 : ¬ r.cols = c.cols := fun e => h ⟨e1, e⟩
      simp [assertSame, assert', e1, e2]
    · simp [assertSame, assert', e1]
  have hd' := ifArgument_of hx hd
  obtain ⟨hw', -⟩ := converts_of hs hw
  constructor
  · unfold ifRasterNumber ifThenElse2d2d0d
    simp only [hd', Number.type, Number.value, hw']
    split
    · rfl
    · rw [ha]; rfl
  · unfold ifNumberRaster ifThenElse2d0d2d
    simp only [hd', Number.type, Number.value, hw']
    split
    · rfl
    · rw [ha]; rfl

/-! ### Construction -/

/-- Rasters of the other types can't be made. -/
theorem C119_unsupported_made (t : NumTy) (rows cols : Nat) (first : List Number) (rest : List (List Number))
    (mask : List (List Bool)) (origin cellSizes : Rat × Rat) (h : ¬ Supported t) :
    fromSizes t rows cols origin cellSizes = .assertion ∧
    fromLists t (first :: rest) mask origin cellSizes = .assertion := by
  have h : switched t = false := by rw [← Bool.not_eq_true, ← supported_iff]; exact h
  simp [fromSizes, fromLists, h]

/-- A raster made from sizes contains zeros. -/
theorem C119_zeros (t : NumTy) (rows cols : Nat) (origin cellSizes : Rat × Rat) (h : Supported t) :
    ∃ q, fromSizes t rows cols origin cellSizes = .ok q ∧ q.type = t ∧ q.rows = rows ∧ q.cols = cols ∧
      q.origin = origin ∧ q.cellSizes = cellSizes ∧ WellFormed q ∧
      ∀ i, i < rows * cols → valueAt q i = some (.fin 0) := by
  refine ⟨⟨t, rows, cols, origin, cellSizes, List.replicate (rows * cols) (.fin 0)⟩, ?_, rfl, rfl, rfl, rfl, rfl,
    ⟨?_, ?_⟩, ?_⟩
  · simp [fromSizes, supported_iff.1 h]
  · simp
  · intro v hv
    rw [(List.mem_replicate.1 hv).2]
    exact zero_ofType h
  · intro i hi
    rw [valueAt_some]
    exact ⟨by simp [hi], zero_not_reserved h⟩

example : fromSizes .f32 2 2 (0, 0) (1, 1) = .ok ⟨.f32, 2, 2, (0, 0), (1, 1), [.fin 0, .fin 0, .fin 0, .fin 0]⟩ := by
  decide +kernel

/-- A raster made from lists of values and of mask values, which has the number of columns of the first row: it has these
values, converted to its type, or the cell is masked; elements that the rows have too many are ignored, and if there are
too few, or if a value can't be converted, there is an exception. A value that is the reserved one is masked too. -/
theorem C119_lists (t : NumTy) (first : List Number) (rest : List (List Number)) (mask : List (List Bool))
    (origin cellSizes : Rat × Rat) (h : Supported t) (h0 : 0 < first.length) :
    (Complete t (first :: rest) mask first.length →
      ∃ q, fromLists t (first :: rest) mask origin cellSizes = .ok q ∧ q.type = t ∧ q.rows = rest.length + 1 ∧
        q.cols = first.length ∧ q.origin = origin ∧ q.cellSizes = cellSizes ∧ WellFormed q ∧
        ∀ r c, r < q.rows → c < q.cols →
          (element mask r c = some true → valueAt q (r * q.cols + c) = none) ∧
          (element mask r c = some false → ∀ x w, element (first :: rest) r c = some x → Extracted t x w →
            valueAt q (r * q.cols + c) = unlessReserved t w)) ∧
    (¬ Complete t (first :: rest) mask first.length →
      fromLists t (first :: rest) mask origin cellSizes = .error) := by
  obtain ⟨k1, k2⟩ := copyRows_spec (t := t) (values := first :: rest) (mask := mask) (cols := first.length)
    (first :: rest).length 0 (by omega) (.inr h0)
  simp only [Nat.zero_add] at k1 k2
  unfold fromLists
  simp only [List.getElem?_cons_zero, supported_iff.1 h, Bool.not_true, Bool.false_eq_true, if_false]
  constructor
  · intro hc
    obtain ⟨vs, e1, e2, e3⟩ := k2 fun r c hr hc' => (complete_iff h).2 (hc r c hr hc')
    rw [e1]
    refine ⟨_, rfl, rfl, by simp, rfl, rfl, rfl, ⟨by simpa using e2, ?_⟩, ?_⟩
    · intro v hv
      obtain ⟨i, hi⟩ := List.mem_iff_getElem?.1 hv
      have hlt : i < (first :: rest).length * first.length := by
        rw [← e2]
        exact (List.getElem?_eq_some_iff.1 hi).1
      have e := e3 (i / first.length) (i % first.length) (Nat.div_lt_of_lt_mul (by rwa [Nat.mul_comm]))
        (Nat.mod_lt _ h0)
      rw [Nat.div_add_mod', hi] at e
      unfold copied at e
      obtain ⟨m, _, hm⟩ := Option.bind_eq_some_iff.1 e.symm
      split at hm
      · rw [← Option.some.inj hm]
        exact reserved_ofType h
      · obtain ⟨x, _, hx⟩ := Option.bind_eq_some_iff.1 hm
        exact extracted_ofType ((extract_iff h x v).1 hx)
    · intro r c hr hc'
      have e := e3 r c (by simpa using hr) hc'
      constructor
      · intro hm
        rw [hm] at e
        rw [valueAt_of (r := ⟨t, _, _, origin, cellSizes, vs⟩) e, if_pos rfl]
      · intro hm x w hv hw
        rw [hm, hv] at e
        simp only [copied, Option.bind_some, Bool.false_eq_true, if_false, (extract_iff h x w).2 hw] at e
        rw [valueAt_of (r := ⟨t, _, _, origin, cellSizes, vs⟩) e, unlessReserved]
  · intro hc
    have : ∃ r c, r < (first :: rest).length ∧ c < first.length ∧
        copied t (element (first :: rest) r c) (element mask r c) = none := by
      by_contra hno
      refine hc fun r c hr hc' => (complete_iff h).1 fun he => hno ⟨r, c, hr, hc', he⟩
    rw [k1 this]

/-- Numbers are rounded to the type; those too large are infinite. A real number is no value of a raster of integers. -/
example : fromLists .f32 [[.int 16777217, .real (.fin (2 ^ 200))], [.real .nan, .int 3]] [[false, false], [false, true]]
      (0, 0) (1, 1) = .ok ⟨.f32, 2, 2, (0, 0), (1, 1), [.fin 16777216, .inf, .nan, .fin (1 / 2 ^ 126)]⟩ ∧
    fromLists (.int .u8) [[.real (.fin 1)]] [[false]] (0, 0) (1, 1) = .error ∧
    fromLists .f64 [[.int (2 ^ 1024)]] [[false]] (0, 0) (1, 1) = .error ∧
    fromLists .f64 [[.int 1, .int 2]] [[false]] (0, 0) (1, 1) = .error := by decide +kernel

/-- There must be at least one row. -/
theorem C119_lists_empty (t : NumTy) (mask : List (List Bool)) (origin cellSizes : Rat × Rat) :
    fromLists t [] mask origin cellSizes = .error := rfl

end Fern.PyFloat
