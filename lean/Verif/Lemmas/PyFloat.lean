import Verif.Spec.PyFloat
import Verif.Lemmas.PyOps
import Verif.Props.FloatRaster

/-! # Lemmas on raster operations of the Python extension, with floating point numbers -/

namespace Fern.PyFloat

open Fern Fern.Spec Fern.Domains Fern.Casts Fern.FloatArith
open Fern.PyOps (Out Arith Comparison)
open Fern.Casts.Spec (OfType IntegerPart)
open Fern.FloatArith.Spec (Rounded TooLarge larger)
open _root_.Fern.FloatRaster.Spec (Result IsNumber Mixed Accepted PairCell ByZero Fails ConvertsTo SpecialSum
  SpecialProduct InfiniteSigned IsInfinite Positive Negative)
open _root_.Fern.PairLoop.Spec (EachPair SomePair)
open _root_.Fern.PyFloat.Spec

theorem noData_eq (t : NumTy) : noData t = reserved t := by
  cases t with
  | int t => simp [noData, reserved, PyOps.noData_eq]
  | f32 => simp only [noData, reserved]; norm_num
  | f64 => simp only [noData, reserved]; rw [zpow_neg, one_div]; norm_cast
  | bool => rfl

theorem isNoData_iff {t : NumTy} {v : Flt} : isNoData t v = true ↔ v = reserved t := by
  rw [isNoData, noData_eq]
  cases t <;> cases v <;> simp [Flt.eq, reserved]

theorem num_cases {t : NumTy} (h : Supported t) : (∃ i, t = .int i) ∨ ∃ f : FltTy, t = f.num := by
  cases t with
  | int t => exact .inl ⟨t, rfl⟩
  | f32 => exact .inr ⟨.single, rfl⟩
  | f64 => exact .inr ⟨.double, rfl⟩
  | bool => exact absurd h id

theorem reserved_ofType {t : NumTy} (h : Supported t) : OfType t (reserved t) := by
  cases t with
  | int t => exact ⟨_, rfl, PyOps.reserved_fits t⟩
  | f32 =>
    refine ⟨1, -126, by norm_num, by norm_num, by norm_num, by norm_num, 126, .inr ⟨by norm_num, ?_⟩⟩
    norm_num
  | f64 =>
    refine ⟨1, -1022, by norm_num, by norm_num, by norm_num, by norm_num, 1022, .inr ⟨by norm_num, ?_⟩⟩
    rw [← zpow_natCast, ← zpow_add₀ (by norm_num)]
    norm_num
  | bool => exact absurd h id

theorem supported_num (t : FltTy) : Supported t.num := by cases t <;> trivial

theorem supported_iff {t : NumTy} : Supported t ↔ switched t = true := by
  cases t with
  | int t => exact PyOps.supported_iff
  | f32 => simp [Supported, switched]
  | f64 => simp [Supported, switched]
  | bool => simp [Supported, switched]

theorem valueAt_of {r : Raster} {i : Nat} {v : Flt} (h : r.values[i]? = some v) :
    valueAt r i = if v = reserved r.type then none else some v := by
  rw [valueAt, h, Option.bind_some]

theorem valueAt_some {r : Raster} {i : Nat} {a : Flt} :
    valueAt r i = some a ↔ r.values[i]? = some a ∧ a ≠ reserved r.type := by
  unfold valueAt
  cases h : r.values[i]? with
  | none => simp
  | some v =>
    simp only [Option.bind_some, Option.some.injEq]
    split
    · next e => simp [e]; rintro rfl; simp
    · next e =>
      simp only [Option.some.injEq]
      constructor
      · rintro rfl; exact ⟨rfl, e⟩
      · exact fun h => h.1

theorem valueAt_ofType {r : Raster} (hr : WellFormed r) {i : Nat} {a : Flt} (h : valueAt r i = some a) :
    OfType r.type a :=
  hr.fits _ (List.mem_of_getElem? (valueAt_some.1 h).1)

theorem valueAt_none {r : Raster} (hr : WellFormed r) {i : Nat} (h : ¬ i < r.rows * r.cols) : valueAt r i = none := by
  rw [valueAt, List.getElem?_eq_none, Option.bind_none]
  rw [hr.size]
  omega

theorem has_value {r : Raster} (hr : WellFormed r) {i : Nat} (hi : i < r.rows * r.cols) : ∃ a, r.values[i]? = some a :=
  ⟨_, List.getElem?_eq_getElem (by rw [hr.size]; exact hi)⟩

theorem uninitialised_length (garbage : Nat → Flt) (rows cols : Nat) :
    (uninitialised garbage rows cols).length = rows * cols := by simp [uninitialised]

theorem detect_iff {t : NumTy} {values : List Flt} {i : Nat} {a : Flt} (h : values[i]? = some a) :
    NoDataAt (detect t) values i ↔ a = reserved t := by
  simp [NoDataAt, detect, h, isNoData_iff]

theorem not_noDataAt_skip {values : List Flt} {i : Nat} : ¬ NoDataAt (.skip : InPolicy Flt) values i := by
  simp [NoDataAt]

/-- The cell that a stored value stands for. -/
def cellOf (t : NumTy) (v : Flt) : Option Flt := if v = reserved t then none else some v

theorem cellOf_eq (t : NumTy) (v : Flt) : cellOf t v = unlessReserved t v := rfl

/-- The result of an operation, from what is stored. -/
theorem finish_spec {P : Nat → Cell Flt → Cell Flt → Prop} {res out : List (Cell Flt)} {l : Raster} {t : NumTy}
    {cell : Nat → Option Flt → Prop} (hE : Elementwise P res out) (hn : res.length = l.rows * l.cols)
    (h : ∀ i c c', i < l.rows * l.cols → P i c c' → res[i]? = some c →
      OfType t c'.val ∧ cell i (cellOf t c'.val))
    (ho : ∀ i, ¬ i < l.rows * l.cols → cell i none) :
    Gives (finish (some out) t l.rows l.cols l.origin l.cellSizes) t l cell := by
  have hlen : out.length = l.rows * l.cols := by rw [hE.1, hn]
  have hc : ∀ i, (hi : i < l.rows * l.cols) →
      OfType t (out[i]'(by omega)).val ∧ cell i (cellOf t (out[i]'(by omega)).val) := by
    intro i hi
    have e : res[i]? = some (res[i]'(by omega)) := List.getElem?_eq_getElem (by omega)
    obtain ⟨c', hc', hp⟩ := hE.2 i (res[i]'(by omega)) e
    rw [(List.getElem?_eq_some_iff.1 hc').2]
    exact h i _ c' hi hp e
  refine ⟨⟨t, l.rows, l.cols, l.origin, l.cellSizes, out.map Cell.val⟩, rfl, rfl, ⟨rfl, rfl, rfl, rfl⟩, ⟨?_, ?_⟩, ?_⟩
  · simpa using hlen
  · intro v hv
    obtain ⟨i, hi, rfl⟩ := List.mem_iff_getElem.1 hv
    simp only [List.length_map] at hi
    simp only [List.getElem_map]
    exact (hc i (by omega)).1
  · intro i
    by_cases hi : i < l.rows * l.cols
    · have hv : (out.map Cell.val)[i]? = some (out[i]'(by omega)).val := by
        rw [List.getElem?_map, List.getElem?_eq_getElem (by omega), Option.map_some]
      rw [valueAt_of (r := ⟨t, l.rows, l.cols, l.origin, l.cellSizes, out.map Cell.val⟩) hv]
      exact (hc i hi).2
    · have : valueAt ⟨t, l.rows, l.cols, l.origin, l.cellSizes, out.map Cell.val⟩ i = none := by
        rw [valueAt, List.getElem?_eq_none, Option.bind_none]
        simp only [List.length_map]
        omega
      rw [this]
      exact ho i hi

/-! ### Sums and products -/

theorem rounded_ofType {t : FltTy} {q : Rat} {f : Flt} (h : Rounded t q f) : OfType t.num f := by
  by_cases hl : TooLarge t q
  · rw [h.1 hl]
    split <;> cases t <;> simp [OfType, FltTy.num]
  · obtain ⟨r, rfl, hr, -⟩ := h.2 hl
    exact hr.1

theorem special_ofType (t : FltTy) {f : Flt} (h : ¬ IsNumber f) : OfType t.num f := by
  cases f with
  | fin q => exact absurd ⟨q, rfl⟩ h
  | _ => cases t <;> simp [OfType, FltTy.num]

theorem result_unique {t : FltTy} {o : Arith} {a b z z' : Flt} (h : Result t (arithOp o) a b z)
    (h' : Result t (arithOp o) a b z') : z = z' := by
  by_cases hf : IsNumber a ∧ IsNumber b
  · obtain ⟨⟨x, rfl⟩, ⟨y, rfl⟩⟩ := hf
    cases o
    · exact C95_determined t _ _ _ (h.1 x y _ rfl rfl rfl) (h'.1 x y _ rfl rfl rfl)
    · exact C95_determined t _ _ _ (h.1 x y _ rfl rfl rfl) (h'.1 x y _ rfl rfl rfl)
  · have k := h.2 hf
    have k' := h'.2 hf
    cases o
    · simp only [arithOp] at k k'
      cases a <;> cases b <;> simp [SpecialSum, IsInfinite, Casts.Spec.opposite, IsNumber] at k k' hf <;> simp_all
    · simp only [arithOp] at k k'
      cases a <;> cases b <;>
        simp [SpecialProduct, InfiniteSigned, Positive, Negative, IsNumber] at k k' hf <;> grind

theorem result_exists (t : FltTy) (o : Arith) (a b : Flt) : ∃ z, Result t (arithOp o) a b z := by
  cases o
  · exact ⟨_, FloatRaster.result_plus t a b⟩
  · exact ⟨_, FloatRaster.result_times t a b⟩

theorem plus_ofType (t : FltTy) (a b : Flt) : OfType t.num (plus t a b) := by
  by_cases hf : IsNumber a ∧ IsNumber b
  · obtain ⟨⟨x, rfl⟩, ⟨y, rfl⟩⟩ := hf
    exact rounded_ofType (round_rounded t (x + y))
  · exact special_ofType t (FloatRaster.plus_not_finite hf)

theorem times_ofType (t : FltTy) (a b : Flt) : OfType t.num (times t a b) := by
  by_cases hf : IsNumber a ∧ IsNumber b
  · obtain ⟨⟨x, rfl⟩, ⟨y, rfl⟩⟩ := hf
    exact rounded_ofType (round_rounded t (x * y))
  · refine special_ofType t ?_
    cases a <;> cases b <;> simp [IsNumber, times, infinite] at hf ⊢ <;> grind

theorem result_ofType {t : FltTy} {o : Arith} {a b z : Flt} (h : Result t (arithOp o) a b z) : OfType t.num z := by
  cases o
  · rw [result_unique (o := .add) h (FloatRaster.result_plus t a b)]
    exact plus_ofType t a b
  · rw [result_unique (o := .multiply) h (FloatRaster.result_times t a b)]
    exact times_ofType t a b

theorem operand_unique {t : FltTy} {v a b : Flt} (h : FloatRaster.Spec.Operand t v a)
    (h' : FloatRaster.Spec.Operand t v b) : a = b := by
  rw [← FloatRaster.cast_operand .f64] at h h'
  exact Option.some.inj (h.symm.trans h')

theorem operand_exists (t : FltTy) (v : Flt) : ∃ a, FloatRaster.Spec.Operand t v a := by
  cases v with
  | fin q => exact ⟨_, .inl ⟨q, rfl, round_rounded t q⟩⟩
  | inf => exact ⟨_, .inr ⟨by simp [IsNumber], rfl⟩⟩
  | negInf => exact ⟨_, .inr ⟨by simp [IsNumber], rfl⟩⟩
  | nan => exact ⟨_, .inr ⟨by simp [IsNumber], rfl⟩⟩

theorem operand_ofType {t : FltTy} {v a : Flt} (h : FloatRaster.Spec.Operand t v a) : OfType t.num a := by
  rcases h with ⟨q, rfl, h⟩ | ⟨h, rfl⟩
  · exact rounded_ofType h
  · exact special_ofType t h

/-- A pair of values, from what arithmetic on arrays does. -/
theorem pairCell_arith {o : Arith} {t1 t2 : NumTy} {t : FltTy} {v w : Flt} {c c' : Cell Flt}
    (h : PairCell (arithOp o) checks t1 t2 t (mark t.num) v w c c') :
    OfType t.num c'.val ∧ ArithCell o t1 t2 t v w (cellOf t.num c'.val) := by
  have hz : ¬ ByZero (arithOp o) w := by cases o <;> simp [ByZero, arithOp]
  obtain ⟨a, b, z, ha, hb, hr, k1, k2⟩ := h.2 hz
  have hacc : Accepted (arithOp o) checks t1 t2 z ↔ (IsNumber z ∨ (o = .add ∧ Mixed t1 t2)) := by
    cases o <;> simp [Accepted, checks, arithOp]
  rw [hacc] at k1 k2
  by_cases hA : IsNumber z ∨ (o = .add ∧ Mixed t1 t2)
  · rw [k1 hA]
    exact ⟨result_ofType hr, a, b, z, ha, hb, hr, fun _ => rfl, fun h => absurd hA h⟩
  · have e : c'.val = reserved t.num := by
      have := (k2 hA).1
      rwa [noData_eq] at this
    rw [e]
    refine ⟨reserved_ofType (supported_num t), a, b, z, ha, hb, hr, fun h => absurd h hA, fun _ => ?_⟩
    simp [cellOf]

theorem marked_reserved {t : NumTy} {c c' : Cell Flt} (h : Marked (mark t) c c') : c'.val = reserved t := by
  have := h.1
  rwa [noData_eq] at this

theorem cellOf_reserved (t : NumTy) : cellOf t (reserved t) = none := by simp [cellOf]

theorem not_fails (o : Arith) (t1 t2 : NumTy) (v w : Flt) : ¬ Fails (arithOp o) checks t1 t2 v w := by
  cases o <;> simp [Fails, ByZero, arithOp]

theorem not_some_fails (o : Arith) (t1 t2 : NumTy) (in1 in2 : InPolicy Flt) (a1 a2 : Arg Flt) (n : Nat) :
    ¬ SomePair (Fails (arithOp o) checks t1 t2) in1 in2 a1 a2 n := by
  rintro ⟨_, _, _, v, w, _, _, h⟩
  exact not_fails o t1 t2 v w h

/-- Types of which one is a floating point type are not both integer types. -/
theorem arith_types {t1 t2 : NumTy} {t : FltTy} (h : resultType t1 t2 = some t) (i1 i2 : IntTy) :
    ¬ (t1 = .int i1 ∧ t2 = .int i2) := by
  rintro ⟨rfl, rfl⟩
  rcases FloatRaster.resultType_cases h with ⟨s, _, h, _⟩ | ⟨_, _, h⟩ | ⟨_, h, _⟩
  · exact FloatRaster.num_not_int _ _ h.symm
  · exact FloatRaster.num_not_int _ _ h.symm
  · exact FloatRaster.num_not_int _ _ h.symm

theorem rasterRaster_eq (o : Arith) (garbage : Nat → Flt) {l r : Raster} {t : FltTy} (h : Matching l r)
    (ht : resultType l.type r.type = some t) :
    Gives (rasterRaster o garbage l r) t.num l fun i =>
      Both (valueAt l i) (valueAt r i) (ArithCell o l.type r.type t) := by
  have hrs : r.values.length = l.rows * l.cols := by rw [h.right.size, h.rows, h.cols]
  obtain ⟨out, ho, hE, -⟩ := (FloatRaster.C118_2d2d (arithOp o) checks ht (detect l.type) (detect r.type) (mark t.num)
    l.rows l.cols l.values r.values (uninitialised garbage l.rows l.cols) h.left.size hrs (uninitialised_length _ _ _)
    trivial trivial h.left.fits h.right.fits).1 (not_some_fails o _ _ _ _ _ _ _)
  have e : rasterRaster o garbage l r = finish (some out) t.num l.rows l.cols l.origin l.cellSizes := by
    unfold rasterRaster
    rw [supported_iff.1 h.leftType, supported_iff.1 h.rightType, h.rows, h.cols]
    simp only [Bool.and_self, Bool.not_true, Bool.false_eq_true, if_false]
    split
    · next e1 e2 => exact absurd ⟨e1, e2⟩ (arith_types ht _ _)
    · rw [ht]
      simp only [ho]
  rw [e]
  refine finish_spec hE (uninitialised_length _ _ _) ?_ ?_
  · intro i c c' hi hp _
    obtain ⟨a, ha⟩ := has_value h.left hi
    obtain ⟨b, hb⟩ := has_value h.right (i := i) (by rw [h.rows, h.cols]; exact hi)
    obtain ⟨g1, g2⟩ := hp
    simp only [Arg.NoData, Arg.HasAt] at g1 g2
    rw [detect_iff ha, detect_iff hb] at g1 g2
    rw [valueAt_of ha, valueAt_of hb]
    by_cases hn : a = reserved l.type ∨ b = reserved r.type
    · rw [marked_reserved (g1 hn), cellOf_reserved]
      refine ⟨reserved_ofType (supported_num t), fun _ => rfl, fun v w hv hw => ?_⟩
      rcases hn with hn | hn <;> simp [hn] at hv hw
    · obtain ⟨v, w, hv, hw, hp⟩ := g2 hn
      rw [ha] at hv
      rw [hb] at hw
      cases hv
      cases hw
      obtain ⟨k1, k2⟩ := pairCell_arith hp
      rw [not_or] at hn
      rw [if_neg hn.1, if_neg hn.2]
      refine ⟨k1, by simp, ?_⟩
      rintro v w ⟨⟩ ⟨⟩
      exact k2
  · intro i hi
    rw [valueAt_none h.left hi]
    exact ⟨fun _ => rfl, by simp⟩

theorem resultType_self (t : FltTy) : resultType t.num t.num = some t := by cases t <;> rfl

theorem cast_some (s : NumTy) (t : FltTy) (v : Flt) : ∃ w, castTo s t.num v = some w ∧ FloatRaster.Spec.Operand t v w := by
  obtain ⟨w, hw⟩ := operand_exists t v
  exact ⟨w, (FloatRaster.cast_operand s t v w).2 hw, hw⟩

theorem rasterNumber_eq (o : Arith) (garbage : Nat → Flt) {l : Raster} (x : Number) {t : FltTy} (h : WellFormed l)
    (ht : l.type = t.num) :
    Gives (rasterNumber o garbage l x) t.num l fun i =>
      One (valueAt l i) fun v y => ∃ w, FloatRaster.Spec.Operand t x.value w ∧ ArithCell o t.num t.num t v w y := by
  obtain ⟨w, hc, hw⟩ := cast_some x.type t x.value
  have hf := h.fits
  rw [ht] at hf
  obtain ⟨out, ho, hE, -⟩ := (FloatRaster.C118_2d0d (arithOp o) checks (resultType_self t) (detect t.num) .skip
    (mark t.num) l.rows l.cols l.values w (uninitialised garbage l.rows l.cols) h.size (uninitialised_length _ _ _)
    trivial trivial hf (operand_ofType hw)).1 (not_some_fails o _ _ _ _ _ _ _)
  have e : rasterNumber o garbage l x = finish (some out) t.num l.rows l.cols l.origin l.cellSizes := by
    unfold rasterNumber
    rw [ht, supported_iff.1 (supported_num t)]
    simp only [Bool.not_true, Bool.false_eq_true, if_false, hc]
    split
    · next e1 => exact absurd e1 (FloatRaster.num_not_int _ _)
    · rw [resultType_self t]
      simp only [ho]
  rw [e]
  refine finish_spec hE (uninitialised_length _ _ _) ?_ ?_
  · intro i c c' hi hp _
    obtain ⟨a, ha⟩ := has_value h hi
    obtain ⟨g1, g2⟩ := hp
    simp only [Arg.NoData, Arg.HasAt] at g1 g2
    rw [detect_iff ha] at g1 g2
    rw [valueAt_of ha, ht]
    by_cases hn : a = reserved t.num
    · rw [marked_reserved (g1 (.inl hn)), cellOf_reserved]
      refine ⟨reserved_ofType (supported_num t), fun _ => rfl, fun v hv => ?_⟩
      simp [hn] at hv
    · obtain ⟨v, w', hv, rfl, hp⟩ := g2 (not_or_intro hn not_noDataAt_skip)
      rw [ha] at hv
      cases hv
      obtain ⟨k1, k2⟩ := pairCell_arith hp
      rw [if_neg hn]
      refine ⟨k1, by simp, ?_⟩
      rintro v ⟨⟩
      exact ⟨_, hw, k2⟩
  · intro i hi
    rw [valueAt_none h hi]
    exact ⟨fun _ => rfl, by simp⟩

theorem numberRaster_eq (o : Arith) (garbage : Nat → Flt) {l : Raster} (x : Number) {t : FltTy} (h : WellFormed l)
    (ht : l.type = t.num) :
    Gives (numberRaster o garbage x l) t.num l fun i =>
      One (valueAt l i) fun v y => ∃ w, FloatRaster.Spec.Operand t x.value w ∧ ArithCell o t.num t.num t w v y := by
  obtain ⟨w, hc, hw⟩ := cast_some x.type t x.value
  have hf := h.fits
  rw [ht] at hf
  obtain ⟨out, ho, hE, -⟩ := (FloatRaster.C118_0d2d (arithOp o) checks (resultType_self t) .skip (detect t.num)
    (mark t.num) l.rows l.cols w l.values (uninitialised garbage l.rows l.cols) h.size (uninitialised_length _ _ _)
    trivial trivial (operand_ofType hw) hf).1 (not_some_fails o _ _ _ _ _ _ _)
  have e : numberRaster o garbage x l = finish (some out) t.num l.rows l.cols l.origin l.cellSizes := by
    unfold numberRaster
    rw [ht, supported_iff.1 (supported_num t)]
    simp only [Bool.not_true, Bool.false_eq_true, if_false, hc]
    split
    · next e1 => exact absurd e1 (FloatRaster.num_not_int _ _)
    · rw [resultType_self t]
      simp only [ho]
  rw [e]
  refine finish_spec hE (uninitialised_length _ _ _) ?_ ?_
  · intro i c c' hi hp _
    obtain ⟨a, ha⟩ := has_value h hi
    obtain ⟨g1, g2⟩ := hp
    simp only [Arg.NoData, Arg.HasAt] at g1 g2
    rw [detect_iff ha] at g1 g2
    rw [valueAt_of ha, ht]
    by_cases hn : a = reserved t.num
    · rw [marked_reserved (g1 (.inr hn)), cellOf_reserved]
      refine ⟨reserved_ofType (supported_num t), fun _ => rfl, fun v hv => ?_⟩
      simp [hn] at hv
    · obtain ⟨w', v, rfl, hv, hp⟩ := g2 (not_or_intro not_noDataAt_skip hn)
      rw [ha] at hv
      cases hv
      obtain ⟨k1, k2⟩ := pairCell_arith hp
      rw [if_neg hn]
      refine ⟨k1, by simp, ?_⟩
      rintro v ⟨⟩
      exact ⟨_, hw, k2⟩
  · intro i hi
    rw [valueAt_none h hi]
    exact ⟨fun _ => rfl, by simp⟩

/-! ### In place -/

theorem operand_self {t : FltTy} {v : Flt} (h : OfType t.num v) : FloatRaster.Spec.Operand t v v := by
  cases v with
  | fin q =>
    refine .inl ⟨q, rfl, ?_⟩
    rw [← round_exact t h]
    exact round_rounded t q
  | inf => exact .inr ⟨by simp [IsNumber], rfl⟩
  | negInf => exact .inr ⟨by simp [IsNumber], rfl⟩
  | nan => exact .inr ⟨by simp [IsNumber], rfl⟩

theorem not_mixed (t : FltTy) : ¬ Mixed t.num t.num := by
  rintro (⟨i, h⟩ | ⟨i, h⟩) <;> exact FloatRaster.num_not_int _ _ h

theorem fltOp_result (o : Arith) (t : FltTy) (a b : Flt) : Result t (arithOp o) a b ((fltOp o t).compute (a, b)) := by
  cases o
  · exact FloatRaster.result_plus t a b
  · exact FloatRaster.result_times t a b

theorem fltOp_range (o : Arith) (t : FltTy) (p : Flt × Flt) (x : Flt) :
    (fltOp o t).withinRange p x = true ↔ IsNumber x := by
  cases o
  · simp only [fltOp]
    rw [FloatRaster.addFltRange_iff]
    simp [not_mixed]
  · simp only [fltOp]
    exact FloatRaster.finite_iff

theorem inPlaceCell_arith {o : Arith} {t : FltTy} {x2 : Operand Flt} {nd : Prop} {a b : Flt} {c c' : Cell Flt}
    (oa : OfType t.num a) (ob : OfType t.num b)
    (h : InPlaceCell (fltOp o t) .own x2 (mark t.num) nd a b c c') :
    (nd → c'.val = reserved t.num) ∧
    (¬ nd → OfType t.num c'.val ∧ ArithCell o t.num t.num t a b (cellOf t.num c'.val)) := by
  refine ⟨fun hn => marked_reserved (h.noData hn), fun hn => ?_⟩
  have hr := fltOp_result o t a b
  by_cases hA : IsNumber ((fltOp o t).compute (a, b))
  · rw [h.accepted hn rfl ((fltOp_range ..).2 hA)]
    exact ⟨result_ofType hr, a, b, _, operand_self oa, operand_self ob, hr, fun _ => rfl, fun h => absurd (.inl hA) h⟩
  · have := marked_reserved (h.rejected hn rfl (by rw [← Bool.not_eq_true, fltOp_range]; exact hA))
    rw [this, cellOf_reserved]
    refine ⟨reserved_ofType (supported_num t), a, b, _, operand_self oa, operand_self ob, hr, fun h => ?_, fun _ => rfl⟩
    rcases h with h | h
    · exact absurd h hA
    · exact absurd h.2 (not_mixed t)

theorem inPlace_eq (o : Arith) {self : Raster} {other : Other} {t : FltTy} (h : Matching self (operand self other))
    (hs : self.type = t.num) (ht : (operand self other).type = t.num) :
    Gives (inPlace o self other) t.num self fun i =>
      Both (valueAt self i) (valueAt (operand self other) i) (ArithCell o t.num t.num t) := by
  have hres : (self.values.map fun v => (⟨v, false⟩ : Cell Flt)).length = self.rows * self.cols := by
    simpa using h.left.size
  have hf := h.left.fits
  rw [hs] at hf
  have done : ∀ {P : Nat → Cell Flt → Cell Flt → Prop} {out : List (Cell Flt)},
      Elementwise P (self.values.map fun v => (⟨v, false⟩ : Cell Flt)) out →
      (∀ i a b c', self.values[i]? = some a → (operand self other).values[i]? = some b → P i ⟨a, false⟩ c' →
        (a = reserved t.num ∨ b = reserved t.num → c'.val = reserved t.num) ∧
        (¬ (a = reserved t.num ∨ b = reserved t.num) →
          OfType t.num c'.val ∧ ArithCell o t.num t.num t a b (cellOf t.num c'.val))) →
      Gives (finish (some out) t.num self.rows self.cols self.origin self.cellSizes) t.num self fun i =>
        Both (valueAt self i) (valueAt (operand self other) i) (ArithCell o t.num t.num t) := by
    intro P out hE hP
    refine finish_spec hE hres ?_ ?_
    · intro i c c' hi hp hc
      obtain ⟨a, ha⟩ := has_value h.left hi
      obtain ⟨b, hb⟩ := has_value h.right (i := i) (by rw [h.rows, h.cols]; exact hi)
      rw [List.getElem?_map, ha] at hc
      cases hc
      obtain ⟨g1, g2⟩ := hP i a b c' ha hb hp
      rw [valueAt_of ha, valueAt_of hb, hs, ht]
      by_cases hn : a = reserved t.num ∨ b = reserved t.num
      · rw [g1 hn, cellOf_reserved]
        refine ⟨reserved_ofType (supported_num t), fun _ => rfl, fun v w hv hw => ?_⟩
        rcases hn with hn | hn <;> simp [hn] at hv hw
      · obtain ⟨k1, k2⟩ := g2 hn
        rw [not_or] at hn
        rw [if_neg hn.1, if_neg hn.2]
        refine ⟨k1, by simp, ?_⟩
        rintro v w ⟨⟩ ⟨⟩
        exact k2
    · intro i hi
      rw [valueAt_none h.left hi]
      exact ⟨fun _ => rfl, by simp⟩
  cases other with
  | self =>
    obtain ⟨out, ho, hE, _⟩ := C73_binary_2d_checked_after (fltOp o t)
      (p1 := .ownValue (isNoData t.num)) (p2 := .ownValue (isNoData t.num)) (mark t.num) (x1 := .own)
      (x2 := .own) self.rows self.cols trivial trivial trivial trivial _ hres
    have e : inPlace o self .self = finish (some out) t.num self.rows self.cols self.origin self.cellSizes := by
      unfold inPlace
      rw [hs]
      simp only [supported_iff.1 (supported_num t), Bool.not_true, Bool.false_eq_true, if_false]
      split
      · next e1 => exact absurd e1 (FloatRaster.num_not_int _ _)
      · rw [resultType_self t]
        simp only [ho]
    rw [e]
    refine done hE fun i a b c' ha hb hp => ?_
    simp only [operand] at hb
    rw [ha] at hb
    cases hb
    have hc : (self.values.map fun v => (⟨v, false⟩ : Cell Flt))[i]? = some ⟨a, false⟩ := by simp [ha]
    have oa := hf a (List.mem_of_getElem? ha)
    have g := inPlaceCell_arith oa oa (hp a a ⟨_, hc, rfl⟩ ⟨_, hc, rfl⟩)
    simpa only [NoDataBefore, hc, Option.some.injEq, exists_eq_left', isNoData_iff] using g
  | raster r =>
    simp only [operand] at ht
    have hrs : r.values.length = self.rows * self.cols := by
      have := h.right.size
      rw [h.rows, h.cols] at this
      exact this
    have hfr : ∀ v ∈ r.values, OfType t.num v := by
      have := h.right.fits
      simp only [operand, ht] at this
      exact this
    obtain ⟨out, ho, hE, _⟩ := C73_binary_2d_checked_after (fltOp o t)
      (p1 := .ownValue (isNoData t.num)) (p2 := .bound (detect t.num) r.values) (mark t.num) (x1 := .own)
      (x2 := .array r.values) self.rows self.cols trivial ⟨hrs, trivial⟩ trivial hrs _ hres
    have e : inPlace o self (.raster r) = finish (some out) t.num self.rows self.cols self.origin self.cellSizes := by
      have h1 : r.rows = self.rows := h.rows
      have h2 : r.cols = self.cols := h.cols
      unfold inPlace
      rw [hs]
      simp only [ht, h1, h2, supported_iff.1 (supported_num t), beq_self_eq_true, Bool.and_self, Bool.not_true,
        Bool.false_eq_true, if_false]
      split
      · next e1 => exact absurd e1 (FloatRaster.num_not_int _ _)
      · rw [resultType_self t]
        simp only [ho]
    rw [e]
    refine done hE fun i a b c' ha hb hp => ?_
    simp only [operand] at hb
    have hc : (self.values.map fun v => (⟨v, false⟩ : Cell Flt))[i]? = some ⟨a, false⟩ := by simp [ha]
    have g := inPlaceCell_arith (hf a (List.mem_of_getElem? ha)) (hfr b (List.mem_of_getElem? hb))
      (hp a b ⟨_, hc, rfl⟩ hb)
    simpa only [NoDataBefore, hc, Option.some.injEq, exists_eq_left', isNoData_iff, detect_iff hb] using g

/-! ### Comparison -/

theorem lt_iff {a b : Flt} : Flt.lt a b = true ↔ Below a b := by
  cases a <;> cases b <;> simp [Flt.lt, Below, IsNumber]

theorem flt_iff {c : Comparison} {a b : Flt} : Comparison.flt c a b = true ↔ Holds c a b := by
  cases c
  · exact lt_iff
  · exact lt_iff

theorem elem_float {c : Comparison} {t1 t2 : NumTy} {t : FltTy} (ht : resultType t1 t2 = some t) {v w a b : Flt}
    (ha : FloatRaster.Spec.Operand t v a) (hb : FloatRaster.Spec.Operand t w b) :
    Comparison.elem c t1 t2 v w = true ↔ Holds c a b := by
  rw [← flt_iff]
  unfold Comparison.elem
  split
  · next i1 i2 => exact absurd ⟨rfl, rfl⟩ (arith_types ht i1 i2)
  · rw [ht]
    simp only [(FloatRaster.cast_operand t1 t v a).2 ha, (FloatRaster.cast_operand t2 t w b).2 hb]

/-- The value that a comparison stores. -/
theorem compare_cell {c : Comparison} {t1 t2 : NumTy} {nd : Prop} {v w : Flt} {x x' : Cell Flt}
    (h : LocalCell (Comparison.op c t1 t2) (mark (.int .u8)) nd (v, w) x x') :
    OfType (.int .u8) x'.val ∧ (nd → cellOf (.int .u8) x'.val = none) ∧
    (¬ nd → cellOf (.int .u8) x'.val = some (if Comparison.elem c t1 t2 v w then .fin 1 else .fin 0)) := by
  by_cases hn : nd
  · rw [marked_reserved (h.noData hn), cellOf_reserved]
    exact ⟨reserved_ofType (.inl rfl), fun _ => rfl, fun h => absurd hn h⟩
  · rw [h.ok hn rfl rfl]
    simp only [Comparison.op]
    refine ⟨?_, fun h => absurd h hn, fun _ => ?_⟩
    · split
      · exact ⟨1, by norm_num, by decide⟩
      · exact ⟨0, by norm_num, by decide⟩
    · rw [cellOf, if_neg]
      split <;> simp [reserved, PyOps.Spec.reserved]

theorem compareRasters_eq (c : Comparison) (garbage : Nat → Flt) {l r : Raster} (h : Matching l r) :
    Gives (compareRasters c garbage l r) (.int .u8) l fun i => Both (valueAt l i) (valueAt r i) fun v w y =>
      y = some (if Comparison.elem c l.type r.type v w then .fin 1 else .fin 0) := by
  have hrs : r.values.length = l.rows * l.cols := by rw [h.right.size, h.rows, h.cols]
  obtain ⟨out, ho, hE⟩ := C10_binary_2d2d (Comparison.op c l.type r.type) (detect l.type) (detect r.type)
    (mark (.int .u8)) l.rows l.cols l.values r.values (uninitialised garbage l.rows l.cols) h.left.size hrs
    (uninitialised_length _ _ _) trivial trivial
  unfold compareRasters
  rw [supported_iff.1 h.leftType, supported_iff.1 h.rightType, h.rows, h.cols]
  simp only [Bool.and_self, Bool.not_true, Bool.false_eq_true, if_false]
  rw [ho]
  refine finish_spec hE (uninitialised_length _ _ _) ?_ ?_
  · intro i x x' hi hp _
    obtain ⟨a, ha⟩ := has_value h.left hi
    obtain ⟨b, hb⟩ := has_value h.right (i := i) (by rw [h.rows, h.cols]; exact hi)
    obtain ⟨g0, g1, g2⟩ := compare_cell (hp a b ha hb)
    rw [detect_iff ha, detect_iff hb] at g1 g2
    rw [valueAt_of ha, valueAt_of hb]
    refine ⟨g0, ?_⟩
    by_cases hn : a = reserved l.type ∨ b = reserved r.type
    · refine ⟨fun _ => g1 hn, fun v w hv hw => ?_⟩
      rcases hn with hn | hn <;> simp [hn] at hv hw
    · rw [g2 hn]
      rw [not_or] at hn
      rw [if_neg hn.1, if_neg hn.2]
      refine ⟨by simp, ?_⟩
      rintro v w ⟨⟩ ⟨⟩
      rfl
  · intro i hi
    rw [valueAt_none h.left hi]
    exact ⟨fun _ => rfl, by simp⟩

theorem compareNumber_eq (c : Comparison) (garbage : Nat → Flt) {l : Raster} (n : Number) (h : WellFormed l)
    (s : Supported l.type) :
    Gives (compareNumber c garbage l n) (.int .u8) l fun i => One (valueAt l i) fun v y =>
      y = some (if Comparison.elem c l.type n.type v n.value then .fin 1 else .fin 0) := by
  obtain ⟨out, ho, hE⟩ := C10_binary_2d0d (Comparison.op c l.type n.type) (detect l.type) .skip
    (mark (.int .u8)) l.rows l.cols l.values n.value (uninitialised garbage l.rows l.cols) h.size
    (uninitialised_length _ _ _) trivial trivial
  unfold compareNumber
  rw [supported_iff.1 s]
  simp only [Bool.not_true, Bool.false_eq_true, if_false]
  rw [ho]
  refine finish_spec hE (uninitialised_length _ _ _) ?_ ?_
  · intro i x x' hi hp _
    obtain ⟨a, ha⟩ := has_value h hi
    obtain ⟨g0, g1, g2⟩ := compare_cell (hp a ha)
    rw [detect_iff ha] at g1 g2
    rw [valueAt_of ha]
    refine ⟨g0, ?_⟩
    by_cases hn : a = reserved l.type
    · refine ⟨fun _ => g1 (.inl hn), fun v hv => ?_⟩
      simp [hn] at hv
    · rw [g2 (not_or_intro hn not_noDataAt_skip), if_neg hn]
      refine ⟨by simp, ?_⟩
      rintro v ⟨⟩
      rfl
  · intro i hi
    rw [valueAt_none h hi]
    exact ⟨fun _ => rfl, by simp⟩

theorem numberCompare_eq (c : Comparison) (garbage : Nat → Flt) {l : Raster} (n : Number) (h : WellFormed l)
    (s : Supported l.type) :
    Gives (numberCompare c garbage n l) (.int .u8) l fun i => One (valueAt l i) fun v y =>
      y = some (if Comparison.elem c n.type l.type n.value v then .fin 1 else .fin 0) := by
  obtain ⟨out, ho, hE⟩ := C10_binary_0d2d (Comparison.op c n.type l.type) .skip (detect l.type)
    (mark (.int .u8)) l.rows l.cols n.value l.values (uninitialised garbage l.rows l.cols) h.size
    (uninitialised_length _ _ _) trivial trivial
  unfold numberCompare
  rw [supported_iff.1 s]
  simp only [Bool.not_true, Bool.false_eq_true, if_false]
  rw [ho]
  refine finish_spec hE (uninitialised_length _ _ _) ?_ ?_
  · intro i x x' hi hp _
    obtain ⟨a, ha⟩ := has_value h hi
    obtain ⟨g0, g1, g2⟩ := compare_cell (hp a ha)
    rw [detect_iff ha] at g1 g2
    rw [valueAt_of ha]
    refine ⟨g0, ?_⟩
    by_cases hn : a = reserved l.type
    · refine ⟨fun _ => g1 (.inr hn), fun v hv => ?_⟩
      simp [hn] at hv
    · rw [g2 (not_or_intro not_noDataAt_skip hn), if_neg hn]
      refine ⟨by simp, ?_⟩
      rintro v ⟨⟩
      rfl
  · intro i hi
    rw [valueAt_none h hi]
    exact ⟨fun _ => rfl, by simp⟩

/-! ### Choice -/

theorem condition_iff {c : Raster} {i : Nat} {v : Flt} (h : c.values[i]? = some v) :
    NoDataAt (conditionPolicy c) (truth c) i ↔ v = reserved c.type := by
  simp only [NoDataAt, conditionPolicy, List.getElem?_map, h, Option.map_some, Option.some.injEq, ← isNoData_iff]
  cases isNoData c.type v <;> simp

theorem eq_zero {v : Flt} : Flt.eq v (.fin 0) = true ↔ v = .fin 0 := by cases v <;> simp [Flt.eq]

theorem take_cell {t : NumTy} (hs : Supported t) {f : Raster} (hw : WellFormed f) {i : Nat} {v : Flt}
    {x x' : Cell Flt} (hf : f.type = t)
    (hv : f.values[i]? = some v) (h : Take (mark t) (detect t) (.array f.values) i x x') :
    OfType t x'.val ∧ cellOf t x'.val = valueAt f i := by
  obtain ⟨h1, h2⟩ := h
  simp only [Arg.NoData, detect_iff hv, Arg.HasAt, hv] at h1 h2
  rw [valueAt_of hv, hf]
  by_cases e : v = reserved t
  · rw [marked_reserved (h1 e), cellOf_reserved, if_pos e]
    exact ⟨reserved_ofType hs, rfl⟩
  · obtain ⟨w, ⟨⟩, hw'⟩ := h2 e
    rw [hw'.1]
    exact ⟨hf ▸ hw.fits v (List.mem_of_getElem? hv), rfl⟩

theorem take_number {t : NumTy} {i : Nat} {w : Flt} (hw : OfType t w) {x x' : Cell Flt}
    (h : Take (mark t) .skip (.scalar w) i x x') : OfType t x'.val ∧ cellOf t x'.val = unlessReserved t w := by
  obtain ⟨v, rfl, hv⟩ := h.2 (not_noDataAt_skip (values := [w]) (i := 0))
  rw [hv.1]
  exact ⟨hw, rfl⟩

theorem if_cell {t : NumTy} (hs : Supported t) {c : Raster} {i : Nat} {v : Flt} {x x' : Cell Flt}
    {inT inF : InPolicy Flt}
    {tv fv : Arg Flt} {T F : Option Flt} (hv : c.values[i]? = some v)
    (h : IfThenElse (mark t) (conditionPolicy c) inT inF (.array (truth c)) tv fv i x x')
    (hT : Take (mark t) inT tv i x x' → OfType t x'.val ∧ cellOf t x'.val = T)
    (hF : Take (mark t) inF fv i x x' → OfType t x'.val ∧ cellOf t x'.val = F) :
    OfType t x'.val ∧ cellOf t x'.val = ((valueAt c i).bind fun v => if v ≠ .fin 0 then T else F) := by
  obtain ⟨h1, h2, h3⟩ := h
  simp only [Arg.NoData, condition_iff hv] at h1 h2 h3
  simp only [Arg.HasAt, truth, List.getElem?_map, hv, Option.map_some,
    Option.some.injEq] at h1 h2 h3
  rw [valueAt_of hv]
  by_cases e : v = reserved c.type
  · rw [marked_reserved (h1 e), cellOf_reserved, if_pos e]
    exact ⟨reserved_ofType hs, rfl⟩
  · rw [if_neg e]
    simp only [Option.bind_some]
    by_cases z : v = .fin 0
    · rw [if_neg (by simpa using z)]
      exact hF (h3 e (by simpa using eq_zero.2 z))
    · rw [if_pos z]
      refine hT (h2 e ?_)
      rw [← eq_zero] at z
      simpa using z

theorem condition_fits {c : Raster} (hc : WellFormed c) :
    (Arg.array (truth c)).Fits (conditionPolicy c) (c.rows * c.cols) := by
  refine ⟨?_, ?_⟩
  · simpa [truth] using hc.size
  · simpa [conditionPolicy, PolicyFor] using hc.size

theorem ifRasters_eq (garbage : Nat → Flt) {c t f : Raster} (h1 : Matching c t) (h2 : Matching c f)
    (hty : f.type = t.type) :
    Gives (ifRasters garbage c t f) t.type c fun i y =>
      y = (valueAt c i).bind fun v => if v ≠ .fin 0 then valueAt t i else valueAt f i := by
  have hts : t.values.length = c.rows * c.cols := by rw [h1.right.size, h1.rows, h1.cols]
  have hfs : f.values.length = c.rows * c.cols := by rw [h2.right.size, h2.rows, h2.cols]
  obtain ⟨out, ho, hE, _⟩ := C15_ifThenElse2d2d2d (conditionPolicy c) (detect t.type) (detect t.type) (mark t.type)
    c.rows c.cols (truth c) t.values f.values (uninitialised garbage c.rows c.cols) (uninitialised_length _ _ _)
    (condition_fits h1.left) ⟨hts, trivial⟩ ⟨hfs, trivial⟩
  unfold ifRasters
  rw [supported_iff.1 h1.leftType, supported_iff.1 h1.rightType, h1.rows, h1.cols, h2.rows, h2.cols, hty]
  simp only [bne_self_eq_false, Bool.and_self, Bool.not_true, Bool.false_eq_true, if_false]
  rw [ho]
  refine finish_spec hE (uninitialised_length _ _ _) ?_ ?_
  · intro i x x' hi hp _
    obtain ⟨v, hv⟩ := has_value h1.left hi
    obtain ⟨a, ha⟩ := has_value h1.right (i := i) (by rw [h1.rows, h1.cols]; exact hi)
    obtain ⟨b, hb⟩ := has_value h2.right (i := i) (by rw [h2.rows, h2.cols]; exact hi)
    exact if_cell h1.rightType hv hp (take_cell h1.rightType h1.right rfl ha)
      (take_cell h1.rightType h2.right hty hb)
  · intro i hi
    simp [valueAt_none h1.left hi]

theorem ifRasterNumber_eq (garbage : Nat → Flt) {c t : Raster} {x : Number} {d w : Flt} (h1 : Matching c t)
    (hd : ifArgument x = some (.real d)) (hw : castTo .f64 t.type d = some w) (ow : OfType t.type w) :
    Gives (ifRasterNumber garbage c t x) t.type c fun i y =>
      y = (valueAt c i).bind fun v => if v ≠ .fin 0 then valueAt t i else unlessReserved t.type w := by
  have hts : t.values.length = c.rows * c.cols := by rw [h1.right.size, h1.rows, h1.cols]
  obtain ⟨out, ho, hE, _⟩ := C15_ifThenElse2d2d0d (conditionPolicy c) (detect t.type) .skip (mark t.type)
    c.rows c.cols (truth c) t.values w (uninitialised garbage c.rows c.cols) (uninitialised_length _ _ _)
    (condition_fits h1.left) ⟨hts, trivial⟩ trivial
  unfold ifRasterNumber
  rw [hd]
  simp only [Number.type, Number.value, hw]
  rw [supported_iff.1 h1.leftType, supported_iff.1 h1.rightType, h1.rows, h1.cols]
  simp only [Bool.and_self, Bool.not_true, Bool.false_eq_true, if_false]
  rw [ho]
  refine finish_spec hE (uninitialised_length _ _ _) ?_ ?_
  · intro i x x' hi hp _
    obtain ⟨v, hv⟩ := has_value h1.left hi
    obtain ⟨a, ha⟩ := has_value h1.right (i := i) (by rw [h1.rows, h1.cols]; exact hi)
    exact if_cell h1.rightType hv hp (take_cell h1.rightType h1.right rfl ha) (take_number ow)
  · intro i hi
    simp [valueAt_none h1.left hi]

theorem ifNumberRaster_eq (garbage : Nat → Flt) {c f : Raster} {x : Number} {d w : Flt} (h1 : Matching c f)
    (hd : ifArgument x = some (.real d)) (hw : castTo .f64 f.type d = some w) (ow : OfType f.type w) :
    Gives (ifNumberRaster garbage c x f) f.type c fun i y =>
      y = (valueAt c i).bind fun v => if v ≠ .fin 0 then unlessReserved f.type w else valueAt f i := by
  have hts : f.values.length = c.rows * c.cols := by rw [h1.right.size, h1.rows, h1.cols]
  obtain ⟨out, ho, hE, _⟩ := C15_ifThenElse2d0d2d (conditionPolicy c) .skip (detect f.type) (mark f.type)
    c.rows c.cols (truth c) w f.values (uninitialised garbage c.rows c.cols) (uninitialised_length _ _ _)
    (condition_fits h1.left) trivial ⟨hts, trivial⟩
  unfold ifNumberRaster
  rw [hd]
  simp only [Number.type, Number.value, hw]
  rw [supported_iff.1 h1.leftType, supported_iff.1 h1.rightType, h1.rows, h1.cols]
  simp only [Bool.and_self, Bool.not_true, Bool.false_eq_true, if_false]
  rw [ho]
  refine finish_spec hE (uninitialised_length _ _ _) ?_ ?_
  · intro i x x' hi hp _
    obtain ⟨v, hv⟩ := has_value h1.left hi
    obtain ⟨a, ha⟩ := has_value h1.right (i := i) (by rw [h1.rows, h1.cols]; exact hi)
    exact if_cell h1.rightType hv hp (take_number ow) (take_cell h1.rightType h1.right rfl ha)
  · intro i hi
    simp [valueAt_none h1.left hi]

/-! ### Construction -/

theorem number_double (n : Int) : FloatRaster.Spec.Operand .double (.fin n) (toDouble n) := by
  have := (FloatRaster.cast_operand .f64 .double (.fin n) (toDouble n)).1 rfl
  exact this

theorem extract_float (f : FltTy) (x : Number) (w : Flt) : extract f.num x = some w ↔ AsFloat f x w := by
  cases x with
  | int n =>
    have hd := number_double n
    have e : extract f.num (.int n) = match toDouble n with
        | .fin q => castTo .f64 f.num (.fin q)
        | _ => none := by cases f <;> rfl
    rw [e]
    simp only [AsFloat]
    cases hq : toDouble n with
    | fin q =>
      rw [hq] at hd
      simp only [FloatRaster.cast_operand]
      constructor
      · exact fun h => ⟨_, hd, ⟨q, rfl⟩, h⟩
      · rintro ⟨d, h1, -, h2⟩
        rw [operand_unique hd h1]
        exact h2
    | _ =>
      rw [hq] at hd
      simp only [reduceCtorEq, false_iff]
      rintro ⟨d, h1, ⟨q, rfl⟩, -⟩
      have := operand_unique hd h1
      simp at this
  | real v =>
    have e : extract f.num (.real v) = castTo .f64 f.num v := by cases f <;> rfl
    rw [e, FloatRaster.cast_operand]
    rfl

theorem extract_iff {t : NumTy} (h : Supported t) (x : Number) (w : Flt) : extract t x = some w ↔ Extracted t x w := by
  rcases num_cases h with ⟨i, rfl⟩ | ⟨f, rfl⟩
  · have e : ∀ n : Int, extract (.int i) (.int n) = if i.min ≤ n ∧ n ≤ i.max then some (.fin n) else none := fun _ => rfl
    constructor
    · intro he
      cases x with
      | int n =>
        rw [e] at he
        simp only [PyOps.min_max_iff] at he
        split at he
        · next hf => exact .inl ⟨i, n, rfl, rfl, hf, (Option.some.inj he).symm⟩
        · simp at he
      | real v =>
        have e' : extract (.int i) (.real v) = none := rfl
        rw [e'] at he
        cases he
    · rintro (⟨i', n, hi, hx, hf, hw⟩ | ⟨f, hf, _⟩)
      · rw [← NumTy.int.inj hi, ← PyOps.min_max_iff] at hf
        rw [hx, e, hw, if_pos hf]
      · exact absurd hf.symm (FloatRaster.num_not_int _ _)
  · rw [extract_float]
    constructor
    · exact fun h => .inr ⟨f, rfl, h⟩
    · rintro (⟨i', n, hi, _⟩ | ⟨f', hf, h⟩)
      · exact absurd hi (FloatRaster.num_not_int _ _)
      · have : f' = f := by cases f <;> cases f' <;> simp [FltTy.num] at hf ⊢
        exact this ▸ h

theorem extracted_ofType {t : NumTy} {x : Number} {w : Flt} (h : Extracted t x w) : OfType t w := by
  rcases h with ⟨i, n, rfl, rfl, hf, rfl⟩ | ⟨f, rfl, h⟩
  · exact ⟨n, rfl, hf⟩
  · cases x with
    | int n =>
      obtain ⟨d, _, _, h⟩ := h
      exact operand_ofType h
    | real v => exact operand_ofType h

/-- One element of `copy`. -/
def copied (t : NumTy) (v : Option Number) (m : Option Bool) : Option Flt :=
  m.bind fun m => if m then some (reserved t) else v.bind (extract t)

theorem copyRow_succ {t : NumTy} {row : List Number} {mask : List Bool} {k n : Nat} :
    copyRow t row mask k (n + 1) =
      (copied t row[k]? mask[k]?).bind fun v => (copyRow t row mask (k + 1) n).map fun vs => v :: vs := by
  simp only [copyRow, copied, noData_eq]
  cases mask[k]? with
  | none => rfl
  | some m =>
    cases m <;> simp only [Option.bind_eq_bind, Option.bind_some, if_true, if_false, Bool.false_eq_true]
    · cases ((row[k]?).bind (extract t)) with
      | none => rfl
      | some v => cases copyRow t row mask (k + 1) n <;> rfl
    · cases copyRow t row mask (k + 1) n <;> rfl

theorem copyRow_spec {t : NumTy} {row : List Number} {mask : List Bool} (n k : Nat) :
    ((∃ j, j < n ∧ copied t row[k + j]? mask[k + j]? = none) → copyRow t row mask k n = none) ∧
    ((∀ j, j < n → copied t row[k + j]? mask[k + j]? ≠ none) →
      ∃ vs, copyRow t row mask k n = some vs ∧ vs.length = n ∧
        ∀ j, j < n → vs[j]? = copied t row[k + j]? mask[k + j]?) := by
  induction n generalizing k with
  | zero => exact ⟨by simp, fun _ => ⟨[], rfl, rfl, by simp⟩⟩
  | succ n ih =>
    obtain ⟨i1, i2⟩ := ih (k + 1)
    rw [copyRow_succ]
    constructor
    · rintro ⟨j, hj, he⟩
      cases j with
      | zero =>
        rw [Nat.add_zero] at he
        rw [he, Option.bind_none]
      | succ j =>
        rw [i1 ⟨j, by omega, by rw [show k + 1 + j = k + (j + 1) by omega]; exact he⟩]
        cases copied t row[k]? mask[k]? <;> rfl
    · intro h
      obtain ⟨vs, e1, e2, e3⟩ := i2 fun j hj => by
        have := h (j + 1) (by omega)
        rwa [show k + (j + 1) = k + 1 + j by omega] at this
      cases hc : copied t row[k]? mask[k]? with
      | none => exact absurd hc (h 0 (by omega))
      | some v =>
        refine ⟨v :: vs, by rw [e1]; rfl, by simp [e2], fun j hj => ?_⟩
        cases j with
        | zero => simp [hc]
        | succ j =>
          rw [List.getElem?_cons_succ, e3 j (by omega), show k + 1 + j = k + (j + 1) by omega]

theorem copyRows_spec {t : NumTy} {values : List (List Number)} {mask : List (List Bool)} {cols : Nat} (n k : Nat)
    (hk : k + n ≤ values.length) (h0 : k + n ≤ mask.length ∨ 0 < cols) :
    ((∃ r c, r < n ∧ c < cols ∧ copied t (element values (k + r) c) (element mask (k + r) c) = none) →
      copyRows t values mask cols k n = none) ∧
    ((∀ r c, r < n → c < cols → copied t (element values (k + r) c) (element mask (k + r) c) ≠ none) →
      ∃ vs, copyRows t values mask cols k n = some vs ∧ vs.length = n * cols ∧
        ∀ r c, r < n → c < cols →
          vs[r * cols + c]? = copied t (element values (k + r) c) (element mask (k + r) c)) := by
  induction n generalizing k with
  | zero => exact ⟨by simp, fun _ => ⟨[], rfl, by simp, by simp⟩⟩
  | succ n ih =>
    obtain ⟨i1, i2⟩ := ih (k + 1) (by omega) (by omega)
    obtain ⟨row, hrow⟩ : ∃ row, values[k]? = some row := ⟨_, List.getElem?_eq_getElem (by omega)⟩
    simp only [copyRows, hrow, Option.bind_eq_bind, Option.bind_some]
    cases hm : mask[k]? with
    | none =>
      simp only [Option.bind_none]
      refine ⟨fun _ => trivial, fun h => ?_⟩
      have : 0 < cols := by
        rcases h0 with h0 | h0
        · rw [List.getElem?_eq_none_iff] at hm
          omega
        · exact h0
      exact absurd (by simp [copied, element, hm]) (h 0 0 (by omega) this)
    | some m =>
      obtain ⟨r1, r2⟩ := copyRow_spec (t := t) (row := row) (mask := m) cols 0
      simp only [Nat.zero_add] at r1 r2
      simp only [Option.bind_some]
      constructor
      · rintro ⟨r, c, hr, hc, he⟩
        cases r with
        | zero =>
          rw [r1 ⟨c, hc, by simpa [element, hrow, hm] using he⟩, Option.bind_none]
        | succ r =>
          rw [i1 ⟨r, c, by omega, hc, by rw [show k + 1 + r = k + (r + 1) by omega]; exact he⟩]
          cases copyRow t row m 0 cols <;> rfl
      · intro h
        obtain ⟨us, f1, f2, f3⟩ := r2 fun c hc => by simpa [element, hrow, hm] using h 0 c (by omega) hc
        obtain ⟨vs, e1, e2, e3⟩ := i2 fun r c hr hc => by
          have := h (r + 1) c (by omega) hc
          rwa [show k + (r + 1) = k + 1 + r by omega] at this
        refine ⟨us ++ vs, by rw [f1, e1]; rfl, by rw [List.length_append, f2, e2, Nat.succ_mul]; omega, ?_⟩
        intro r c hr hc
        cases r with
        | zero =>
          rw [Nat.zero_mul, Nat.zero_add, List.getElem?_append_left (by omega), f3 c hc]
          simp [element, hrow, hm]
        | succ r =>
          rw [List.getElem?_append_right (by rw [f2, Nat.succ_mul]; omega), f2,
            show (r + 1) * cols + c - cols = r * cols + c by rw [Nat.succ_mul]; omega, e3 r c (by omega) hc,
            show k + 1 + r = k + (r + 1) by omega]


theorem complete_iff {t : NumTy} (hs : Supported t) {v : Option Number} {m : Option Bool} :
    copied t v m ≠ none ↔ m = some true ∨ (m = some false ∧ ∃ x w, v = some x ∧ Extracted t x w) := by
  cases m with
  | none => simp [copied]
  | some m =>
    cases m with
    | true => simp [copied]
    | false =>
      cases v with
      | none => simp [copied]
      | some x =>
        simp only [copied, Option.bind_some, Bool.false_eq_true, if_false, ne_eq, Option.some.injEq, false_or,
          exists_and_left, exists_eq_left', true_and, Bool.false_eq_true]
        rw [← ne_eq, ← Option.isSome_iff_ne_none, Option.isSome_iff_exists]
        simp only [extract_iff hs]

/-! ### Integers -/

theorem toInt_int (i : Int) : toInt (.fin i) = i := by simp [toInt]

theorem ints_embed (l : PyOps.Raster) : ints l.type (embed l) = l := by
  have e : ∀ v : List Int, (v.map fun i : Int => Flt.fin i).map toInt = v := by
    intro v
    induction v with
    | nil => rfl
    | cons a v ih => rw [List.map_cons, List.map_cons, ih, toInt_int]
  cases l
  simp only [ints, embed, e]

/-! ### Uniqueness -/

/-- Rasters of the same size and type with the same cells are the same. -/
theorem values_ext {p q : Raster} (hp : WellFormed p) (hq : WellFormed q) (ht : p.type = q.type) (h1 : p.rows = q.rows)
    (h2 : p.cols = q.cols) (h : ∀ i, valueAt p i = valueAt q i) : p.values = q.values := by
  apply List.ext_getElem?
  intro i
  by_cases hi : i < p.rows * p.cols
  · obtain ⟨a, ha⟩ := has_value hp hi
    obtain ⟨b, hb⟩ := has_value hq (i := i) (by rw [← h1, ← h2]; exact hi)
    have := h i
    rw [valueAt_of ha, valueAt_of hb, ht] at this
    rw [ha, hb]
    by_cases e1 : a = reserved q.type <;> by_cases e2 : b = reserved q.type <;> simp_all
  · rw [List.getElem?_eq_none (by rw [hp.size]; omega), List.getElem?_eq_none]
    rw [hq.size, ← h1, ← h2]
    omega

theorem gives_unique {o o' : Out Raster} {t : NumTy} {l : Raster} {cell : Nat → Option Flt → Prop} (h : Gives o t l cell)
    (h' : Gives o' t l cell) (hc : ∀ i x y, cell i x → cell i y → x = y) : o = o' := by
  obtain ⟨⟨t1, r1, c1, o1, s1, v1⟩, rfl, e1, ⟨a1, a2, a3, a4⟩, w1, x1⟩ := h
  obtain ⟨⟨t2, r2, c2, o2, s2, v2⟩, rfl, e2, ⟨b1, b2, b3, b4⟩, w2, x2⟩ := h'
  simp only at e1 e2 a1 a2 a3 a4 b1 b2 b3 b4
  subst e1 e2 a1 a2 a3 a4
  subst b1 b2 b3 b4
  have := values_ext w1 w2 rfl rfl rfl fun i => hc i _ _ (x1 i) (x2 i)
  simp only at this
  rw [this]

theorem arithCell_unique {o : Arith} {t1 t2 : NumTy} {t : FltTy} {v w : Flt} {x y : Option Flt}
    (h : ArithCell o t1 t2 t v w x) (h' : ArithCell o t1 t2 t v w y) : x = y := by
  obtain ⟨a, b, z, ha, hb, hz, k1, k2⟩ := h
  obtain ⟨a', b', z', ha', hb', hz', k1', k2'⟩ := h'
  obtain rfl := operand_unique ha ha'
  obtain rfl := operand_unique hb hb'
  obtain rfl := result_unique hz hz'
  by_cases hA : IsNumber z ∨ (o = .add ∧ Mixed t1 t2)
  · rw [k1 hA, k1' hA]
  · rw [k2 hA, k2' hA]

theorem both_unique {a b : Option Flt} {P : Flt → Flt → Option Flt → Prop}
    (hP : ∀ v w x y, P v w x → P v w y → x = y) {x y : Option Flt} (h : Both a b P x) (h' : Both a b P y) : x = y := by
  cases a with
  | none => rw [h.1 (.inl rfl), h'.1 (.inl rfl)]
  | some v =>
    cases b with
    | none => rw [h.1 (.inr rfl), h'.1 (.inr rfl)]
    | some w => exact hP v w x y (h.2 v w rfl rfl) (h'.2 v w rfl rfl)

theorem one_unique {a : Option Flt} {P : Flt → Option Flt → Prop}
    (hP : ∀ v x y, P v x → P v y → x = y) {x y : Option Flt} (h : One a P x) (h' : One a P y) : x = y := by
  cases a with
  | none => rw [h.1 rfl, h'.1 rfl]
  | some v => exact hP v x y (h.2 v rfl) (h'.2 v rfl)

theorem gives_mono {o : Out Raster} {t : NumTy} {l : Raster} {P Q : Nat → Option Flt → Prop} (h : Gives o t l P)
    (hPQ : ∀ i x, P i x → Q i x) : Gives o t l Q := by
  obtain ⟨q, h1, h2, h3, h4, h5⟩ := h
  exact ⟨q, h1, h2, h3, h4, fun i => hPQ i _ (h5 i)⟩

theorem result_comm {t : FltTy} {o : Arith} {a b z : Flt} (h : Result t (arithOp o) a b z) :
    Result t (arithOp o) b a z := by
  cases o
  · have e : plus t a b = plus t b a := by cases a <;> cases b <;> simp [plus, add_comm]
    rw [result_unique (o := .add) h (FloatRaster.result_plus t a b), e]
    exact FloatRaster.result_plus t b a
  · have e : times t a b = times t b a := by cases a <;> cases b <;> simp [times, mul_comm]
    rw [result_unique (o := .multiply) h (FloatRaster.result_times t a b), e]
    exact FloatRaster.result_times t b a

theorem arithCell_comm {o : Arith} {t1 t2 : NumTy} {t : FltTy} {v w : Flt} {x : Option Flt}
    (h : ArithCell o t1 t2 t v w x) : ArithCell o t2 t1 t w v x := by
  obtain ⟨a, b, z, ha, hb, hz, k1, k2⟩ := h
  have e : Mixed t2 t1 ↔ Mixed t1 t2 := Or.comm
  refine ⟨b, a, z, hb, ha, result_comm hz, ?_, ?_⟩
  · rw [e]; exact k1
  · rw [e]; exact k2

theorem zero_ofType {t : NumTy} (h : Supported t) : OfType t (.fin 0) := by
  rcases num_cases h with ⟨i, rfl⟩ | ⟨f, rfl⟩
  · exact ⟨0, by simp, by cases i <;> simp [Fits, IntTy.bits, IntTy.signed]⟩
  · have : Rounded f 0 (.fin 0) := by
      have := round_rounded f 0
      rwa [show f.round 0 = .fin 0 by cases f <;> decide +kernel] at this
    exact rounded_ofType this

theorem one_ofType (t : FltTy) : OfType t.num (.fin 1) := by
  have : Rounded t 1 (.fin 1) := by
    have := round_rounded t 1
    rwa [show t.round 1 = .fin 1 by cases t <;> decide +kernel] at this
  exact rounded_ofType this

theorem zero_not_reserved {t : NumTy} (h : Supported t) : (.fin 0 : Flt) ≠ reserved t := by
  cases t with
  | int t => cases t <;> simp [reserved, PyOps.Spec.reserved]
  | f32 => exact fun e => absurd (Flt.fin.inj e) (zpow_ne_zero _ two_ne_zero).symm
  | f64 => exact fun e => absurd (Flt.fin.inj e) (zpow_ne_zero _ two_ne_zero).symm
  | bool => exact absurd h id

theorem resultType_comm (t1 t2 : NumTy) : resultType t1 t2 = resultType t2 t1 := by
  cases t1 with
  | int a =>
    cases t2 with
    | int b => cases a <;> cases b <;> rfl
    | _ => cases a <;> rfl
  | _ =>
    cases t2 with
    | int b => cases b <;> rfl
    | _ => rfl

theorem compareCell_of {c : Comparison} {t1 t2 : NumTy} {t : FltTy} (ht : resultType t1 t2 = some t) {v w : Flt}
    {y : Option Flt} (h : y = some (if Comparison.elem c t1 t2 v w then .fin 1 else .fin 0)) :
    CompareCell c t v w y := by
  obtain ⟨a, ha⟩ := operand_exists t v
  obtain ⟨b, hb⟩ := operand_exists t w
  have := elem_float (c := c) ht ha hb
  refine ⟨a, b, ha, hb, fun hh => ?_, fun hh => ?_⟩
  · rw [h, if_pos (this.2 hh)]
  · rw [h, if_neg fun e => hh (this.1 e)]

theorem compareCell_unique {c : Comparison} {t : FltTy} {v w : Flt} {x y : Option Flt} (h : CompareCell c t v w x)
    (h' : CompareCell c t v w y) : x = y := by
  obtain ⟨a, b, ha, hb, k1, k2⟩ := h
  obtain ⟨a', b', ha', hb', k1', k2'⟩ := h'
  obtain rfl := operand_unique ha ha'
  obtain rfl := operand_unique hb hb'
  by_cases hA : Holds c a b
  · rw [k1 hA, k1' hA]
  · rw [k2 hA, k2' hA]

theorem ifArgument_of {x : Number} {d : Flt} (hx : Passable x) (hd : AsFloat .double x d) :
    ifArgument x = some (.real d) := by
  cases x with
  | int n =>
    obtain ⟨d', h1, ⟨q, rfl⟩, h2⟩ := hd
    have e := operand_unique (number_double n) h1
    have := operand_unique h2 (operand_self (operand_ofType h1))
    simp only [ifArgument, e, this]
  | real v =>
    have := operand_unique hd (operand_self (t := .double) hx)
    simp only [ifArgument, this]

theorem ifArgument_some {x : Number} (hx : Passable x) : ∃ d, ifArgument x = some (.real d) := by
  cases x with
  | int n =>
    have hr : Rounded .double (n : Rat) (toDouble n) := round_rounded .double n
    have hl : ¬ TooLarge .double (n : Rat) := by
      have h1 : |(n : Rat)| ≤ 2 ^ 63 := by
        have hx : Fits .i64 n := hx
        rw [← PyOps.min_max_iff] at hx
        have : |n| ≤ 2 ^ 63 := abs_le.2 ⟨le_trans (by decide) hx.1, le_trans hx.2 (by decide)⟩
        exact_mod_cast this
      have h2 : (2 : Rat) ^ 63 < Spec.limit .double := by decide +kernel
      exact fun h => absurd (le_trans h h1) (not_le.2 h2)
    obtain ⟨q, hq, -⟩ := hr.2 hl
    exact ⟨.fin q, by simp only [ifArgument, hq]⟩
  | real v => exact ⟨v, rfl⟩

theorem converts_iff {t : NumTy} (h : Supported t) {d w : Flt} : castTo .f64 t d = some w ↔ ConvertsTo t d w := by
  rcases num_cases h with ⟨i, rfl⟩ | ⟨f, rfl⟩
  · exact FloatRaster.cast_integer .double i d w
  · rw [FloatRaster.cast_operand]
    constructor
    · exact fun h => .inr ⟨f, rfl, h⟩
    · rintro (⟨t', q, n, ht, _⟩ | ⟨f', hf, h⟩)
      · exact absurd ht (FloatRaster.num_not_int _ _)
      · have : f' = f := by cases f <;> cases f' <;> simp [FltTy.num] at hf ⊢
        exact this ▸ h

theorem converts_of {t : NumTy} (hs : Supported t) {d w : Flt} (h : ConvertsTo t d w) :
    castTo .f64 t d = some w ∧ OfType t w := by
  refine ⟨(converts_iff hs).2 h, ?_⟩
  rcases h with ⟨i, q, n, rfl, _, _, hf, rfl⟩ | ⟨f, rfl, h⟩
  · exact ⟨n, rfl, hf⟩
  · exact operand_ofType h

/-! ### Comparison and choice, for integers -/

theorem embed_wellFormed {l : PyOps.Raster} (h : PyOps.Spec.WellFormed l) : WellFormed (embed l) := by
  refine ⟨by simpa [embed] using h.size, fun v hv => ?_⟩
  obtain ⟨n, hn, rfl⟩ := List.mem_map.1 hv
  exact ⟨n, rfl, h.fits n hn⟩

theorem embed_valueAt (l : PyOps.Raster) (i : Nat) :
    valueAt (embed l) i = (PyOps.Spec.valueAt l i).map fun n : Int => .fin n := by
  have e : (embed l).values[i]? = (l.values[i]?).map fun n : Int => .fin n := by
    simp only [embed, List.getElem?_map]
  have r : reserved (embed l).type = .fin (PyOps.Spec.reserved l.type) := rfl
  unfold valueAt PyOps.Spec.valueAt
  rw [e]
  cases l.values[i]? with
  | none => rfl
  | some n =>
    simp only [Option.map_some, Option.bind_some, r, Flt.fin.injEq, Int.cast_inj]
    split <;> rfl

theorem embed_matching {l r : PyOps.Raster} (h : PyOps.Spec.Matching l r) : Matching (embed l) (embed r) :=
  ⟨embed_wellFormed h.left, embed_wellFormed h.right, h.rows, h.cols, h.leftType, h.rightType⟩

theorem embed_gives {o : Out PyOps.Raster} {t : IntTy} {l : PyOps.Raster} {cell : Nat → Option Int}
    (h : PyOps.Spec.Gives o t l cell) :
    Gives (embedOut o) (.int t) (embed l) fun i x => x = (cell i).map fun n : Int => .fin n := by
  obtain ⟨q, rfl, rfl, p, w, c⟩ := h
  exact ⟨embed q, rfl, rfl, ⟨p.rows, p.cols, p.origin, p.cellSizes⟩, embed_wellFormed w,
    fun i => by rw [embed_valueAt, c i]⟩

theorem elem_int (c : Comparison) (t1 t2 : IntTy) (a b : Int) :
    Comparison.elem c (.int t1) (.int t2) (.fin a) (.fin b) = PyOps.Comparison.elem c t1 t2 a b := by
  simp only [Comparison.elem, toInt_int]

theorem one_or_zero (b : Bool) : (.fin ((if b then 1 else 0 : Int) : Rat) : Flt) = if b then .fin 1 else .fin 0 := by
  cases b <;> simp

end Fern.PyFloat
