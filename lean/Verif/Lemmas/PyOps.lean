import Verif.Spec.PyOps
import Verif.Props.Arith
import Verif.Props.InPlace
import Verif.Props.If

/-!
# Lemmas on raster operations of the Python extension
-/

namespace Fern.PyOps

open Fern Fern.Spec Spec IntTy

theorem noData_eq (t : IntTy) : noData t = reserved t := by cases t <;> rfl

theorem isNoData_iff {t : IntTy} {v : Int} : isNoData t v = true ↔ v = reserved t := by
  rw [isNoData, beq_iff_eq, noData_eq]

theorem valueAt_some {r : Raster} {i : Nat} {a : Int} :
    valueAt r i = some a ↔ r.values[i]? = some a ∧ a ≠ reserved r.type := by
  unfold valueAt
  cases h : r.values[i]? with
  | none => simp
  | some v =>
    by_cases hv : v = reserved r.type
    · simp only [Option.bind_some, if_pos hv, Option.some.injEq, reduceCtorEq, false_iff]
      rintro ⟨rfl, h'⟩
      exact h' hv
    · simp only [Option.bind_some, if_neg hv, Option.some.injEq]
      constructor
      · rintro rfl
        exact ⟨rfl, hv⟩
      · exact fun h => h.1

theorem valueAt_of {r : Raster} {i : Nat} {v : Int} (h : r.values[i]? = some v) :
    valueAt r i = if v = reserved r.type then none else some v := by
  rw [valueAt, h, Option.bind_some]

theorem valueAt_fits {r : Raster} (hr : WellFormed r) {i : Nat} {a : Int} (h : valueAt r i = some a) :
    Fits r.type a :=
  hr.fits _ (List.mem_of_getElem? (valueAt_some.1 h).1)

theorem valueAt_lt {r : Raster} (hr : WellFormed r) {i : Nat} {a : Int} (h : valueAt r i = some a) :
    i < r.rows * r.cols := by
  rw [← hr.size]
  exact (List.getElem?_eq_some_iff.1 (valueAt_some.1 h).1).1

theorem valueAt_none {r : Raster} (hr : WellFormed r) {i : Nat} (h : ¬ i < r.rows * r.cols) : valueAt r i = none := by
  cases hv : valueAt r i with
  | none => rfl
  | some a => exact absurd (valueAt_lt hr hv) h

theorem uninitialised_length (garbage : Nat → Int) (rows cols : Nat) :
    (uninitialised garbage rows cols).length = rows * cols := by simp [uninitialised]

theorem reserved_fits (t : IntTy) : Fits t (reserved t) := by cases t <;> decide

theorem supported_iff {t : IntTy} : Supported t ↔ switched t = true := by
  cases t <;> simp [Supported, switched]

theorem unsupported_iff {t : IntTy} : ¬ Supported t ↔ switched t = false := by
  cases t <;> simp [Supported, switched]

/-- Rasters of the same size and type with the same cells are the same. -/
theorem values_ext {p q : Raster} (hp : WellFormed p) (hq : WellFormed q) (ht : p.type = q.type) (h1 : p.rows = q.rows)
    (h2 : p.cols = q.cols) (h : ∀ i, valueAt p i = valueAt q i) : p.values = q.values := by
  apply List.ext_getElem?
  intro i
  by_cases hi : i < p.rows * p.cols
  · have e1 : p.values[i]? = some (p.values[i]'(by rw [hp.size]; exact hi)) := List.getElem?_eq_getElem _
    have e2 : q.values[i]? = some (q.values[i]'(by rw [hq.size, ← h1, ← h2]; exact hi)) := List.getElem?_eq_getElem _
    have := h i
    rw [valueAt_of e1, valueAt_of e2, ht] at this
    rw [e1, e2]
    split at this <;> split at this <;> simp_all
  · rw [List.getElem?_eq_none, List.getElem?_eq_none]
    · rw [hq.size, ← h1, ← h2]
      omega
    · rw [hp.size]
      omega

/-- A cell after an operation without domain errors that marks masked cells by the reserved value. -/
theorem localCell_val {A : Type} {op : LocalOp A Int} {t : IntTy} {nd : Prop} {a : A} {c c' : Cell Int}
    (h : LocalCell op (mark t) nd a c c') (hd : op.withinDomain a = true) :
    (nd → c'.val = reserved t) ∧
    (¬ nd → op.withinRange a (op.compute a) = true → c'.val = op.compute a) ∧
    (¬ nd → op.withinRange a (op.compute a) = false → c'.val = reserved t) := by
  refine ⟨fun hn => ?_, fun hn hr => ?_, fun hn hr => ?_⟩
  · rw [← noData_eq]
    exact (h.noData hn).1
  · rw [h.ok hn hd hr]
  · rw [← noData_eq]
    exact (h.outOfRange hn hd hr).1

/-- A cell gets the value that it should get. -/
def CellIs (t : IntTy) (f : Option Int) (v : Int) : Prop :=
  (f = none → v = reserved t) ∧ ∀ x, f = some x → v = x ∧ x ≠ reserved t

theorem cellIs_none {t : IntTy} : CellIs t none (reserved t) := ⟨fun _ => rfl, by simp⟩

theorem cellIs_unless {t : IntTy} {x : Int} : CellIs t (unlessReserved t x) x := by
  unfold unlessReserved
  split
  · next h => exact ⟨fun _ => h, by simp⟩
  · next h => exact ⟨by simp, by simpa using h⟩

theorem ite_unless {p : Prop} [Decidable p] {t : IntTy} {x y : Int}
    (h : (if p then unlessReserved t x else none) = some y) : p ∧ y = x := by
  unfold unlessReserved at h
  split at h
  · next hp =>
    split at h
    · simp at h
    · exact ⟨hp, (Option.some.inj h).symm⟩
  · simp at h

/-- What `finish` makes of cells. -/
theorem finish_spec {P : Nat → Cell Int → Cell Int → Prop} {res out : List (Cell Int)} {l : Raster} {t : IntTy}
    {undef : Bool} {U : Prop} {f : Nat → Option Int} (hE : Elementwise P res out) (hn : res.length = l.rows * l.cols)
    (hu : undef = true ↔ U)
    (h : ¬ U → ∀ i c c', i < l.rows * l.cols → P i c c' → res[i]? = some c → CellIs t (f i) c'.val)
    (ho : ∀ i, ¬ i < l.rows * l.cols → f i = none) (hf : ¬ U → ∀ i x, f i = some x → Fits t x) :
    (U → finish (some out) undef t l.rows l.cols l.origin l.cellSizes = .undefined) ∧
    (¬ U → Gives (finish (some out) undef t l.rows l.cols l.origin l.cellSizes) t l f) := by
  constructor
  · intro hU
    rw [finish, if_pos (hu.2 hU)]
  · intro hU
    have hlen : out.length = l.rows * l.cols := by rw [hE.1, hn]
    have hc : ∀ i, (hi : i < l.rows * l.cols) → CellIs t (f i) (out[i]'(by omega)).val := by
      intro i hi
      have e : res[i]? = some (res[i]'(by omega)) := List.getElem?_eq_getElem (by omega)
      obtain ⟨c', hc', hp⟩ := hE.2 i (res[i]'(by omega)) e
      rw [(List.getElem?_eq_some_iff.1 hc').2]
      exact h hU i _ c' hi hp e
    refine ⟨⟨t, l.rows, l.cols, l.origin, l.cellSizes, out.map Cell.val⟩, ?_, rfl, ⟨rfl, rfl, rfl, rfl⟩, ⟨?_, ?_⟩, ?_⟩
    · rw [finish, if_neg fun h => hU (hu.1 h)]
    · simpa using hlen
    · intro v hv
      obtain ⟨i, hi, rfl⟩ := List.mem_iff_getElem.1 hv
      simp only [List.length_map] at hi
      simp only [List.getElem_map]
      obtain ⟨h1, h2⟩ := hc i (by omega)
      cases hx : f i with
      | none => rw [h1 hx]; exact reserved_fits t
      | some x => rw [(h2 x hx).1]; exact hf hU i x hx
    · intro i
      by_cases hi : i < l.rows * l.cols
      · have hv : (out.map Cell.val)[i]? = some (out[i]'(by omega)).val := by
          rw [List.getElem?_map, List.getElem?_eq_getElem (by omega), Option.map_some]
        rw [valueAt_of (r := ⟨t, l.rows, l.cols, l.origin, l.cellSizes, out.map Cell.val⟩) hv]
        obtain ⟨h1, h2⟩ := hc i hi
        cases hx : f i with
        | none => rw [if_pos (h1 hx)]
        | some x => rw [(h2 x hx).1, if_neg (h2 x hx).2]
      · rw [ho i hi, valueAt, List.getElem?_eq_none, Option.bind_none]
        simp only [List.length_map]
        omega

theorem arith_domain (o : Arith) (t1 t2 r : IntTy) (a : Int × Int) : (o.op t1 t2 r).withinDomain a = true := by
  cases o <;> rfl

/-- The operation does with a pair what `elem` says. -/
theorem arith_elem {o : Arith} {t1 t2 r : IntTy} (hr : resultInt t1 t2 = some r) {a b : Int} {out : Outcome}
    (h : o.elem t1 t2 a b = some out) :
    (o.op t1 t2 r).compute (a, b) = out.result ∧
      (o.op t1 t2 r).withinRange (a, b) out.result = out.withinRange ∧ Fits r out.result := by
  cases o with
  | add =>
    simp only [Arith.elem, addElem, hr, Option.bind_eq_bind, Option.bind_some] at h
    cases hac : addCompute r a b with
    | none => simp [hac] at h
    | some x =>
      simp only [hac, Option.bind_some, Option.some.injEq] at h
      subst h
      refine ⟨by simp [Arith.op, addOp, hac], by simp [Arith.op, addOp], ?_⟩
      obtain ⟨y, _, rfl⟩ := Option.map_eq_some_iff.1 hac
      exact fits_wrap _ _
  | multiply =>
    simp only [Arith.elem, mulElem, hr, Option.bind_eq_bind, Option.bind_some] at h
    cases hac : mulCompute r a b with
    | none => simp [hac] at h
    | some x =>
      simp only [hac, Option.bind_some] at h
      cases hm : mulRange t1 t2 r a b with
      | none => simp [hm] at h
      | some y =>
        simp only [hm, Option.bind_some, Option.some.injEq] at h
        subst h
        refine ⟨by simp [Arith.op, mulOp, hac], by simp [Arith.op, mulOp, hm], ?_⟩
        obtain ⟨y, _, rfl⟩ := Option.map_eq_some_iff.1 hac
        exact fits_wrap _ _

/-- What becomes of a pair of values. -/
def outcome (t : IntTy) (o : Option Outcome) : Option Int :=
  o.bind fun x => if x.withinRange = true then unlessReserved t x.result else none

theorem outcome_fits {o : Arith} {t1 t2 t : IntTy} (ht : resultInt t1 t2 = some t) {a b x : Int}
    (h : outcome t (o.elem t1 t2 a b) = some x) : Fits t x := by
  cases he : o.elem t1 t2 a b with
  | none => rw [he] at h; simp [outcome] at h
  | some y =>
    rw [he] at h
    simp only [outcome, Option.bind_some, unlessReserved] at h
    split at h <;> simp at h
    rw [← h.2]
    exact (arith_elem ht he).2.2

theorem arith_cell {o : Arith} {t1 t2 t : IntTy} (ht : resultInt t1 t2 = some t) {nd : Prop} {a b : Int}
    {c c' : Cell Int} (h : LocalCell (o.op t1 t2 t) (mark t) nd (a, b) c c') :
    (nd → CellIs t none c'.val) ∧
    (¬ nd → o.elem t1 t2 a b ≠ none → CellIs t (outcome t (o.elem t1 t2 a b)) c'.val) := by
  obtain ⟨g1, g2, g3⟩ := localCell_val h (arith_domain ..)
  refine ⟨fun hn => ?_, fun hn he => ?_⟩
  · rw [g1 hn]
    exact cellIs_none
  · cases hx : o.elem t1 t2 a b with
    | none => exact absurd hx he
    | some x =>
      obtain ⟨k1, k2, _⟩ := arith_elem ht hx
      rw [k1, k2] at g2 g3
      simp only [outcome, Option.bind_some]
      cases hw : x.withinRange
      · rw [g3 hn hw]
        simp [cellIs_none]
      · rw [g2 hn hw]
        simp [cellIs_unless]

theorem detect_iff {t : IntTy} {values : List Int} {i : Nat} {a : Int} (h : values[i]? = some a) :
    NoDataAt (detect t) values i ↔ a = reserved t := by
  simp [NoDataAt, detect, h, isNoData_iff]

theorem not_noDataAt_skip {values : List Int} {i : Nat} : ¬ NoDataAt (.skip : InPolicy Int) values i := by
  simp [NoDataAt]

theorem has_value {r : Raster} (hr : WellFormed r) {i : Nat} (hi : i < r.rows * r.cols) : ∃ a, r.values[i]? = some a :=
  ⟨_, List.getElem?_eq_getElem (by rw [hr.size]; exact hi)⟩

/-- Some pair of values is not masked and has a property. -/
theorem any_pair {l r : Raster} {p : Int → Int → Bool} {P : Int → Int → Prop} (hp : ∀ a b, p a b = true ↔ P a b) :
    ((l.values.zip r.values).any fun x => !isNoData l.type x.1 && !isNoData r.type x.2 && p x.1 x.2) = true ↔
      SomePair (valueAt l) (valueAt r) P := by
  rw [List.any_eq_true]
  constructor
  · rintro ⟨⟨a, b⟩, hm, hx⟩
    obtain ⟨i, hi⟩ := List.mem_iff_getElem?.1 hm
    rw [List.getElem?_zip_eq_some] at hi
    simp only [Bool.and_eq_true, Bool.not_eq_true', ← Bool.not_eq_true, isNoData_iff] at hx
    exact ⟨i, a, b, valueAt_some.2 ⟨hi.1, hx.1.1⟩, valueAt_some.2 ⟨hi.2, hx.1.2⟩, (hp a b).1 hx.2⟩
  · rintro ⟨i, a, b, ha, hb, h⟩
    rw [valueAt_some] at ha hb
    refine ⟨(a, b), List.mem_of_getElem? (i := i) ?_, ?_⟩
    · rw [List.getElem?_zip_eq_some]
      exact ⟨ha.1, hb.1⟩
    · simp only [Bool.and_eq_true, Bool.not_eq_true', ← Bool.not_eq_true, isNoData_iff]
      exact ⟨⟨ha.2, hb.2⟩, (hp a b).2 h⟩

theorem any_value {l : Raster} {p : Int → Bool} {P : Int → Prop} (hp : ∀ a, p a = true ↔ P a) :
    (l.values.any fun x => !isNoData l.type x && p x) = true ↔ ∃ i a, valueAt l i = some a ∧ P a := by
  rw [List.any_eq_true]
  constructor
  · rintro ⟨a, hm, hx⟩
    obtain ⟨i, hi⟩ := List.mem_iff_getElem?.1 hm
    simp only [Bool.and_eq_true, Bool.not_eq_true', ← Bool.not_eq_true, isNoData_iff] at hx
    exact ⟨i, a, valueAt_some.2 ⟨hi, hx.1⟩, (hp a).1 hx.2⟩
  · rintro ⟨i, a, ha, h⟩
    rw [valueAt_some] at ha
    refine ⟨a, List.mem_of_getElem? ha.1, ?_⟩
    simp only [Bool.and_eq_true, Bool.not_eq_true', ← Bool.not_eq_true, isNoData_iff]
    exact ⟨ha.2, (hp a).2 h⟩

/-- `both` in terms of values. -/
theorem both_cell {l r : Raster} {i : Nat} {a b : Int} (ha : l.values[i]? = some a) (hb : r.values[i]? = some b)
    (f : Int → Int → Option Int) :
    both (valueAt l i) (valueAt r i) f =
      if a = reserved l.type ∨ b = reserved r.type then none else f a b := by
  rw [valueAt_of ha, valueAt_of hb]
  by_cases ea : a = reserved l.type <;> by_cases eb : b = reserved r.type <;> simp [both, ea, eb]

theorem both_some {a b : Option Int} {f : Int → Int → Option Int} {x : Int} (h : both a b f = some x) :
    ∃ y z, a = some y ∧ b = some z ∧ f y z = some x := by
  cases a <;> cases b <;> simp [both] at h
  exact ⟨_, _, rfl, rfl, h⟩

theorem rasterRaster_eq (o : Arith) (garbage : Nat → Int) {l r : Raster} {t : IntTy} (hl : WellFormed l)
    (hr : WellFormed r) (h1 : r.rows = l.rows) (h2 : r.cols = l.cols) (s1 : Supported l.type)
    (s2 : Supported r.type) (ht : resultInt l.type r.type = some t) :
    (SomePair (valueAt l) (valueAt r) (fun a b => o.elem l.type r.type a b = none) →
      rasterRaster o garbage l r = .undefined) ∧
    (¬ SomePair (valueAt l) (valueAt r) (fun a b => o.elem l.type r.type a b = none) →
      Gives (rasterRaster o garbage l r) t l fun i =>
        both (valueAt l i) (valueAt r i) fun a b => outcome t (o.elem l.type r.type a b)) := by
  have hrs : r.values.length = l.rows * l.cols := by rw [hr.size, h1, h2]
  obtain ⟨out, ho, hE⟩ := C10_binary_2d2d (o.op l.type r.type t) (detect l.type) (detect r.type) (mark t) l.rows l.cols
    l.values r.values (uninitialised garbage l.rows l.cols) hl.size hrs (uninitialised_length _ _ _) trivial trivial
  unfold rasterRaster
  rw [supported_iff.1 s1, supported_iff.1 s2, ht, h1, h2]
  simp only [Bool.and_self, Bool.not_true, Bool.false_eq_true, if_false]
  rw [ho]
  refine finish_spec hE (uninitialised_length _ _ _) (any_pair (p := fun a b => (o.elem l.type r.type a b).isNone) fun a b => ?_) ?_ ?_ ?_
  · rw [Option.isNone_iff_eq_none]
  · intro hU i c c' hi hp _
    obtain ⟨a, ha⟩ := has_value hl hi
    obtain ⟨b, hb⟩ := has_value hr (i := i) (by rw [h1, h2]; exact hi)
    obtain ⟨g1, g2⟩ := arith_cell ht (hp a b ha hb)
    rw [detect_iff ha, detect_iff hb] at g1 g2
    rw [both_cell ha hb]
    split
    · next h => exact g1 h
    · next h =>
      refine g2 h fun he => hU ⟨i, a, b, valueAt_some.2 ⟨ha, ?_⟩, valueAt_some.2 ⟨hb, ?_⟩, he⟩
      · exact fun e => h (.inl e)
      · exact fun e => h (.inr e)
  · intro i hi
    simp [valueAt_none hl hi, both]
  · intro _ i x hx
    obtain ⟨y, z, _, _, h⟩ := both_some hx
    exact outcome_fits ht h

theorem resultInt_self (t : IntTy) : resultInt t t = some t := by cases t <;> rfl

theorem rasterNumber_eq (o : Arith) (garbage : Nat → Int) {l : Raster} (n : Int) (hl : WellFormed l)
    (s1 : Supported l.type) :
    ((∃ i a, valueAt l i = some a ∧ o.elem l.type l.type a (l.type.wrap n) = none) →
      rasterNumber o garbage l n = .undefined) ∧
    ((¬ ∃ i a, valueAt l i = some a ∧ o.elem l.type l.type a (l.type.wrap n) = none) →
      Gives (rasterNumber o garbage l n) l.type l fun i =>
        (valueAt l i).bind fun a => outcome l.type (o.elem l.type l.type a (l.type.wrap n))) := by
  obtain ⟨out, ho, hE⟩ := C10_binary_2d0d (o.op l.type l.type l.type) (detect l.type) .skip (mark l.type) l.rows l.cols
    l.values (l.type.wrap n) (uninitialised garbage l.rows l.cols) hl.size (uninitialised_length _ _ _) trivial trivial
  unfold rasterNumber
  rw [supported_iff.1 s1, resultInt_self]
  simp only [Bool.not_true, Bool.false_eq_true, if_false]
  rw [ho]
  refine finish_spec hE (uninitialised_length _ _ _) (any_value fun a => ?_) ?_ ?_ ?_
  · rw [Option.isNone_iff_eq_none]
  · intro hU i c c' hi hp _
    obtain ⟨a, ha⟩ := has_value hl hi
    obtain ⟨g1, g2⟩ := arith_cell (resultInt_self _) (hp a ha)
    rw [detect_iff ha] at g1 g2
    rw [valueAt_of ha]
    split
    · next h => exact g1 (.inl h)
    · next h =>
      exact g2 (not_or_intro h not_noDataAt_skip) fun he => hU ⟨i, a, valueAt_some.2 ⟨ha, h⟩, he⟩
  · intro i hi
    simp [valueAt_none hl hi]
  · intro _ i x hx
    obtain ⟨y, _, h⟩ := Option.bind_eq_some_iff.1 hx
    exact outcome_fits (resultInt_self _) h

theorem numberRaster_eq (o : Arith) (garbage : Nat → Int) {l : Raster} (n : Int) (hl : WellFormed l)
    (s1 : Supported l.type) :
    ((∃ i a, valueAt l i = some a ∧ o.elem l.type l.type (l.type.wrap n) a = none) →
      numberRaster o garbage n l = .undefined) ∧
    ((¬ ∃ i a, valueAt l i = some a ∧ o.elem l.type l.type (l.type.wrap n) a = none) →
      Gives (numberRaster o garbage n l) l.type l fun i =>
        (valueAt l i).bind fun a => outcome l.type (o.elem l.type l.type (l.type.wrap n) a)) := by
  obtain ⟨out, ho, hE⟩ := C10_binary_0d2d (o.op l.type l.type l.type) .skip (detect l.type) (mark l.type) l.rows l.cols
    (l.type.wrap n) l.values (uninitialised garbage l.rows l.cols) hl.size (uninitialised_length _ _ _) trivial trivial
  unfold numberRaster
  rw [supported_iff.1 s1, resultInt_self]
  simp only [Bool.not_true, Bool.false_eq_true, if_false]
  rw [ho]
  refine finish_spec hE (uninitialised_length _ _ _) (any_value fun a => ?_) ?_ ?_ ?_
  · rw [Option.isNone_iff_eq_none]
  · intro hU i c c' hi hp _
    obtain ⟨a, ha⟩ := has_value hl hi
    obtain ⟨g1, g2⟩ := arith_cell (resultInt_self _) (hp a ha)
    rw [detect_iff ha] at g1 g2
    rw [valueAt_of ha]
    split
    · next h => exact g1 (.inr h)
    · next h =>
      exact g2 (not_or_intro not_noDataAt_skip h) fun he => hU ⟨i, a, valueAt_some.2 ⟨ha, h⟩, he⟩
  · intro i hi
    simp [valueAt_none hl hi]
  · intro _ i x hx
    obtain ⟨y, _, h⟩ := Option.bind_eq_some_iff.1 hx
    exact outcome_fits (resultInt_self _) h

/-! ### In place -/

/-- What becomes of a pair of values in place. -/
def inPlaceOutcome (o : Arith) (t : IntTy) (own : Bool) (a b : Int) : Option Int :=
  let x := (o.op t t t).compute (a, b)
  if (o.op t t t).withinRange (x, if own then x else b) x = true then unlessReserved t x else none

theorem arith_compute_fits (o : Arith) (t : IntTy) (a b : Int) : Fits t ((o.op t t t).compute (a, b)) := by
  cases o
  · simp only [Arith.op, addOp]
    cases h : addCompute t a b with
    | none => exact fits_zero t
    | some x =>
      obtain ⟨y, _, rfl⟩ := Option.map_eq_some_iff.1 h
      exact fits_wrap _ _
  · simp only [Arith.op, mulOp]
    cases h : mulCompute t a b with
    | none => exact fits_zero t
    | some x =>
      obtain ⟨y, _, rfl⟩ := Option.map_eq_some_iff.1 h
      exact fits_wrap _ _

/-- The right hand side is the left hand side itself. -/
def own : Other → Bool
  | .self => true
  | .raster _ => false

theorem inPlaceCell_is {o : Arith} {t : IntTy} {x2 : Operand Int} {nd : Prop} {a b : Int} {c c' : Cell Int} {w : Bool}
    (hw : ∀ v r : Int, Overwritten x2 v r = if w then r else v)
    (h : InPlaceCell (o.op t t t) .own x2 (mark t) nd a b c c') :
    (nd → CellIs t none c'.val) ∧ (¬ nd → CellIs t (inPlaceOutcome o t w a b) c'.val) := by
  refine ⟨fun hn => ?_, fun hn => ?_⟩
  · have := (h.noData hn).1
    rw [noData_eq] at this
    rw [this]
    exact cellIs_none
  · have h1 := h.accepted hn (arith_domain ..)
    have h2 := h.rejected hn (arith_domain ..)
    rw [hw] at h1 h2
    simp only [Overwritten] at h1 h2
    simp only [inPlaceOutcome]
    cases hr : (o.op t t t).withinRange ((o.op t t t).compute (a, b), if w then (o.op t t t).compute (a, b) else b)
        ((o.op t t t).compute (a, b)) with
    | true =>
      rw [h1 hr, if_pos rfl]
      exact cellIs_unless
    | false =>
      have := (h2 hr).1
      rw [noData_eq] at this
      rw [this, if_neg (by simp)]
      exact cellIs_none

theorem inPlace_eq (o : Arith) {self : Raster} {other : Other} (hl : WellFormed self)
    (hr : WellFormed (operand self other)) (ht : (operand self other).type = self.type)
    (h1 : (operand self other).rows = self.rows) (h2 : (operand self other).cols = self.cols)
    (s1 : Supported self.type) :
    (SomePair (valueAt self) (valueAt (operand self other))
        (fun a b => o.undefinedInPlace self.type (own other) a b = true) → inPlace o self other = .undefined) ∧
    (¬ SomePair (valueAt self) (valueAt (operand self other))
        (fun a b => o.undefinedInPlace self.type (own other) a b = true) →
      Gives (inPlace o self other) self.type self fun i =>
        both (valueAt self i) (valueAt (operand self other) i) fun a b =>
          inPlaceOutcome o self.type (own other) a b) := by
  have hres : (self.values.map fun v => (⟨v, false⟩ : Cell Int)).length = self.rows * self.cols := by
    simpa using hl.size
  have hfit : ∀ i x, (both (valueAt self i) (valueAt (operand self other) i) fun a b =>
      inPlaceOutcome o self.type (own other) a b) = some x → Fits self.type x := by
    intro i x hx
    obtain ⟨y, z, _, _, h⟩ := both_some hx
    rw [(ite_unless h).2]
    exact arith_compute_fits ..
  cases other with
  | self =>
    obtain ⟨out, ho, hE, _⟩ := C73_binary_2d_checked_after (o.op self.type self.type self.type)
      (p1 := .ownValue (isNoData self.type)) (p2 := .ownValue (isNoData self.type)) (mark self.type) (x1 := .own)
      (x2 := .own) self.rows self.cols trivial trivial trivial trivial _ hres
    unfold inPlace
    simp only [supported_iff.1 s1, Bool.not_true, Bool.false_eq_true, if_false, ho]
    refine finish_spec hE hres (any_pair (l := self) (r := self)
      (p := fun a b => o.undefinedInPlace self.type true a b) fun a b => Iff.rfl) ?_ ?_ fun _ => hfit
    · intro _ i c c' hi hp _
      obtain ⟨a, ha⟩ := has_value hl hi
      have hb : (self.values.map fun v => (⟨v, false⟩ : Cell Int))[i]? = some ⟨a, false⟩ := by simp [ha]
      obtain ⟨g1, g2⟩ := inPlaceCell_is (w := true) (fun v r => rfl) (hp a a ⟨_, hb, rfl⟩ ⟨_, hb, rfl⟩)
      simp only [NoDataBefore, hb, Option.some.injEq, exists_eq_left', isNoData_iff] at g1 g2
      simp only [operand]
      rw [both_cell ha ha]
      split
      · next h => exact g1 h
      · next h => exact g2 h
    · intro i hi
      simp [valueAt_none hl hi, both]
  | raster r =>
    simp only [operand] at hr ht h1 h2 ⊢
    have hrs : r.values.length = self.rows * self.cols := by rw [hr.size, h1, h2]
    obtain ⟨out, ho, hE, _⟩ := C73_binary_2d_checked_after (o.op self.type self.type self.type)
      (p1 := .ownValue (isNoData self.type)) (p2 := .bound (detect self.type) r.values) (mark self.type) (x1 := .own)
      (x2 := .array r.values) self.rows self.cols trivial ⟨hrs, trivial⟩ trivial hrs _ hres
    unfold inPlace
    simp only [supported_iff.1 s1, ht, h1, h2, beq_self_eq_true, Bool.and_self, Bool.not_true, Bool.false_eq_true,
      if_false, ho]
    have hany := any_pair (l := self) (r := r) (p := fun a b => o.undefinedInPlace self.type false a b)
      (P := fun a b => o.undefinedInPlace self.type (own (.raster r)) a b = true) fun a b => Iff.rfl
    rw [ht] at hany
    refine finish_spec hE hres hany ?_ ?_ fun _ => hfit
    · intro _ i c c' hi hp _
      obtain ⟨a, ha⟩ := has_value hl hi
      obtain ⟨b, hb⟩ := has_value hr (i := i) (by rw [h1, h2]; exact hi)
      have hb' : (self.values.map fun v => (⟨v, false⟩ : Cell Int))[i]? = some ⟨a, false⟩ := by simp [ha]
      obtain ⟨g1, g2⟩ := inPlaceCell_is (w := false) (fun v r => rfl) (hp a b ⟨_, hb', rfl⟩ hb)
      simp only [NoDataBefore, hb', Option.some.injEq, exists_eq_left', isNoData_iff, detect_iff hb] at g1 g2
      rw [both_cell ha hb, ht]
      split
      · next h => exact g1 h
      · next h => exact g2 h
    · intro i hi
      simp [valueAt_none hl hi, both]

/-! ### Comparison -/

theorem compare_cell {c : Comparison} {t1 t2 : IntTy} {nd : Prop} {a b : Int} {x x' : Cell Int}
    (h : LocalCell (c.op t1 t2) (mark .u8) nd (a, b) x x') :
    (nd → CellIs .u8 none x'.val) ∧
    (¬ nd → CellIs .u8 (some (if c.elem t1 t2 a b then 1 else 0)) x'.val) := by
  obtain ⟨g1, g2, _⟩ := localCell_val h rfl
  refine ⟨fun hn => ?_, fun hn => ?_⟩
  · rw [g1 hn]
    exact cellIs_none
  · rw [g2 hn rfl]
    refine ⟨by simp, ?_⟩
    rintro x ⟨⟩
    refine ⟨rfl, ?_⟩
    simp only [reserved]
    split <;> decide

theorem compare_fits {p : Prop} [Decidable p] {x : Int} (h : some (if p then 1 else 0) = some x) : Fits .u8 x := by
  simp only [Option.some.injEq] at h
  rw [← h]
  split <;> decide

theorem compareRasters_eq (c : Comparison) (garbage : Nat → Int) {l r : Raster} (hl : WellFormed l)
    (hr : WellFormed r) (h1 : r.rows = l.rows) (h2 : r.cols = l.cols) (s1 : Supported l.type)
    (s2 : Supported r.type) :
    Gives (compareRasters c garbage l r) .u8 l fun i =>
      both (valueAt l i) (valueAt r i) fun a b => some (if c.elem l.type r.type a b then 1 else 0) := by
  have hrs : r.values.length = l.rows * l.cols := by rw [hr.size, h1, h2]
  obtain ⟨out, ho, hE⟩ := C10_binary_2d2d (c.op l.type r.type) (detect l.type) (detect r.type) (mark .u8) l.rows l.cols
    l.values r.values (uninitialised garbage l.rows l.cols) hl.size hrs (uninitialised_length _ _ _) trivial trivial
  unfold compareRasters
  rw [supported_iff.1 s1, supported_iff.1 s2, h1, h2]
  simp only [Bool.and_self, Bool.not_true, Bool.false_eq_true, if_false]
  rw [ho]
  refine (finish_spec (U := False) hE (uninitialised_length _ _ _) (by simp) ?_ ?_ ?_).2 not_false
  · intro _ i x x' hi hp _
    obtain ⟨a, ha⟩ := has_value hl hi
    obtain ⟨b, hb⟩ := has_value hr (i := i) (by rw [h1, h2]; exact hi)
    obtain ⟨g1, g2⟩ := compare_cell (hp a b ha hb)
    rw [detect_iff ha, detect_iff hb] at g1 g2
    rw [both_cell ha hb]
    split
    · next h => exact g1 h
    · next h => exact g2 h
  · intro i hi
    simp [valueAt_none hl hi, both]
  · intro _ i x hx
    obtain ⟨y, z, _, _, h⟩ := both_some hx
    exact compare_fits h

theorem compareNumber_eq (c : Comparison) (garbage : Nat → Int) {l : Raster} (n : Int) (hl : WellFormed l)
    (s1 : Supported l.type) :
    Gives (compareNumber c garbage l n) .u8 l fun i =>
      (valueAt l i).bind fun a => some (if c.elem l.type .i64 a n then 1 else 0) := by
  obtain ⟨out, ho, hE⟩ := C10_binary_2d0d (c.op l.type .i64) (detect l.type) .skip (mark .u8) l.rows l.cols
    l.values n (uninitialised garbage l.rows l.cols) hl.size (uninitialised_length _ _ _) trivial trivial
  unfold compareNumber
  rw [supported_iff.1 s1]
  simp only [Bool.not_true, Bool.false_eq_true, if_false]
  rw [ho]
  refine (finish_spec (U := False) hE (uninitialised_length _ _ _) (by simp) ?_ ?_ ?_).2 not_false
  · intro _ i x x' hi hp _
    obtain ⟨a, ha⟩ := has_value hl hi
    obtain ⟨g1, g2⟩ := compare_cell (hp a ha)
    rw [detect_iff ha] at g1 g2
    rw [valueAt_of ha]
    split
    · next h => exact g1 (.inl h)
    · next h => exact g2 (not_or_intro h not_noDataAt_skip)
  · intro i hi
    simp [valueAt_none hl hi]
  · intro _ i x hx
    obtain ⟨y, _, h⟩ := Option.bind_eq_some_iff.1 hx
    exact compare_fits h

theorem numberCompare_eq (c : Comparison) (garbage : Nat → Int) {l : Raster} (n : Int) (hl : WellFormed l)
    (s1 : Supported l.type) :
    Gives (numberCompare c garbage n l) .u8 l fun i =>
      (valueAt l i).bind fun a => some (if c.elem .i64 l.type n a then 1 else 0) := by
  obtain ⟨out, ho, hE⟩ := C10_binary_0d2d (c.op .i64 l.type) .skip (detect l.type) (mark .u8) l.rows l.cols
    n l.values (uninitialised garbage l.rows l.cols) hl.size (uninitialised_length _ _ _) trivial trivial
  unfold numberCompare
  rw [supported_iff.1 s1]
  simp only [Bool.not_true, Bool.false_eq_true, if_false]
  rw [ho]
  refine (finish_spec (U := False) hE (uninitialised_length _ _ _) (by simp) ?_ ?_ ?_).2 not_false
  · intro _ i x x' hi hp _
    obtain ⟨a, ha⟩ := has_value hl hi
    obtain ⟨g1, g2⟩ := compare_cell (hp a ha)
    rw [detect_iff ha] at g1 g2
    rw [valueAt_of ha]
    split
    · next h => exact g1 (.inr h)
    · next h => exact g2 (not_or_intro not_noDataAt_skip h)
  · intro i hi
    simp [valueAt_none hl hi]
  · intro _ i x hx
    obtain ⟨y, _, h⟩ := Option.bind_eq_some_iff.1 hx
    exact compare_fits h

/-- The comparison of values. -/
def Comparison.holds : Comparison → Int → Int → Bool
  | .less, a, b => a < b
  | .greater, a, b => a > b

theorem compare_seen {c : Comparison} {t u : IntTy} (ht : Supported t) (hu : Supported u) {a b : Int}
    (ha : Fits t a) (hb : Fits u b) : c.elem t u a b = c.holds (seen t u a) (seen u t b) := by
  rcases ht with rfl | rfl | rfl | rfl | rfl <;> rcases hu with rfl | rfl | rfl | rfl | rfl <;> cases c <;>
    simp only [Fits] at ha hb <;>
    simp only [Comparison.elem, Comparison.holds, lessElem, greaterElem, cLt, cGt, seen, Unsigned, IntTy.common, IntTy.convert,
      IntTy.promote, IntTy.bits, IntTy.signed] <;>
    simp [wrap_u8, wrap_u16, wrap_u32, wrap_u64, wrap_i8, wrap_i16, wrap_i32, wrap_i64] <;>
    omega

/-! ### Choice -/

theorem condition_iff {c : Raster} {i : Nat} {v : Int} (h : c.values[i]? = some v) :
    NoDataAt (conditionPolicy c) (truth c) i ↔ v = reserved c.type := by
  simp only [NoDataAt, conditionPolicy, List.getElem?_map, h, Option.map_some, Option.some.injEq, ← isNoData_iff]
  cases isNoData c.type v <;> simp

theorem take_cell {t : IntTy} {f : Raster} {i : Nat} {v : Int} {x x' : Cell Int} (hf : f.type = t)
    (hv : f.values[i]? = some v) (h : Take (mark t) (detect t) (.array f.values) i x x') :
    CellIs t (valueAt f i) x'.val := by
  obtain ⟨h1, h2⟩ := h
  simp only [Arg.NoData, detect_iff hv, Arg.HasAt, hv] at h1 h2
  rw [valueAt_of hv, hf]
  split
  · next e =>
    have := (h1 e).1
    rw [noData_eq] at this
    rw [this]
    exact cellIs_none
  · next e =>
    obtain ⟨w, ⟨⟩, hw⟩ := h2 e
    rw [hw.1]
    exact ⟨by simp, by simpa using e⟩

theorem take_number {t : IntTy} {i : Nat} {w : Int} {x x' : Cell Int}
    (h : Take (mark t) .skip (.scalar w) i x x') : CellIs t (unlessReserved t w) x'.val := by
  obtain ⟨v, rfl, hw⟩ := h.2 (not_noDataAt_skip (values := [w]) (i := 0))
  rw [hw.1]
  exact cellIs_unless

theorem if_cell {t : IntTy} {c : Raster} {i : Nat} {v : Int} {x x' : Cell Int} {inT inF : InPolicy Int}
    {tv fv : Arg Int} {T F : Option Int} (hv : c.values[i]? = some v)
    (h : IfThenElse (mark t) (conditionPolicy c) inT inF (.array (truth c)) tv fv i x x')
    (hT : Take (mark t) inT tv i x x' → CellIs t T x'.val) (hF : Take (mark t) inF fv i x x' → CellIs t F x'.val) :
    CellIs t ((valueAt c i).bind fun v => if v ≠ 0 then T else F) x'.val := by
  obtain ⟨h1, h2, h3⟩ := h
  simp only [Arg.NoData, condition_iff hv] at h1 h2 h3
  simp only [Arg.HasAt, truth, List.getElem?_map, hv, Option.map_some,
    Option.some.injEq] at h1 h2 h3
  rw [valueAt_of hv]
  split
  · next e =>
    have := (h1 e).1
    rw [noData_eq] at this
    rw [this]
    exact cellIs_none
  · next e =>
    simp only [Option.bind_some]
    split
    · next z => exact hT (h2 e (by simpa using z))
    · next z => exact hF (h3 e (by simpa using z))

theorem condition_fits {c : Raster} (hc : WellFormed c) :
    (Arg.array (truth c)).Fits (conditionPolicy c) (c.rows * c.cols) := by
  refine ⟨?_, ?_⟩
  · simpa [truth] using hc.size
  · simpa [conditionPolicy, PolicyFor] using hc.size

theorem ifRasters_eq (garbage : Nat → Int) {c t f : Raster} (hc : WellFormed c) (ht : WellFormed t) (hf : WellFormed f)
    (h1 : t.rows = c.rows) (h2 : t.cols = c.cols) (h3 : f.rows = c.rows) (h4 : f.cols = c.cols)
    (s1 : Supported c.type) (s2 : Supported t.type) (hty : f.type = t.type) :
    Gives (ifRasters garbage c t f) t.type c fun i =>
      (valueAt c i).bind fun v => if v ≠ 0 then valueAt t i else valueAt f i := by
  have hts : t.values.length = c.rows * c.cols := by rw [ht.size, h1, h2]
  have hfs : f.values.length = c.rows * c.cols := by rw [hf.size, h3, h4]
  obtain ⟨out, ho, hE, _⟩ := C15_ifThenElse2d2d2d (conditionPolicy c) (detect t.type) (detect t.type) (mark t.type)
    c.rows c.cols (truth c) t.values f.values (uninitialised garbage c.rows c.cols) (uninitialised_length _ _ _)
    (condition_fits hc) ⟨hts, trivial⟩ ⟨hfs, trivial⟩
  unfold ifRasters
  rw [supported_iff.1 s1, supported_iff.1 s2, h1, h2, h3, h4, hty]
  simp only [bne_self_eq_false, Bool.and_self, Bool.not_true, Bool.false_eq_true, if_false]
  rw [ho]
  refine (finish_spec (U := False) hE (uninitialised_length _ _ _) (by simp) ?_ ?_ ?_).2 not_false
  · intro _ i x x' hi hp _
    obtain ⟨v, hv⟩ := has_value hc hi
    obtain ⟨a, ha⟩ := has_value ht (i := i) (by rw [h1, h2]; exact hi)
    obtain ⟨b, hb⟩ := has_value hf (i := i) (by rw [h3, h4]; exact hi)
    exact if_cell hv hp (take_cell rfl ha) (take_cell hty hb)
  · intro i hi
    simp [valueAt_none hc hi]
  · intro _ i x hx
    obtain ⟨y, _, h⟩ := Option.bind_eq_some_iff.1 hx
    split at h
    · exact valueAt_fits ht h
    · rw [← hty]
      exact valueAt_fits hf h

theorem unless_fits {t : IntTy} {w x : Int} (hw : Fits t w) (h : unlessReserved t w = some x) : Fits t x := by
  unfold unlessReserved at h
  split at h <;> simp at h
  rwa [← h]

theorem ifRasterNumber_eq (garbage : Nat → Int) {c t : Raster} (n : Int) (hc : WellFormed c) (ht : WellFormed t)
    (h1 : t.rows = c.rows) (h2 : t.cols = c.cols) (s1 : Supported c.type) (s2 : Supported t.type) :
    Gives (ifRasterNumber garbage c t n) t.type c fun i =>
      (valueAt c i).bind fun v => if v ≠ 0 then valueAt t i else unlessReserved t.type (t.type.wrap n) := by
  have hts : t.values.length = c.rows * c.cols := by rw [ht.size, h1, h2]
  obtain ⟨out, ho, hE, _⟩ := C15_ifThenElse2d2d0d (conditionPolicy c) (detect t.type) .skip (mark t.type)
    c.rows c.cols (truth c) t.values (t.type.wrap n) (uninitialised garbage c.rows c.cols) (uninitialised_length _ _ _)
    (condition_fits hc) ⟨hts, trivial⟩ trivial
  unfold ifRasterNumber
  rw [supported_iff.1 s1, supported_iff.1 s2, h1, h2]
  simp only [Bool.and_self, Bool.not_true, Bool.false_eq_true, if_false]
  rw [ho]
  refine (finish_spec (U := False) hE (uninitialised_length _ _ _) (by simp) ?_ ?_ ?_).2 not_false
  · intro _ i x x' hi hp _
    obtain ⟨v, hv⟩ := has_value hc hi
    obtain ⟨a, ha⟩ := has_value ht (i := i) (by rw [h1, h2]; exact hi)
    exact if_cell hv hp (take_cell rfl ha) take_number
  · intro i hi
    simp [valueAt_none hc hi]
  · intro _ i x hx
    obtain ⟨y, _, h⟩ := Option.bind_eq_some_iff.1 hx
    split at h
    · exact valueAt_fits ht h
    · exact unless_fits (fits_wrap _ _) h

theorem ifNumberRaster_eq (garbage : Nat → Int) {c f : Raster} (n : Int) (hc : WellFormed c) (hf : WellFormed f)
    (h1 : f.rows = c.rows) (h2 : f.cols = c.cols) (s1 : Supported c.type) (s2 : Supported f.type) :
    Gives (ifNumberRaster garbage c n f) f.type c fun i =>
      (valueAt c i).bind fun v => if v ≠ 0 then unlessReserved f.type (f.type.wrap n) else valueAt f i := by
  have hts : f.values.length = c.rows * c.cols := by rw [hf.size, h1, h2]
  obtain ⟨out, ho, hE, _⟩ := C15_ifThenElse2d0d2d (conditionPolicy c) .skip (detect f.type) (mark f.type)
    c.rows c.cols (truth c) (f.type.wrap n) f.values (uninitialised garbage c.rows c.cols) (uninitialised_length _ _ _)
    (condition_fits hc) trivial ⟨hts, trivial⟩
  unfold ifNumberRaster
  rw [supported_iff.1 s1, supported_iff.1 s2, h1, h2]
  simp only [Bool.and_self, Bool.not_true, Bool.false_eq_true, if_false]
  rw [ho]
  refine (finish_spec (U := False) hE (uninitialised_length _ _ _) (by simp) ?_ ?_ ?_).2 not_false
  · intro _ i x x' hi hp _
    obtain ⟨v, hv⟩ := has_value hc hi
    obtain ⟨a, ha⟩ := has_value hf (i := i) (by rw [h1, h2]; exact hi)
    exact if_cell hv hp take_number (take_cell rfl ha)
  · intro i hi
    simp [valueAt_none hc hi]
  · intro _ i x hx
    obtain ⟨y, _, h⟩ := Option.bind_eq_some_iff.1 hx
    split at h
    · exact unless_fits (fits_wrap _ _) h
    · exact valueAt_fits hf h

/-! ### Outcomes of arithmetic -/

theorem store_eq {t : IntTy} {x : Int} : store t x = if Fits t x then unlessReserved t x else none := by
  unfold store unlessReserved
  by_cases h1 : Fits t x <;> by_cases h2 : x = reserved t <;> simp [h1, h2]

theorem outcome_some {t : IntTy} {o : Option Outcome} {x : Outcome} (h : o = some x) {P : Prop} [Decidable P] {s : Int}
    (h1 : x.withinRange = true → x.result = s) (h2 : x.withinRange = true ↔ P) :
    outcome t o = if P then unlessReserved t s else none := by
  subst h
  simp only [outcome, Option.bind_some]
  by_cases hP : P
  · rw [if_pos hP, if_pos (h2.2 hP), h1 (h2.2 hP)]
  · rw [if_neg hP, if_neg fun h => hP (h2.1 h)]

theorem both_congr {l r : Raster} {i : Nat} {f g : Int → Int → Option Int}
    (h : ∀ a b, valueAt l i = some a → valueAt r i = some b → f a b = g a b) :
    both (valueAt l i) (valueAt r i) f = both (valueAt l i) (valueAt r i) g := by
  cases ha : valueAt l i with
  | none => rfl
  | some a =>
    cases hb : valueAt r i with
    | none => rfl
    | some b => exact h a b ha hb

theorem gives_congr {o : Out Raster} {t : IntTy} {l : Raster} {f g : Nat → Option Int} (h : Gives o t l f)
    (hfg : ∀ i, f i = g i) : Gives o t l g := by
  obtain ⟨q, h1, h2, h3, h4, h5⟩ := h
  exact ⟨q, h1, h2, h3, h4, fun i => (h5 i).trans (hfg i)⟩

theorem somePair_congr {a b : Nat → Option Int} {p q : Int → Int → Prop}
    (h : ∀ i x y, a i = some x → b i = some y → (p x y ↔ q x y)) : SomePair a b p ↔ SomePair a b q := by
  constructor
  · rintro ⟨i, x, y, hx, hy, hp⟩
    exact ⟨i, x, y, hx, hy, (h i x y hx hy).1 hp⟩
  · rintro ⟨i, x, y, hx, hy, hp⟩
    exact ⟨i, x, y, hx, hy, (h i x y hx hy).2 hp⟩

theorem wide_signed {t : IntTy} (h : Signed t) (hs : Supported t) : ¬ Narrow t := by
  rcases hs with rfl | rfl | rfl | rfl | rfl <;> simp [Signed, Narrow] at h ⊢

theorem wide_result {t u r : IntTy} (h : Signed t ∨ Signed u) (ht : Supported t) (hu : Supported u)
    (hr : resultInt t u = some r) : ¬ Narrow r := by
  rcases ht with rfl | rfl | rfl | rfl | rfl <;> rcases hu with rfl | rfl | rfl | rfl | rfl <;>
    simp [Signed] at h <;> (have := Option.some.inj hr; subst this; unfold Narrow; decide)

theorem not_u16 {t u r : IntTy} (ht : Supported t) (hu : Supported u) (hr : resultInt t u = some r) : r ≠ .u16 := by
  rcases ht with rfl | rfl | rfl | rfl | rfl <;> rcases hu with rfl | rfl | rfl | rfl | rfl <;>
    (have := Option.some.inj hr; subst this; decide)

theorem converted_iff {t : IntTy} {n w : Int} : Converted t n w ↔ w = t.wrap n := by
  unfold Converted
  cases t <;> simp only [Fits, wrap_u8, wrap_u16, wrap_u32, wrap_u64, wrap_i8, wrap_i16, wrap_i32, wrap_i64, IntTy.bits] <;>
    norm_num <;> omega

/-- Addition and multiplication are commutative, including their range checks. -/
theorem elem_comm (o : Arith) {t u : IntTy} (ht : Supported t) (hu : Supported u) {a b : Int} (ha : Fits t a)
    (hb : Fits u b) {r : IntTy} (hr : resultInt t u = some r) :
    (o.elem u t b a = none ↔ o.elem t u a b = none) ∧ outcome r (o.elem u t b a) = outcome r (o.elem t u a b) := by
  have hr' : resultInt u t = some r := by rw [resultInt_comm, hr]
  by_cases hst : Signed t <;> by_cases hsu : Signed u
  · have hn := wide_result (.inl hst) ht hu hr
    cases o
    · obtain ⟨h1, h2⟩ := C27_add_signed_wide t u r hst hsu hr hn a b ha hb
      obtain ⟨k1, k2⟩ := C27_add_signed_wide u t r hsu hst hr' hn b a hb ha
      simp only [Arith.elem]
      rw [h1, k1, Int.add_comm b a]
      refine ⟨Iff.rfl, ?_⟩
      by_cases hf : Fits r (a + b)
      · rw [h2 hf, k2 (by rwa [Int.add_comm]), Int.add_comm b a]
      · rw [h1.2 hf, k1.2 (by rwa [Int.add_comm])]
    · obtain ⟨h1, h2⟩ := C30_multiply_signed t u r hst hsu hr a b ha hb
      obtain ⟨k1, k2⟩ := C30_multiply_signed u t r hsu hst hr' b a hb ha
      simp only [Arith.elem]
      rw [h1, k1, Int.mul_comm b a]
      refine ⟨Iff.rfl, ?_⟩
      rw [Int.mul_comm b a] at k1 k2
      cases e : mulElem t u a b with
      | none => rw [k1.2 (h1.1 e)]
      | some x =>
        cases e' : mulElem u t b a with
        | none => rw [h1.2 (k1.1 e')] at e; simp at e
        | some y => rw [outcome_some rfl (k2 y e').1 (k2 y e').2, outcome_some rfl (h2 x e).1 (h2 x e).2]
  · have hU : Unsigned u := by
      rcases hu with rfl | rfl | rfl | rfl | rfl <;> simp [Signed, Unsigned] at hsu ⊢
    have e1 : t.signed = true := (signed_iff _).1 hst
    have e2 : u.signed = false := (unsigned_iff _).1 hU
    have : o.elem u t b a = o.elem t u a b := by
      cases o
      · simp only [Arith.elem, addElem, hr, hr', addRange, e1, e2, addCompute, cAdd, Int.add_comm]
      · simp only [Arith.elem, mulElem, hr, hr', mulRange, e1, e2, mulCompute, cMul, Int.mul_comm]
    rw [this]
    exact ⟨Iff.rfl, rfl⟩
  · have hU : Unsigned t := by
      rcases ht with rfl | rfl | rfl | rfl | rfl <;> simp [Signed, Unsigned] at hst ⊢
    have e1 : u.signed = true := (signed_iff _).1 hsu
    have e2 : t.signed = false := (unsigned_iff _).1 hU
    have : o.elem u t b a = o.elem t u a b := by
      cases o
      · simp only [Arith.elem, addElem, hr, hr', addRange, e1, e2, addCompute, cAdd, Int.add_comm]
      · simp only [Arith.elem, mulElem, hr, hr', mulRange, e1, e2, mulCompute, cMul, Int.mul_comm]
    rw [this]
    exact ⟨Iff.rfl, rfl⟩
  · have hU : Unsigned t := by
      rcases ht with rfl | rfl | rfl | rfl | rfl <;> simp [Signed, Unsigned] at hst ⊢
    have hU' : Unsigned u := by
      rcases hu with rfl | rfl | rfl | rfl | rfl <;> simp [Signed, Unsigned] at hsu ⊢
    cases o
    · obtain ⟨x, h1, h2, h3⟩ := C26_add_unsigned t u r hU hU' hr a b ha hb
      obtain ⟨y, k1, k2, k3⟩ := C26_add_unsigned u t r hU' hU hr' b a hb ha
      rw [Int.add_comm b a] at k2 k3
      simp only [Arith.elem, h1, k1]
      exact ⟨by simp, by rw [outcome_some rfl k2 k3, outcome_some rfl h2 h3]⟩
    · obtain ⟨h1, h2⟩ := C30_multiply_unsigned t u r hU hU' hr a b ha hb
      obtain ⟨k1, k2⟩ := C30_multiply_unsigned u t r hU' hU hr' b a hb ha
      simp only [Arith.elem]
      rw [h1, k1, Int.mul_comm b a]
      refine ⟨Iff.rfl, ?_⟩
      rw [Int.mul_comm b a] at k1 k2
      cases e : mulElem t u a b with
      | none => rw [k1.2 (h1.1 e)]
      | some x =>
        cases e' : mulElem u t b a with
        | none => rw [h1.2 (k1.1 e')] at e; simp at e
        | some y => rw [outcome_some rfl (k2 y e').1 (k2 y e').2, outcome_some rfl (h2 x e).1 (h2 x e).2]

/-! ### Construction -/

/-- The value for one element. -/
def copied (t : IntTy) (v : Option Int) (m : Option Bool) : Option Int :=
  m.bind fun m => if m then some (reserved t) else v.bind fun v => if Fits t v then some v else none

theorem min_max_iff {t : IntTy} {v : Int} : (t.min ≤ v ∧ v ≤ t.max) ↔ Fits t v := by
  cases t <;> simp [IntTy.min, IntTy.max, Fits, IntTy.bits, IntTy.signed]

theorem copyRow_succ {t : IntTy} {row : List Int} {mask : List Bool} {k n : Nat} :
    copyRow t row mask k (n + 1) =
      (copied t row[k]? mask[k]?).bind fun v => (copyRow t row mask (k + 1) n).map fun vs => v :: vs := by
  simp only [copyRow, copied, min_max_iff, noData_eq]
  cases mask[k]? with
  | none => rfl
  | some m =>
    cases m with
    | true => cases copyRow t row mask (k + 1) n <;> rfl
    | false =>
      cases row[k]? with
      | none => rfl
      | some v =>
        by_cases hf : Fits t v
        · simp only [Option.bind_eq_bind, Option.bind_some, if_pos hf, Bool.false_eq_true, if_false]
          cases copyRow t row mask (k + 1) n <;> rfl
        · simp [hf]

theorem copyRow_spec {t : IntTy} {row : List Int} {mask : List Bool} (n k : Nat) :
    ((∃ j, j < n ∧ copied t row[k + j]? mask[k + j]? = none) → copyRow t row mask k n = none) ∧
    ((∀ j, j < n → copied t row[k + j]? mask[k + j]? ≠ none) →
      ∃ vs, copyRow t row mask k n = some vs ∧ vs.length = n ∧
        ∀ j, j < n → vs[j]? = copied t row[k + j]? mask[k + j]?) := by
  induction n generalizing k with
  | zero => exact ⟨by simp, fun _ => ⟨[], rfl, rfl, by simp⟩⟩
  | succ n ih =>
    obtain ⟨i1, i2⟩ := ih (k + 1)
    rw [copyRow_succ]
    constructor
    · rintro ⟨j, hj, he⟩
      cases j with
      | zero =>
        rw [Nat.add_zero] at he
        rw [he, Option.bind_none]
      | succ j =>
        rw [i1 ⟨j, by omega, by rw [show k + 1 + j = k + (j + 1) by omega]; exact he⟩]
        cases copied t row[k]? mask[k]? <;> rfl
    · intro h
      obtain ⟨vs, e1, e2, e3⟩ := i2 fun j hj => by
        have := h (j + 1) (by omega)
        rwa [show k + (j + 1) = k + 1 + j by omega] at this
      cases hc : copied t row[k]? mask[k]? with
      | none => exact absurd hc (h 0 (by omega))
      | some v =>
        refine ⟨v :: vs, by rw [e1]; rfl, by simp [e2], fun j hj => ?_⟩
        cases j with
        | zero => simp [hc]
        | succ j =>
          rw [List.getElem?_cons_succ, e3 j (by omega), show k + 1 + j = k + (j + 1) by omega]

theorem copyRows_spec {t : IntTy} {values : List (List Int)} {mask : List (List Bool)} {cols : Nat} (n k : Nat)
    (hk : k + n ≤ values.length) (h0 : k + n ≤ mask.length ∨ 0 < cols) :
    ((∃ r c, r < n ∧ c < cols ∧ copied t (element values (k + r) c) (element mask (k + r) c) = none) →
      copyRows t values mask cols k n = none) ∧
    ((∀ r c, r < n → c < cols → copied t (element values (k + r) c) (element mask (k + r) c) ≠ none) →
      ∃ vs, copyRows t values mask cols k n = some vs ∧ vs.length = n * cols ∧
        ∀ r c, r < n → c < cols →
          vs[r * cols + c]? = copied t (element values (k + r) c) (element mask (k + r) c)) := by
  induction n generalizing k with
  | zero => exact ⟨by simp, fun _ => ⟨[], rfl, by simp, by simp⟩⟩
  | succ n ih =>
    obtain ⟨i1, i2⟩ := ih (k + 1) (by omega) (by omega)
    obtain ⟨row, hrow⟩ : ∃ row, values[k]? = some row := ⟨_, List.getElem?_eq_getElem (by omega)⟩
    simp only [copyRows, hrow, Option.bind_eq_bind, Option.bind_some]
    cases hm : mask[k]? with
    | none =>
      simp only [Option.bind_none]
      refine ⟨fun _ => trivial, fun h => ?_⟩
      have : 0 < cols := by
        rcases h0 with h0 | h0
        · rw [List.getElem?_eq_none_iff] at hm
          omega
        · exact h0
      exact absurd (by simp [copied, element, hm]) (h 0 0 (by omega) this)
    | some m =>
      obtain ⟨r1, r2⟩ := copyRow_spec (t := t) (row := row) (mask := m) cols 0
      simp only [Nat.zero_add] at r1 r2
      simp only [Option.bind_some]
      constructor
      · rintro ⟨r, c, hr, hc, he⟩
        cases r with
        | zero =>
          rw [r1 ⟨c, hc, by simpa [element, hrow, hm] using he⟩, Option.bind_none]
        | succ r =>
          rw [i1 ⟨r, c, by omega, hc, by rw [show k + 1 + r = k + (r + 1) by omega]; exact he⟩]
          cases copyRow t row m 0 cols <;> rfl
      · intro h
        obtain ⟨us, f1, f2, f3⟩ := r2 fun c hc => by simpa [element, hrow, hm] using h 0 c (by omega) hc
        obtain ⟨vs, e1, e2, e3⟩ := i2 fun r c hr hc => by
          have := h (r + 1) c (by omega) hc
          rwa [show k + (r + 1) = k + 1 + r by omega] at this
        refine ⟨us ++ vs, by rw [f1, e1]; rfl, by rw [List.length_append, f2, e2, Nat.succ_mul]; omega, ?_⟩
        intro r c hr hc
        cases r with
        | zero =>
          rw [Nat.zero_mul, Nat.zero_add, List.getElem?_append_left (by omega), f3 c hc]
          simp [element, hrow, hm]
        | succ r =>
          rw [List.getElem?_append_right (by rw [f2, Nat.succ_mul]; omega), f2,
            show (r + 1) * cols + c - cols = r * cols + c by rw [Nat.succ_mul]; omega, e3 r c (by omega) hc,
            show k + 1 + r = k + (r + 1) by omega]

theorem complete_iff {t : IntTy} {v : Option Int} {m : Option Bool} :
    copied t v m ≠ none ↔ m = some true ∨ (m = some false ∧ ∃ x, v = some x ∧ Fits t x) := by
  cases m with
  | none => simp [copied]
  | some m =>
    cases m with
    | true => simp [copied]
    | false => cases v <;> simp [copied]

end Fern.PyOps
