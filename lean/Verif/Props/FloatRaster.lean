import Verif.Lemmas.FloatRaster
/-!
# C118: arithmetic on whole arrays with floating point numbers
-/
namespace Fern.FloatRaster

open Fern.Domains Fern.Spec Fern.FloatArith Fern.Casts
open Fern.IntRaster (ArithOp Checks)
open Fern.IntRaster.Spec (ComputesUnless)
open Fern.Casts.Spec (IntegerPart opposite OfType)
open Fern.FloatArith.Spec (Rounded TooLarge larger limit)
open _root_.Fern.FloatRaster.Spec
open _root_.Fern.PairLoop.Spec

/-! ### The shapes -/

section

variable (op : ArithOp) (k : Checks) {t1 t2 : NumTy} {r : FltTy} (hr : resultType t1 t2 = some r)
  (in1 in2 : InPolicy Flt) (outp : OutPolicy Flt)

include hr

/-- C118, scalars. -/
theorem C118_0d0d (v1 v2 : Flt) (c : Cell Flt) (h1 : PolicyFor in1 1) (h2 : PolicyFor in2 1)
    (o1 : OfType t1 v1) (o2 : OfType t2 v2) :
    (arith0d0d op k t1 t2 r in1 in2 outp v1 v2 c = none ↔
      ¬ (NoDataAt in1 [v1] 0 ∨ NoDataAt in2 [v2] 0) ∧ Fails op k t1 t2 v1 v2) ∧
    ∀ c', arith0d0d op k t1 t2 r in1 in2 outp v1 v2 c = some c' →
      EachPair (PairCell op k t1 t2 r outp) in1 in2 outp (.scalar v1) (.scalar v2) 0 c c' :=
  PairLoop.pair0d0d_spec (pairActs_spec op k hr outp) c h1 h2 o1 o2

/-- C118, an array and a scalar, 1D. -/
theorem C118_1d0d (value1 : List Flt) (v2 : Flt) (res : List (Cell Flt))
    (hs : res.length = value1.length) (h1 : PolicyFor in1 value1.length) (h2 : PolicyFor in2 1)
    (o1 : ∀ v ∈ value1, OfType t1 v) (o2 : OfType t2 v2) :
    ComputesUnless
      (SomePair (Fails op k t1 t2) in1 in2 (.array value1) (.scalar v2) value1.length)
      (arith1d0d op k t1 t2 r in1 in2 outp value1 v2 res.length)
      (EachPair (PairCell op k t1 t2 r outp) in1 in2 outp (.array value1) (.scalar v2)) res :=
  PairLoop.pair1d0d_spec (pairActs_spec op k hr outp) value1 v2 res hs h1 h2 o1 o2

/-- C118, a scalar and an array, 1D. The second value has passed through the first value's type. -/
theorem C118_0d1d (v1 : Flt) (value2 : List Flt) (res : List (Cell Flt))
    (hs : res.length = value2.length) (h1 : PolicyFor in1 1) (h2 : PolicyFor in2 value2.length)
    (o1 : OfType t1 v1) (o2 : ∀ v ∈ value2, OfType t2 v) :
    ComputesUnless
      (SomePair (Fails1d op k t1 t2) in1 in2 (.scalar v1) (.array value2) value2.length)
      (arith0d1d op k t1 t2 r in1 in2 outp v1 value2 res.length)
      (EachPair (PairCell1d op k t1 t2 r outp) in1 in2 outp (.scalar v1) (.array value2)) res :=
  PairLoop.pair0d1d_spec (pairActs1d_spec op k hr outp) v1 value2 res hs h1 h2 o1 o2

/-- C118, two arrays, 1D. The second value has passed through the first value's type. -/
theorem C118_1d1d (value1 value2 : List Flt) (res : List (Cell Flt))
    (hv1 : value1.length = res.length) (hv2 : value2.length = res.length)
    (h1 : PolicyFor in1 res.length) (h2 : PolicyFor in2 res.length)
    (o1 : ∀ v ∈ value1, OfType t1 v) (o2 : ∀ v ∈ value2, OfType t2 v) :
    ComputesUnless
      (SomePair (Fails1d op k t1 t2) in1 in2 (.array value1) (.array value2) res.length)
      (arith1d1d op k t1 t2 r in1 in2 outp value1 value2 res.length)
      (EachPair (PairCell1d op k t1 t2 r outp) in1 in2 outp (.array value1) (.array value2)) res :=
  PairLoop.pair1d1d_spec (pairActs1d_spec op k hr outp) value1 value2 res hv1 hv2 h1 h2 o1 o2

/-- C118, an array and a scalar, 2D. -/
theorem C118_2d0d (n1 n2 : Nat) (value1 : List Flt) (v2 : Flt) (res : List (Cell Flt))
    (hv : value1.length = n1 * n2) (hs : res.length = n1 * n2) (h1 : PolicyFor in1 (n1 * n2))
    (h2 : PolicyFor in2 1) (o1 : ∀ v ∈ value1, OfType t1 v) (o2 : OfType t2 v2) :
    ComputesUnless (SomePair (Fails op k t1 t2) in1 in2 (.array value1) (.scalar v2) (n1 * n2))
      (arith2d0d op k t1 t2 r in1 in2 outp (n1, n2) value1 v2 (n1, n2))
      (EachPair (PairCell op k t1 t2 r outp) in1 in2 outp (.array value1) (.scalar v2)) res :=
  PairLoop.pair2d0d_spec (pairActs_spec op k hr outp) n1 n2 value1 v2 res hv hs h1 h2 o1 o2

/-- C118, a scalar and an array, 2D. -/
theorem C118_0d2d (n1 n2 : Nat) (v1 : Flt) (value2 : List Flt) (res : List (Cell Flt))
    (hv : value2.length = n1 * n2) (hs : res.length = n1 * n2) (h1 : PolicyFor in1 1)
    (h2 : PolicyFor in2 (n1 * n2)) (o1 : OfType t1 v1) (o2 : ∀ v ∈ value2, OfType t2 v) :
    ComputesUnless (SomePair (Fails op k t1 t2) in1 in2 (.scalar v1) (.array value2) (n1 * n2))
      (arith0d2d op k t1 t2 r in1 in2 outp v1 (n1, n2) value2 (n1, n2))
      (EachPair (PairCell op k t1 t2 r outp) in1 in2 outp (.scalar v1) (.array value2)) res :=
  PairLoop.pair0d2d_spec (pairActs_spec op k hr outp) n1 n2 v1 value2 res hv hs h1 h2 o1 o2

/-- C118, two arrays, 2D. -/
theorem C118_2d2d (n1 n2 : Nat) (value1 value2 : List Flt) (res : List (Cell Flt))
    (hv1 : value1.length = n1 * n2) (hv2 : value2.length = n1 * n2) (hs : res.length = n1 * n2)
    (h1 : PolicyFor in1 (n1 * n2)) (h2 : PolicyFor in2 (n1 * n2))
    (o1 : ∀ v ∈ value1, OfType t1 v) (o2 : ∀ v ∈ value2, OfType t2 v) :
    ComputesUnless
      (SomePair (Fails op k t1 t2) in1 in2 (.array value1) (.array value2) (n1 * n2))
      (arith2d2d op k t1 t2 r in1 in2 outp (n1, n2) value1 (n1, n2) value2 (n1, n2))
      (EachPair (PairCell op k t1 t2 r outp) in1 in2 outp (.array value1) (.array value2)) res :=
  PairLoop.pair2d2d_spec (pairActs_spec op k hr outp) n1 n2 value1 value2 res hv1 hv2 hs h1 h2 o1 o2

end

/-- C118: arguments and results of different sizes make an assertion fail. -/
theorem C118_sizes (op : ArithOp) (k : Checks) (t1 t2 : NumTy) (r : FltTy) (in1 in2 : InPolicy Flt)
    (outp : OutPolicy Flt) (v : Flt) (value1 value2 : List Flt) (size : Nat) (vs1 vs2 rs : Nat × Nat) :
    (value1.length ≠ size → arith1d0d op k t1 t2 r in1 in2 outp value1 v size = none ∧
      arith0d1d op k t1 t2 r in1 in2 outp v value1 size = none) ∧
    (value1.length ≠ value2.length ∨ value2.length ≠ size →
      arith1d1d op k t1 t2 r in1 in2 outp value1 value2 size = none) ∧
    (vs1 ≠ rs → arith2d0d op k t1 t2 r in1 in2 outp vs1 value1 v rs = none ∧
      arith0d2d op k t1 t2 r in1 in2 outp v vs1 value1 rs = none) ∧
    (vs1 ≠ vs2 ∨ vs1 ≠ rs → arith2d2d op k t1 t2 r in1 in2 outp vs1 value1 vs2 value2 rs = none) := by
  have hs : ∀ a b : Nat × Nat, a ≠ b → assertSame a b = none := by
    intro a b h
    by_cases h1 : a.1 = b.1
    · have h2 : a.2 ≠ b.2 := fun h2 => h (Prod.ext h1 h2)
      simp [assertSame, assert', h1, h2]
    · simp [assertSame, assert', h1]
  refine ⟨fun h => ?_, ?_, fun h => ?_, ?_⟩
  · simp [arith1d0d, arith0d1d, PairLoop.pair1d0d, PairLoop.pair0d1d, PairLoop.pair1d1d, PairLoop.pair2d0d, PairLoop.pair0d2d, PairLoop.pair2d2d, assert', h]
  · rintro (h | h)
    · simp [arith1d1d, PairLoop.pair1d0d, PairLoop.pair0d1d, PairLoop.pair1d1d, PairLoop.pair2d0d, PairLoop.pair0d2d, PairLoop.pair2d2d, assert', h]
    · by_cases h' : value1.length = value2.length <;> simp [arith1d1d, PairLoop.pair1d0d, PairLoop.pair0d1d, PairLoop.pair1d1d, PairLoop.pair2d0d, PairLoop.pair0d2d, PairLoop.pair2d2d, assert', h, h']
  · simp [arith2d0d, arith0d2d, PairLoop.pair1d0d, PairLoop.pair0d1d, PairLoop.pair1d1d, PairLoop.pair2d0d, PairLoop.pair0d2d, PairLoop.pair2d2d, hs _ _ h]
  · rintro (h | h)
    · simp [arith2d2d, PairLoop.pair1d0d, PairLoop.pair0d1d, PairLoop.pair1d1d, PairLoop.pair2d0d, PairLoop.pair0d2d, PairLoop.pair2d2d, hs _ _ h]
    · by_cases h' : vs1 = vs2
      · subst h'
        simp [arith2d2d, PairLoop.pair1d0d, PairLoop.pair0d1d, PairLoop.pair1d1d, PairLoop.pair2d0d, PairLoop.pair0d2d, PairLoop.pair2d2d, hs _ _ h]
      · simp [arith2d2d, PairLoop.pair1d0d, PairLoop.pair0d1d, PairLoop.pair1d1d, PairLoop.pair2d0d, PairLoop.pair0d2d, PairLoop.pair2d2d, hs _ _ h']

/-! ### Which results are numbers -/

/-- C118: a result is a number if the operands are and the exact result is not too large. The only other
case is division by infinity. -/
theorem C118_number {r : FltTy} {op : ArithOp} {a b z : Flt} (h : Result r op a b z) (hz : ¬ ByZero op b) :
    IsNumber z ↔ (∃ x y q, a = .fin x ∧ b = .fin y ∧ exact op x y = some q ∧ ¬ TooLarge r q) ∨
      (op = .divide ∧ IsNumber a ∧ IsInfinite b) := by
  obtain ⟨h1, h2⟩ := h
  by_cases hf : IsNumber a ∧ IsNumber b
  · obtain ⟨⟨x, rfl⟩, ⟨y, rfl⟩⟩ := hf
    obtain ⟨q, hq⟩ : ∃ q, exact op x y = some q := by
      cases op with
      | divide =>
        have : y ≠ 0 := fun h => hz ⟨rfl, by rw [h]⟩
        exact ⟨x / y, by simp [exact, this]⟩
      | _ => exact ⟨_, rfl⟩
    have hr := h1 x y q rfl rfl hq
    have hz' : IsNumber z ↔ ¬ TooLarge r q := by
      constructor
      · rintro ⟨w, rfl⟩ hl
        have := hr.1 hl
        split at this <;> cases this
      · intro hl
        obtain ⟨w, rfl, -⟩ := hr.2 hl
        exact ⟨w, rfl⟩
    rw [hz']
    constructor
    · exact fun hl => .inl ⟨x, y, q, rfl, rfl, hq, hl⟩
    · rintro (⟨x', y', q', e1, e2, hq', hl⟩ | ⟨-, -, hi⟩)
      · cases e1
        cases e2
        rw [hq] at hq'
        cases hq'
        exact hl
      · rcases hi with h | h <;> cases h
  · have hs := h2 hf
    have hsum : ∀ a b : Flt, ¬ (IsNumber a ∧ IsNumber b) → SpecialSum a b z → ¬ IsNumber z := by
      intro a b hf hs
      cases a <;> cases b <;> simp [SpecialSum, IsInfinite, opposite, IsNumber] at hf hs ⊢ <;> simp [hs]
    have hleft : ¬ ∃ x y q, a = .fin x ∧ b = .fin y ∧ exact op x y = some q ∧ ¬ TooLarge r q := by
      rintro ⟨x, y, q, rfl, rfl, -⟩
      exact hf ⟨⟨x, rfl⟩, ⟨y, rfl⟩⟩
    simp only [hleft, false_or]
    cases op with
    | add => simpa using hsum a b hf hs
    | subtract => simpa using hsum a (opposite b) (by rwa [finite_opposite]) hs
    | multiply =>
      simp only [reduceCtorEq, false_and, iff_false]
      cases a <;> cases b <;>
        simp [SpecialProduct, InfiniteSigned, Positive, Negative, IsNumber] at hf hs ⊢ <;>
        first
        | simp [hs]
        | (rename_i x
           rcases lt_trichotomy x 0 with h | h | h <;>
             simp_all [ne_of_lt, ne_of_gt])
    | divide =>
      simp only [true_and]
      cases a <;> cases b <;>
        simp [SpecialQuotient, InfiniteSigned, Positive, Negative, IsNumber, IsInfinite, ByZero] at hf hs hz ⊢ <;>
        first
        | simp [hs]
        | (rename_i x
           rcases lt_trichotomy x 0 with h | h | h <;>
             simp_all [ne_of_lt, ne_of_gt])

/-! ### What it means for the types -/

/-- C118: two arrays of floating point numbers are added, subtracted, multiplied and divided without failing
an assertion, if domain errors are detected. -/
theorem C118_floats_defined (op : ArithOp) (k : Checks) (hk : k.domain = true) {t1 t2 : NumTy}
    (hm : ¬ Mixed t1 t2) (in1 in2 : InPolicy Flt) (a1 a2 : Arg Flt) (n : Nat) :
    ¬ SomePair (Fails op k t1 t2) in1 in2 a1 a2 n := by
  rintro ⟨i, -, -, v1, v2, -, -, ⟨-, h⟩ | ⟨-, h, -⟩⟩
  · rw [hk] at h; cases h
  · exact hm h

/-- C118: arrays of floating point numbers of one type, with the operation's own policies. An element is
marked if one of its values is no-data or, for division, the divisor is zero. Numbers give the rounded exact
result; it is marked precisely if the exact result is too large. -/
theorem C118_floats (op : ArithOp) (t : FltTy) (in1 in2 : InPolicy Flt) (outp : OutPolicy Flt) (n1 n2 : Nat)
    (value1 value2 : List Flt) (res : List (Cell Flt))
    (hv1 : value1.length = n1 * n2) (hv2 : value2.length = n1 * n2) (hs : res.length = n1 * n2)
    (h1 : PolicyFor in1 (n1 * n2)) (h2 : PolicyFor in2 (n1 * n2))
    (o1 : ∀ v ∈ value1, OfType t.num v) (o2 : ∀ v ∈ value2, OfType t.num v) :
    Computes (arith2d2d op ⟨true, true⟩ t.num t.num t in1 in2 outp (n1, n2) value1 (n1, n2) value2 (n1, n2))
      (fun i c c' =>
        (NoDataAt in1 value1 i ∨ NoDataAt in2 value2 i → Marked outp c c') ∧
        (¬ (NoDataAt in1 value1 i ∨ NoDataAt in2 value2 i) →
          ∀ x y, value1[i]? = some (.fin x) → value2[i]? = some (.fin y) →
            (exact op x y = none → Marked outp c c') ∧
            ∀ q, exact op x y = some q → ∃ z, Rounded t q z ∧
              (¬ TooLarge t q → c' = ⟨z, c.masked⟩) ∧ (TooLarge t q → Marked outp ⟨z, c.masked⟩ c')))
      res := by
  have hm : ¬ Mixed t.num t.num := by
    rintro (⟨k, h⟩ | ⟨k, h⟩) <;> exact num_not_int t k h
  have hr : resultType t.num t.num = some t := by rw [resultType_floats, larger_self]
  obtain ⟨hg, -⟩ := C118_2d2d op ⟨true, true⟩ hr in1 in2 outp n1 n2 value1 value2 res hv1 hv2 hs h1 h2 o1 o2
  obtain ⟨out, ho, ⟨hl, he⟩, hp⟩ := hg (C118_floats_defined op _ rfl hm in1 in2 _ _ _)
  refine ⟨out, ho, ⟨hl, fun i c hc => ?_⟩, hp⟩
  obtain ⟨c', hc', hmk, hv⟩ := he i c hc
  refine ⟨c', hc', hmk, fun hn x y ex ey => ?_⟩
  obtain ⟨v1, v2, e1, e2, hz, hnz⟩ := hv hn
  have e1' : value1[i]? = some v1 := e1
  have e2' : value2[i]? = some v2 := e2
  rw [ex, Option.some.injEq] at e1'
  rw [ey, Option.some.injEq] at e2'
  subst e1' e2'
  have hx : Represents t.num x := o1 _ (List.mem_of_getElem? ex)
  have hy : Represents t.num y := o2 _ (List.mem_of_getElem? ey)
  have hby : ByZero op (.fin y) ↔ exact op x y = none := by
    cases op <;> simp [ByZero, exact]
  rw [hby] at hz hnz
  refine ⟨hz, fun q hq => ?_⟩
  obtain ⟨a, b, z, ha, hb, hres, hA, hB⟩ := hnz (by simp [hq])
  have hop : ∀ {x : Rat} {a : Flt}, Represents t.num x → Operand t (.fin x) a → a = .fin x := by
    rintro x a hx (⟨q, hq, h⟩ | ⟨h, -⟩)
    · cases hq
      rw [C95_determined t _ _ _ h (round_rounded t x), round_exact t hx]
    · exact absurd ⟨_, rfl⟩ h
  have ha := hop hx ha
  have hb := hop hy hb
  subst ha hb
  have hrd := hres.1 x y q rfl rfl hq
  have hnum := C118_number hres (by rw [hby]; simp [hq])
  have hnum : IsNumber z ↔ ¬ TooLarge t q := by
    rw [hnum]
    constructor
    · rintro (⟨x', y', q', e1, e2, hq', hl⟩ | ⟨-, -, h | h⟩)
      · cases e1
        cases e2
        rw [hq] at hq'
        cases hq'
        exact hl
      · cases h
      · cases h
    · exact fun h => .inl ⟨x, y, q, rfl, rfl, hq, h⟩
  have hacc : Accepted op ⟨true, true⟩ t.num t.num z ↔ ¬ TooLarge t q := by
    simp [Accepted, hm, hnum]
  exact ⟨z, hrd, fun h => hA (hacc.mpr h), fun h => hB (by rw [hacc]; exact not_not.mpr h)⟩

/-- C118: a difference of an integer array and an array of floating point numbers, with the range policy,
fails an assertion precisely if one of the valid floating point numbers is infinite or NaN. -/
theorem C118_mixed_difference (d : Bool) (i : IntTy) (t : FltTy) (v1 v2 : Flt) (o1 : OfType (.int i) v1) :
    (Fails .subtract ⟨d, true⟩ (.int i) t.num v1 v2 ↔ ¬ IsNumber v2) ∧
    (Fails .subtract ⟨d, true⟩ t.num (.int i) v2 v1 ↔ ¬ IsNumber v2) ∧
    ¬ Fails .subtract ⟨d, false⟩ (.int i) t.num v1 v2 := by
  have hn : IsNumber v1 := by
    cases v1 with
    | fin q => exact ⟨q, rfl⟩
    | _ => simp [OfType] at o1
  simp [Fails, ByZero, Mixed, hn]

/-- C118: a sum of an integer and infinity or NaN is stored as it is and is not marked. -/
theorem C118_mixed_sum (k : Checks) (i : IntTy) (t : FltTy) (outp : OutPolicy Flt) (v1 v2 : Flt)
    (o1 : OfType (.int i) v1) (h2 : ¬ IsNumber v2) (c c' : Cell Flt)
    (h : PairCell .add k (.int i) t.num t outp v1 v2 c c') : c' = ⟨v2, c.masked⟩ := by
  obtain ⟨a, b, z, ha, hb, ⟨-, hs⟩, hA, -⟩ := h.2 (by simp [ByZero])
  have hb2 : b = v2 := by
    rcases hb with ⟨q, rfl, -⟩ | ⟨-, rfl⟩
    · exact absurd ⟨q, rfl⟩ h2
    · rfl
  subst hb2
  obtain ⟨-, -, hi, -⟩ := operand_facts (r := t) (.inl ⟨i, rfl⟩) o1 ha
  obtain ⟨x, rfl, -⟩ := hi ⟨i, rfl⟩
  have hs := hs (fun h => h2 h.2)
  rw [hA (.inr (.inr ⟨rfl, .inl ⟨i, rfl⟩⟩))]
  congr 1
  cases b with
  | fin q => exact absurd ⟨q, rfl⟩ h2
  | _ => simpa [SpecialSum, IsInfinite, opposite] using hs

/-! ### Passing through the first value's type -/

/-- The values of `float` are values of `double`. -/
theorem float_in_double {q : Rat} (h : Represents FltTy.single.num q) : Represents FltTy.double.num q := by
  rw [represents_num] at h ⊢
  obtain ⟨m, e, h1, h2, h3, h4, h5⟩ := h
  simp only [FltTy.bits, FltTy.lo, FltTy.hi] at h1 h2 h3 h4 ⊢
  exact ⟨m, e, by omega, by omega, by omega, by omega, h5⟩

/-- C118: the same type, and `double` for `float` values, change nothing. -/
theorem C118_passed_wider (s t : FltTy) (hst : larger s t = s) (v w : Flt) (o : OfType t.num v) :
    Passed s.num t.num v w ↔ w = v := by
  have hr : resultType s.num t.num = some s := by rw [resultType_floats, hst]
  rw [← through_iff hr, through]
  cases v with
  | fin q =>
    have hq : Represents t.num q := o
    have hqs : Represents s.num q := by
      cases s <;> cases t <;> first | exact hq | exact float_in_double hq | simp [larger] at hst
    rw [castTo_num, round_exact s hqs, Option.bind_some, castTo_num, round_exact t hq]
    simp [eq_comm]
  | _ => rw [castTo_num_special _ s rfl, Option.bind_some, castTo_num_special _ t rfl]; simp [eq_comm]

/-- C118: `double` values that pass through `float` are rounded to it. -/
theorem C118_passed_narrower (q : Rat) (w : Flt) : 
    Passed FltTy.single.num FltTy.double.num (.fin q) w ↔ Rounded .single q w := by
  have hr : resultType FltTy.single.num FltTy.double.num = some .double := by rw [resultType_floats]; rfl
  rw [← through_iff hr, through, castTo_num, Option.bind_some]
  have key : castTo FltTy.single.num FltTy.double.num (FltTy.single.round q) = some (FltTy.single.round q) := by
    have hrd := round_rounded .single q
    by_cases hl : TooLarge .single q
    · have := hrd.1 hl
      rw [this]
      split <;> exact castTo_num_special _ _ rfl
    · obtain ⟨z, hz, hz1, -⟩ := hrd.2 hl
      rw [hz, castTo_num, round_exact .double (float_in_double hz1.1)]
  rw [key, Option.some.injEq]
  constructor
  · rintro rfl; exact round_rounded _ _
  · exact fun h => (C95_determined _ _ _ _ h (round_rounded _ _)).symm

/-- An integer is its own integer part. -/
theorem integerPart_int (m : Int) : IntegerPart (m : Rat) m := by
  constructor <;> intro <;> constructor <;> linarith

/-- The integer part is not further from zero. -/
theorem integerPart_abs {q : Rat} {n : Int} (h : IntegerPart q n) : |(n : Rat)| ≤ |q| := by
  rcases le_total 0 q with hq | hq
  · obtain ⟨h1, h2⟩ := h.1 hq
    have : (0 : Int) ≤ n := by
      have : (-1 : Rat) < n := by linarith
      have : (-1 : Int) < n := by exact_mod_cast this
      omega
    have : (0 : Rat) ≤ n := by exact_mod_cast this
    rwa [abs_of_nonneg this, abs_of_nonneg hq]
  · obtain ⟨h1, h2⟩ := h.2 hq
    have : n ≤ (0 : Int) := by
      have : (n : Rat) < 1 := by linarith
      have : n < (1 : Int) := by exact_mod_cast this
      omega
    have : (n : Rat) ≤ 0 := by exact_mod_cast this
    rw [abs_of_nonpos this, abs_of_nonpos hq]
    linarith

/-- The integer part of a floating point number is one. -/
theorem represents_integerPart {t : FltTy} {q : Rat} {n : Int} (h : Represents t.num q) (hn : IntegerPart q n) :
    Represents t.num (n : Rat) := by
  have h' := h
  rw [represents_num] at h' ⊢
  obtain ⟨m, e, hm1, hm2, he1, he2, k, ⟨rfl, rfl⟩ | ⟨rfl, hq⟩⟩ := h'
  · have hq : ((m : Rat) * 2 ^ k) = ((m * 2 ^ k : Int) : Rat) := by push_cast; rfl
    rw [hq] at hn
    rw [integerPart_unique hn (integerPart_int _), ← hq]
    exact ⟨m, k, hm1, hm2, he1, he2, k, .inl ⟨rfl, rfl⟩⟩
  · have h1 := integerPart_abs hn
    have h2 : |q| ≤ |(m : Rat)| := by
      rw [← hq, abs_mul]
      exact le_mul_of_one_le_right (abs_nonneg q) (by rw [abs_of_pos (by positivity)]; exact one_le_pow₀ (by norm_num))
    have h3 : |n| ≤ |m| := by exact_mod_cast h1.trans h2
    have h4 : |n| < 2 ^ t.bits := h3.trans_lt (abs_lt.mpr ⟨hm1, hm2⟩)
    obtain ⟨h5, h6⟩ := abs_lt.mp h4
    refine ⟨n, 0, h5, h6, ?_, ?_, 0, .inl ⟨rfl, by simp⟩⟩
    · cases t <;> decide
    · cases t <;> decide

/-- C118: floating point numbers that pass through an integer type lose their fraction; a value without
such an integer (NaN, infinite or too large) is undefined behaviour. -/
theorem C118_passed_integer (i : IntTy) (t : FltTy) (v w : Flt) (o : OfType t.num v) :
    Passed (.int i) t.num v w ↔ ∃ q n, v = .fin q ∧ IntegerPart q n ∧ Fits i n ∧ w = .fin n := by
  constructor
  · rintro ⟨u, ⟨i', q, n, hi, rfl, hn, hf, rfl⟩ | ⟨s, hs, -⟩, h2⟩
    · cases hi
      rcases h2 with ⟨i', -, -, h, -⟩ | ⟨t', ht, hu⟩
      · exact absurd h (num_not_int t i')
      · obtain rfl : t = t' := by cases t <;> cases t' <;> first | rfl | cases ht
        rcases hu with ⟨q', hq', hr⟩ | ⟨h, -⟩
        · cases hq'
          refine ⟨q, n, rfl, hn, hf, ?_⟩
          rw [C95_determined t _ _ _ hr (round_rounded t _), round_exact t (represents_integerPart o hn)]
        · exact absurd ⟨_, rfl⟩ h
    · exact absurd hs.symm (num_not_int s i)
  · rintro ⟨q, n, rfl, hn, hf, rfl⟩
    refine ⟨.fin n, .inl ⟨i, q, n, rfl, rfl, hn, hf, rfl⟩, .inr ⟨t, rfl, .inl ⟨n, rfl, ?_⟩⟩⟩
    have := round_rounded t (n : Rat)
    rwa [round_exact t (represents_integerPart o hn)] at this

/-- C118: integers that pass through a floating point type and are values of it do not change. -/
theorem C118_passed_float (t : FltTy) (i : IntTy) (n : Int) (hn : Fits i n) (hr : Represents t.num (n : Rat))
    (w : Flt) : Passed t.num (.int i) (.fin n) w ↔ w = .fin n := by
  have hty : resultType t.num (.int i) = some t := by cases t <;> rfl
  rw [← through_iff hty, through, castTo_num, round_exact t hr, Option.bind_some, cast_integer]
  constructor
  · rintro (⟨i', q, m, hi, hq, hm, -, rfl⟩ | ⟨s, hs, -⟩)
    · cases hq
      rw [integerPart_unique hm (integerPart_int n)]
    · exact absurd hs.symm (num_not_int s i)
  · rintro rfl
    exact .inl ⟨i, n, n, rfl, rfl, integerPart_int n, hn, rfl⟩

/-! ### Cases -/

/-- C118: in 1D a sum of an integer and a floating point number loses the fraction of the second one. In 2D,
and with the arguments exchanged, it doesn't. -/
theorem C118_fraction_lost :
    runSeq (arith1d1d .add ⟨true, true⟩ (.int .i32) .f64 .double .skip .skip .markMask [.fin 1] [.fin (1 / 2)] 1)
      [⟨.fin 0, false⟩] = some [⟨.fin 1, false⟩] ∧
    runSeq (arith1d1d .add ⟨true, true⟩ .f64 (.int .i32) .double .skip .skip .markMask [.fin (1 / 2)] [.fin 1] 1)
      [⟨.fin 0, false⟩] = some [⟨.fin (3 / 2), false⟩] ∧
    runSeq (arith2d2d .add ⟨true, true⟩ (.int .i32) .f64 .double .skip .skip .markMask (1, 1) [.fin 1] (1, 1)
      [.fin (1 / 2)] (1, 1)) [⟨.fin 0, false⟩] = some [⟨.fin (3 / 2), false⟩] := by
  decide +kernel

/-- C118: in 1D an integer divided by a half is marked: the divisor has become zero. -/
theorem C118_divisor_lost :
    runSeq (arith1d1d .divide ⟨true, true⟩ (.int .i32) .f64 .double .skip .skip .markMask [.fin 1]
      [.fin (1 / 2)] 1) [⟨.fin 7, false⟩] = some [⟨.fin 7, true⟩] ∧
    runSeq (arith2d2d .divide ⟨true, true⟩ (.int .i32) .f64 .double .skip .skip .markMask (1, 1) [.fin 1] (1, 1)
      [.fin (1 / 2)] (1, 1)) [⟨.fin 7, false⟩] = some [⟨.fin 2, false⟩] := by
  decide +kernel

/-- C118: in 1D an integer and a floating point number that is too large for the integer type, and a `float`
and the largest `int32_t`, are undefined behaviour. In 2D they are not. -/
theorem C118_conversion_undefined :
    runSeq (arith1d1d .add ⟨true, true⟩ (.int .u8) .f64 .double .skip .skip .markMask [.fin 1] [.fin 256] 1)
      [⟨.fin 0, false⟩] = none ∧
    runSeq (arith2d2d .add ⟨true, true⟩ (.int .u8) .f64 .double .skip .skip .markMask (1, 1) [.fin 1] (1, 1)
      [.fin 256] (1, 1)) [⟨.fin 0, false⟩] = some [⟨.fin 257, false⟩] ∧
    runSeq (arith1d1d .add ⟨true, true⟩ .f32 (.int .i32) .single .skip .skip .markMask [.fin 1]
      [.fin 2147483647] 1) [⟨.fin 0, false⟩] = none ∧
    runSeq (arith2d2d .add ⟨true, true⟩ .f32 (.int .i32) .single .skip .skip .markMask (1, 1) [.fin 1] (1, 1)
      [.fin 2147483647] (1, 1)) [⟨.fin 0, false⟩] = some [⟨.fin 2147483648, false⟩] := by
  decide +kernel

/-- C118: a difference of an integer and infinity fails, unless the element is no-data; a sum does not. -/
theorem C118_infinity :
    runSeq (arith2d2d .subtract ⟨true, true⟩ (.int .i32) .f64 .double .skip .skip .markMask (1, 1) [.fin 1] (1, 1)
      [.inf] (1, 1)) [⟨.fin 0, false⟩] = none ∧
    runSeq (arith2d2d .subtract ⟨true, true⟩ (.int .i32) .f64 .double (.byMask [1] 1) .skip .markMask (1, 1)
      [.fin 1] (1, 1) [.inf] (1, 1)) [⟨.fin 0, false⟩] = some [⟨.fin 0, true⟩] ∧
    runSeq (arith2d2d .add ⟨true, true⟩ (.int .i32) .f64 .double .skip .skip .markMask (1, 1) [.fin 1] (1, 1)
      [.inf] (1, 1)) [⟨.fin 0, false⟩] = some [⟨.inf, false⟩] ∧
    runSeq (arith2d2d .add ⟨true, true⟩ .f64 .f64 .double .skip .skip .markMask (1, 1) [.fin 1] (1, 1)
      [.inf] (1, 1)) [⟨.fin 0, false⟩] = some [⟨.inf, true⟩] := by
  decide +kernel

/-- Two arrays of `float`: 16777216 + 1 is rounded, 3e38 + 3e38 is marked, the third pair is no-data. -/
example : runSeq (arith2d2d .add ⟨true, true⟩ .f32 .f32 .single (.byMask [0, 0, 1] 1) .skip .markMask (1, 3)
    [.fin 16777216, .fin (2 ^ 127), .fin 1] (1, 3) [.fin 1, .fin (2 ^ 127), .fin 1] (1, 3))
    [⟨.fin 0, false⟩, ⟨.fin 0, false⟩, ⟨.fin 5, false⟩] =
    some [⟨.fin 16777216, false⟩, ⟨.inf, true⟩, ⟨.fin 5, true⟩] := by decide +kernel

/-- The hypotheses of `C118_2d2d` and `C118_floats` in this case. -/
example : resultType .f32 .f32 = some .single ∧ PolicyFor (V := Flt) (.byMask [0, 0, 1] 1) (1 * 3) ∧
    (∀ v ∈ [Flt.fin 16777216, .fin 1], OfType .f32 v) := by
  refine ⟨rfl, by simp [PolicyFor], ?_⟩
  simp only [List.mem_cons, List.not_mem_nil, or_false]
  rintro v (rfl | rfl)
  · exact ⟨1, 24, by norm_num, by norm_num, by norm_num, by norm_num, 24, .inl ⟨by norm_num, by norm_num⟩⟩
  · exact ⟨1, 0, by norm_num, by norm_num, by norm_num, by norm_num, 0, .inl ⟨by norm_num, by norm_num⟩⟩

/-- A `double` in 1D with a `float` first: 16777217 is rounded before it is added. -/
example : runSeq (arith1d1d .add ⟨true, true⟩ .f32 .f64 .double .skip .skip .markMask [.fin 0] [.fin 16777217] 1)
      [⟨.fin 0, false⟩] = some [⟨.fin 16777216, false⟩] ∧
    runSeq (arith1d1d .add ⟨true, true⟩ .f64 .f32 .double .skip .skip .markMask [.fin 16777217] [.fin 0] 1)
      [⟨.fin 0, false⟩] = some [⟨.fin 16777217, false⟩] := by decide +kernel

/-- Dividing zero by infinity, and by zero without the policy. -/
example : runSeq (arith2d0d .divide ⟨true, true⟩ .f64 .f64 .double .skip .skip .markMask (1, 1) [.fin 1] .inf
      (1, 1)) [⟨.fin 7, false⟩] = some [⟨.fin 0, false⟩] ∧
    runSeq (arith2d0d .divide ⟨false, true⟩ .f64 .f64 .double .skip .skip .markMask (1, 1) [.fin 1] (.fin 0)
      (1, 1)) [⟨.fin 7, false⟩] = none := by decide +kernel

end Fern.FloatRaster
