import Verif.Lemmas.IntRaster
import Verif.Props.Domains
import Verif.Spec.IntUnary
namespace Fern.IntUnary

open IntTy Fern.Spec
open _root_.Fern.IntRaster (Checks computesUnless_d1 computesUnless_d2)
open _root_.Fern.IntRaster.Spec (ComputesUnless)
open _root_.Fern.IntUnary.Spec

/-- The operation does to single values of the type what it should. -/
def Right (op : PartialOp Int Int) (k : Checks) (outp : OutPolicy Int) (t : IntTy) (m : Meaning) : Prop :=
  ∀ v, Fits t v →
    (m.undefined v → valueActs op k outp v = none) ∧
    (¬ m.undefined v → ∃ fs, valueActs op k outp v = some fs ∧ ∀ c, m.cell v c (foldActs fs c))

variable {op : PartialOp Int Int} {k : Checks} {outp : OutPolicy Int} {t : IntTy} {m : Meaning}
  {inp : InPolicy Int}

theorem body_spec (h : Right op k outp t m) {value : List Int} {n : Nat} (hn : value.length = n)
    (hp : PolicyFor inp n) (ho : ∀ v ∈ value, Fits t v) :
    (¬ Bad m inp value → ActsOk (bodyActs op k inp outp value) (RasterCell m inp outp value) n) ∧
    (Bad m inp value → ∃ i < n, bodyActs op k inp outp value i = none) := by
  constructor
  · intro hb i hi
    obtain ⟨b, hb1, hnd⟩ := isNoData_spec hp hn hi
    have hi' : i < value.length := by omega
    have hv : value[i]? = some value[i] := by simp [hi']
    cases b with
    | true =>
      exact ⟨[outp.mark], by simp [bodyActs, hb1],
        fun c => ⟨fun _ => mark_spec outp c, fun h => absurd (hnd.mp rfl) h⟩⟩
    | false =>
      have hd : ¬ NoDataAt inp value i := by simpa using hnd.not.mp (by simp)
      obtain ⟨fs, hfs, hc⟩ := (h _ (ho _ (List.getElem_mem hi'))).2 fun hu => hb ⟨i, _, hv, hd, hu⟩
      exact ⟨fs, by simp [bodyActs, hb1, hv, hfs],
        fun c => ⟨fun h => absurd h hd, fun _ => ⟨_, hv, hc c⟩⟩⟩
  · rintro ⟨i, v, hv, hd, hu⟩
    have hi : i < n := by
      have := (List.getElem?_eq_some_iff.1 hv).1
      omega
    obtain ⟨b, hb1, hnd⟩ := isNoData_spec hp hn hi
    cases b with
    | true => exact absurd (hnd.mp rfl) hd
    | false =>
      refine ⟨i, hi, ?_⟩
      simp [bodyActs, hb1, hv, (h v (ho v (List.mem_of_getElem? hv))).1 hu]

theorem apply0d_spec (h : Right op k outp t m) {v : Int} (hv : Fits t v) (hp : PolicyFor inp 1) :
    Does0d m inp outp (apply0d op k inp outp) v := by
  intro c
  obtain ⟨b, hb, hnd⟩ := isNoData0_spec (v := v) hp
  cases b with
  | true =>
    have hd : NoDataAt inp [v] 0 := hnd.mp rfl
    refine ⟨by simp [apply0d, run0d, hb, hd], fun c' hc' => ?_⟩
    simp only [apply0d, run0d, hb, Option.bind_eq_bind, Option.bind_some, if_true, Option.some.injEq] at hc'
    subst hc'
    exact ⟨fun _ => mark_spec outp c, fun h => absurd hd h⟩
  | false =>
    have hd : ¬ NoDataAt inp [v] 0 := by simpa using hnd.not.mp (by simp)
    have e : apply0d op k inp outp v c = run0d (valueActs op k outp v) c := by simp [apply0d, hb]
    rw [e]
    by_cases hu : m.undefined v
    · have := (h v hv).1 hu
      simp [this, run0d, hd, hu]
    · obtain ⟨fs, hfs, hc⟩ := (h v hv).2 hu
      refine ⟨by simp [hfs, run0d, hu], fun c' hc' => ?_⟩
      simp only [hfs, run0d, Option.bind_eq_bind, Option.bind_some, Option.some.injEq] at hc'
      subst hc'
      exact ⟨fun h => absurd h hd, fun _ => ⟨v, rfl, hc c⟩⟩

theorem apply1d_spec (h : Right op k outp t m) {value : List Int} {res : List (Cell Int)}
    (hs : res.length = value.length) (hp : PolicyFor inp value.length) (ho : ∀ v ∈ value, Fits t v) :
    ComputesUnless (Bad m inp value) (apply1d op k inp outp value res.length)
      (RasterCell m inp outp value) res := by
  have e : apply1d op k inp outp value res.length =
      some (.d1 value.length (bodyActs op k inp outp value)) := by simp [apply1d, assert', hs]
  rw [e]
  obtain ⟨a, b⟩ := body_spec h rfl hp ho
  exact computesUnless_d1 hs a b

theorem apply2d_spec (h : Right op k outp t m) {n1 n2 : Nat} {value : List Int} {res : List (Cell Int)}
    (hv : value.length = n1 * n2) (hs : res.length = n1 * n2) (hp : PolicyFor inp (n1 * n2))
    (ho : ∀ v ∈ value, Fits t v) :
    ComputesUnless (Bad m inp value) (apply2d op k inp outp (n1, n2) value (n1, n2))
      (RasterCell m inp outp value) res := by
  have e : apply2d op k inp outp (n1, n2) value (n1, n2) =
      some (.d2 n1 n2 n2 (bodyActs op k inp outp value)) := by simp [apply2d, assertSame, assert']
  rw [e]
  obtain ⟨a, b⟩ := body_spec h hv hp ho
  exact computesUnless_d2 hs a b

/-! ### Absolute values -/

theorem fits_abs {t : IntTy} {v : Int} (hs : Signed t) (hv : Fits t v) : Fits t |v| ↔ Fits t (-v) := by
  rcases abs_cases v with ⟨h1, h2⟩ | ⟨h1, h2⟩ <;> rw [h1]
  rcases hs with rfl | rfl | rfl | rfl <;> simp only [Fits] at * <;> omega

theorem absolute_narrow {t : IntTy} {v : Int} (hs : Signed t) (hn : Narrow t) (hv : Fits t v)
    (hf : ¬ Fits t (-v)) : absElem t v = some ⟨v, false⟩ := by
  rcases hs with rfl | rfl | rfl | rfl
  · have : v = -128 := by simp only [Fits] at *; omega
    subst this
    decide
  · have : v = -32768 := by simp only [Fits] at *; omega
    subst this
    decide
  · simp [Narrow] at hn
  · simp [Narrow] at hn

theorem absolute_right (k : Checks) (t : IntTy) (outp : OutPolicy Int) :
    Right (absOp t) k outp t (absolute k t outp) := by
  intro v hv
  have act : ∀ x : Int, ∀ w : Bool, absElem t v = some ⟨x, w⟩ →
      valueActs (absOp t) k outp v =
        some [storeAct x, fun c => if (if k.range then w else true) then c else outp.mark c] := by
    intro x w e
    have ew : (if t.signed then cNe t t v t.min else true) = w := by
      unfold absElem at e
      cases hs : t.signed
      · simp [hs] at e ⊢
        exact e.2
      · rw [if_pos hs] at e
        simp only [Option.bind_eq_bind] at e
        split at e
        · rw [Option.bind_eq_some_iff] at e
          obtain ⟨_, _, e⟩ := e
          rw [Option.some.injEq, Outcome.mk.injEq] at e
          simpa using e.2
        · rw [Option.bind_some, Option.some.injEq, Outcome.mk.injEq] at e
          simpa using e.2
    have ec : (absOp t).compute v = some x := by simp [absOp, e]
    have er : (absOp t).withinRange v x = some w := by simp only [absOp, ew]
    have ed : (absOp t).withinDomain v = true := rfl
    cases hk : k.range <;> simp [valueActs, ec, er, ed, hk]
  by_cases hs : Signed t
  · obtain ⟨h1, -, h3⟩ := C32_absolute t hs v hv
    rw [← fits_abs hs hv] at h1 h3
    have hw : ¬ Narrow t ↔ t = i32 ∨ t = i64 := by
      rcases hs with rfl | rfl | rfl | rfl <;> simp [Narrow]
    refine ⟨fun ⟨hu, hf⟩ => ?_, fun hu => ?_⟩
    · simp [valueActs, absOp, h3 hf (hw.mpr hu)]
    · by_cases hf : Fits t |v|
      · refine ⟨_, act _ _ (h1 hf), fun c => ⟨fun _ => ?_, fun h => absurd hf h⟩⟩
        simp [foldActs, storeAct]
      · have hn : Narrow t := by
          by_contra hn
          exact hu ⟨hw.mp hn, hf⟩
        refine ⟨_, act _ _ (absolute_narrow hs hn hv (by rwa [fits_abs hs hv] at hf)),
          fun c => ⟨fun h => absurd h hf, fun _ => ?_⟩⟩
        cases hk : k.range
        · simp [foldActs, storeAct]
        · simpa [foldActs, storeAct] using mark_spec outp ⟨v, c.masked⟩
  · have hu : Unsigned t := by
      rw [unsigned_iff]
      rw [signed_iff] at hs
      simpa using hs
    have h0 : |v| = v := abs_of_nonneg (fits_nonneg ((unsigned_iff _).mp hu) hv)
    refine ⟨fun ⟨_, hf⟩ => absurd (by rwa [h0]) hf, fun _ => ?_⟩
    refine ⟨_, act _ _ (C32_absolute_unsigned t hu v hv), fun c => ⟨fun _ => ?_, fun h => absurd (by rwa [h0]) h⟩⟩
    simp [foldActs, storeAct, h0]

/-! ### Factorials -/

theorem fits_natural {t : IntTy} {n : Nat} : Fits t n ↔ (n : Int) ≤ t.max := by
  cases t <;> simp [Fits, IntTy.max, IntTy.bits, IntTy.signed]

theorem below_zero {gamma : Int → Domains.Flt} (hg : Gamma gamma) {t : IntTy} {v : Int} (hv : Fits t v)
    (h : v < 0) : Domains.factorialValue gamma t v = none := by
  have e : IntTy.arith (IntTy.common t t) (v + 1) = some (v + 1) := by
    cases t <;> simp only [Fits] at hv <;>
      simp [IntTy.arith, IntTy.common, IntTy.convert, IntTy.promote, IntTy.bits, IntTy.signed, IntTy.max,
        IntTy.min, IntTy.wrap] <;> omega
  rw [Domains.factorialValue, e, Option.bind_some]
  rcases Int.lt_or_eq_of_le (show v + 1 ≤ 0 by omega) with h' | h'
  · rw [hg.negative _ h']
    rfl
  · rw [h', hg.zero]
    rfl

theorem too_large {gamma : Int → Domains.Flt} (hg : Domains.Spec.Accurate gamma) {t : IntTy} {n : Nat}
    (hv : (n : Int) ≤ t.max) (h : t.max < n.factorial) : Domains.factorialValue gamma t n = none := by
  rw [Domains.factorialValue, Domains.add_one t t (Or.inl rfl) n (by omega) hv]
  have hz : Domains.toInteger t (Domains.round (gamma (n + 1))) = none := by
    rcases Domains.gamma_cases hg n with ⟨_, h2⟩ | ⟨_, h2 | ⟨z, h2, h3⟩⟩
    · rw [h2, Domains.toInteger, Domains.truncRat_int, if_neg (by omega)]
    · rw [h2]
      rfl
    · have := Domains.max_le t
      rw [h2, Domains.toInteger, Domains.truncRat_int, if_neg (by omega)]
  split
  · split
    · rfl
    · rw [Option.bind_some, hg.zero]
      rfl
  · rw [Option.bind_some, hz]

theorem factorial_right {gamma : Int → Domains.Flt} (hg : Gamma gamma) (k : Checks) (t : IntTy)
    (outp : OutPolicy Int) : Right (factorialOp gamma t) k outp t (factorial k t outp) := by
  intro v hv
  have hm : v ≤ t.max := by
    cases t <;> simp [Fits, IntTy.max, IntTy.bits, IntTy.signed] at * <;> omega
  obtain ⟨-, h2, -⟩ := Domains.C85_factorial hg.toAccurate t v hm
  by_cases h0 : v < 0
  · have hd : Domains.factorialDomain v = false := by simpa [Domains.factorialDomain] using h0
    refine ⟨fun hu => ?_, fun hu => ?_⟩
    · rcases hu with ⟨_, hk⟩ | ⟨n, rfl, _⟩
      · simp [valueActs, hk, factorialOp, below_zero hg hv h0]
      · omega
    · have hk : k.domain = true := by
        by_contra hk
        exact hu (.inl ⟨h0, by simpa using hk⟩)
      refine ⟨[outp.mark], by simp [valueActs, hk, factorialOp, hd], fun c => ⟨fun _ => mark_spec outp c, ?_⟩⟩
      rintro n rfl
      omega
  · obtain ⟨n, rfl⟩ : ∃ n : Nat, v = n := ⟨v.toNat, by omega⟩
    have hd : Domains.factorialDomain (n : Int) = true := by simp [Domains.factorialDomain]
    refine ⟨fun hu => ?_, fun hu => ?_⟩
    · rcases hu with ⟨h, _⟩ | ⟨m, hm', hf⟩
      · omega
      · rw [fits_natural] at hf
        obtain rfl : n = m := by omega
        simp [valueActs, factorialOp, hd, too_large hg.toAccurate hm (by omega)]
    · have hf : (n.factorial : Int) ≤ t.max := by
        by_contra hf
        exact hu (.inr ⟨n, rfl, fun h => hf (fits_natural.mp h)⟩)
      have := h2 n rfl hf
      simp only [Domains.factorialCell, hd, Bool.not_true, Bool.false_eq_true, if_false,
        Option.bind_eq_some_iff, Option.map_eq_some_iff] at this
      obtain ⟨x, hx, b, hb, e⟩ := this
      have hb' : b = true ∧ x = n.factorial := by cases b <;> simp_all
      obtain ⟨rfl, rfl⟩ := hb'
      refine ⟨[storeAct (n.factorial : Int), fun c => if true then c else outp.mark c], ?_, fun c => ⟨fun h => by omega, ?_⟩⟩
      · cases hk : k.range <;> simp [valueActs, factorialOp, hd, hx, hb, hk]
      · intro n' hn'
        obtain rfl : n = n' := by omega
        simp [foldActs, storeAct]

end Fern.IntUnary
