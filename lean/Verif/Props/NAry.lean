import Verif.Lemmas.NAry
import Verif.Props.LocalOps
import Verif.Lemmas.AggregateSum
import Verif.Lemmas.Mean
/-
Property C13: n-ary local operations.
-/
namespace Fern

open Spec

variable {V : Type}

/-- C13, what holds of the code: with the no-data policies `in1`, `in2` of the first two arguments
(`rest`: the others), per element
* no-data in v1 or v2 marks the element,
* without it, and if all steps are within domain and range, the value is `f(..f(f(v1, v2), v3).., vn)`,
* when marking by mask, a step that is out of domain or range marks the element.
No-data of v3 .. vn is not covered, the code ignores it (see `C13_nAry_noData_false`). `hafter`: it makes no difference to
the range check whether its first argument is the previous result or the new one, which has overwritten it (see
`C13_nAry_overflow_false`). -/
theorem C13_nAry_steps (op : LocalOp (V × V) V) (outp : OutPolicy V) (in1 in2 : InPolicy V)
    (rest : List (InPolicy V)) (value1 value2 : List V) (values : List (List V))
    (result : List (Cell V))
    (hv1 : value1.length = result.length) (hp1 : PolicyFor in1 result.length)
    (hv2 : value2.length = result.length) (hp2 : PolicyFor in2 result.length)
    (hv : ∀ v ∈ values, v.length = result.length)
    (hafter : ∀ r v, op.withinRange (op.compute (r, v), v) (op.compute (r, v)) =
      op.withinRange (r, v) (op.compute (r, v))) :
    ∃ out, nAry op (in1 :: in2 :: rest) outp result value1 value2 values = some out ∧
      Elementwise (fun i c c' => ∀ a b vs, value1[i]? = some a → value2[i]? = some b →
          values.map (·[i]?) = vs.map some →
        ((NoDataAt in1 value1 i ∨ NoDataAt in2 value2 i) → Marked outp c c') ∧
        (¬ (NoDataAt in1 value1 i ∨ NoDataAt in2 value2 i) → NAryOk op a b vs →
          c' = ⟨nAryValue op a b vs, c.masked⟩) ∧
        (¬ (NoDataAt in1 value1 i ∨ NoDataAt in2 value2 i) → ¬ NAryOk op a b vs →
          outp = .markMask → c'.masked = true)) result out := by
  obtain ⟨mid, hm, hl, he⟩ := C10_binary_1d1d_converted op id in1 in2 outp value1 value2 result
    hv1 hv2 hp1 hp2
  rw [← hl] at hv1 hp1 hv2 hp2 hv
  obtain ⟨out, ho, hl', he'⟩ := nArySteps_spec op outp values hv1 hp1 hv2 hp2 hv
  refine ⟨out, by simp [nAry, hm, ho], hl'.trans hl, fun i c hc => ?_⟩
  obtain ⟨d, hd, h⟩ := he i c hc
  obtain ⟨e, hee, h'⟩ := he' i d hd
  refine ⟨e, hee, fun a b vs ha hb hvs => ?_⟩
  have h1 := h a b ha hb
  have h2 := h' vs hvs
  refine ⟨fun hn => ?_, fun hn hok => ?_, fun hn hno hmask => ?_⟩
  · rcases h2.noData hn with ⟨_, rfl⟩ | hm
    · exact h1.noData hn
    · exact marked_trans (h1.noData hn) hm
  · have hs : StepOk op a b := by
      cases vs with
      | nil => exact hok
      | cons => exact hok.1
    have hd : d = ⟨op.compute (a, b), c.masked⟩ := h1.ok hn hs.1 hs.2
    have := h2.ok hn (by
      rintro w ws rfl
      rw [hd]
      exact (nAryOk_aliased hafter _ _ _).2 hok.2)
    rw [this, hd]
    rfl
  · subst hmask
    by_cases hs : StepOk op a b
    · have hd : d = ⟨op.compute (a, b), c.masked⟩ := h1.ok hn hs.1 hs.2
      cases vs with
      | nil => exact absurd hs hno
      | cons w ws =>
        refine h2.notOk hn rfl w ws rfl ?_
        rw [hd]
        exact fun hk => hno ⟨hs, (nAryOk_aliased hafter _ _ _).1 hk⟩
    · exact h2.masked (localCell_notOk h1 hn hs)

/-- C13, the full claim about no-data under the condition that the code needs: if no-data in v3 .. vn
(policies `rest`) only occurs where v1 or v2 has it, then, when marking by mask, an element ends up
masked iff it was masked before, or some argument is no-data there, or a step is out of domain or
range. -/
theorem C13_nAry_masked (op : LocalOp (V × V) V) (in1 in2 : InPolicy V) (rest : List (InPolicy V))
    (value1 value2 : List V) (values : List (List V)) (result : List (Cell V))
    (hv1 : value1.length = result.length) (hp1 : PolicyFor in1 result.length)
    (hv2 : value2.length = result.length) (hp2 : PolicyFor in2 result.length)
    (hv : ∀ v ∈ values, v.length = result.length)
    (hrest : ∀ (k : Nat) (p : InPolicy V) (v : List V) (i : Nat), rest[k]? = some p →
      values[k]? = some v → NoDataAt p v i → NoDataAt in1 value1 i ∨ NoDataAt in2 value2 i)
    (hafter : ∀ r v, op.withinRange (op.compute (r, v), v) (op.compute (r, v)) =
      op.withinRange (r, v) (op.compute (r, v))) :
    ∃ out, nAry op (in1 :: in2 :: rest) .markMask result value1 value2 values = some out ∧
      Elementwise (fun i c c' => ∀ a b vs, value1[i]? = some a → value2[i]? = some b →
          values.map (·[i]?) = vs.map some →
        (c'.masked = true ↔ c.masked = true ∨
          (∃ (k : Nat) (p : InPolicy V) (v : List V), (in1 :: in2 :: rest)[k]? = some p ∧
            (value1 :: value2 :: values)[k]? = some v ∧ NoDataAt p v i) ∨
          ¬ NAryOk op a b vs)) result out := by
  obtain ⟨out, ho, hl, he⟩ := C13_nAry_steps op .markMask in1 in2 rest value1 value2 values result
    hv1 hp1 hv2 hp2 hv hafter
  refine ⟨out, ho, hl, fun i c hc => ?_⟩
  obtain ⟨c', hc', h⟩ := he i c hc
  refine ⟨c', hc', fun a b vs ha hb hvs => ?_⟩
  obtain ⟨h1, h2, h3⟩ := h a b vs ha hb hvs
  have hiff : (∃ (k : Nat) (p : InPolicy V) (v : List V), (in1 :: in2 :: rest)[k]? = some p ∧
      (value1 :: value2 :: values)[k]? = some v ∧ NoDataAt p v i) ↔
      (NoDataAt in1 value1 i ∨ NoDataAt in2 value2 i) := by
    constructor
    · rintro ⟨k, p, v, hp, hv, hn⟩
      match k with
      | 0 => simp at hp hv; subst hp hv; exact .inl hn
      | 1 => simp at hp hv; subst hp hv; exact .inr hn
      | k + 2 => exact hrest k p v i (by simpa using hp) (by simpa using hv) hn
    · rintro (hn | hn)
      · exact ⟨0, in1, value1, rfl, rfl, hn⟩
      · exact ⟨1, in2, value2, rfl, rfl, hn⟩
  rw [hiff]
  by_cases hn : NoDataAt in1 value1 i ∨ NoDataAt in2 value2 i
  · simp [hn, (h1 hn).2]
  · by_cases hok : NAryOk op a b vs
    · simp [hn, hok, h2 hn hok]
    · simp [hn, hok, h3 hn hok rfl]

theorem wrap_eq_add (t : IntTy) (v : Int) : ∃ k : Int, t.wrap v = v + k * 2 ^ t.bits := by
  unfold IntTy.wrap
  split
  · refine ⟨-((v + 2 ^ (t.bits - 1)) / 2 ^ t.bits), ?_⟩
    have := Int.emod_def (v + 2 ^ (t.bits - 1)) (2 ^ t.bits)
    rw [this, Int.neg_mul, Int.mul_comm (2 ^ t.bits)]
    omega
  · refine ⟨-(v / 2 ^ t.bits), ?_⟩
    rw [Int.emod_def, Int.neg_mul, Int.mul_comm (2 ^ t.bits)]
    omega

theorem addRange_result {t : IntTy} {v x : Int} (hx : Fits t x) (hv : Fits t v) :
    addRange t t t x v x = true := by
  cases hs : t.signed
  · rw [addRange_uu hs hs hs hx hx]; simp
  · rw [addRange_ss hs hs hs hx hx hv]; simp

theorem nAryOk_add {t : IntTy} (ht : Wraps t) (vs : List Int) : ∀ a b, Fits t a → Fits t b →
    (∀ v ∈ vs, Fits t v) → NAryOk ((addOp t t t).aliased true false) a b vs := by
  have step : ∀ a b, Fits t a → Fits t b → StepOk ((addOp t t t).aliased true false) a b ∧
      Fits t ((addOp t t t).compute (a, b)) := fun a b ha hb => by
    have hc : (addOp t t t).compute (a, b) = t.wrap (a + b) := by
      simp [addOp, addCompute_wraps ht ha hb]
    have hf : Fits t ((addOp t t t).compute (a, b)) := by rw [hc]; exact fits_wrap _ _
    refine ⟨⟨rfl, ?_⟩, hf⟩
    exact addRange_result hf hb
  induction vs with
  | nil => exact fun a b ha hb _ => (step a b ha hb).1
  | cons v vs ih =>
    intro a b ha hb hv
    exact ⟨(step a b ha hb).1, ih _ v (step a b ha hb).2 (hv v (by simp)) fun w hw => hv w (by simp [hw])⟩

theorem foldl_add {t : IntTy} (ht : Wraps t) (vs : List Int) : ∀ x y, x = t.wrap y → (∀ v ∈ vs, Fits t v) →
    vs.foldl (fun x v => ((addOp t t t).aliased true false).compute (x, v)) x = t.wrap (y + vs.sum) := by
  induction vs with
  | nil => intro x y hx _; simpa using hx
  | cons v vs ih =>
    intro x y hx hv
    rw [List.foldl_cons, ih _ (y + v) ?_ fun w hw => hv w (by simp [hw])]
    · rw [List.sum_cons]; congr 1; omega
    · show (addOp t t t).compute (x, v) = _
      subst hx
      simp only [addOp, addCompute_wraps ht (fits_wrap _ _) (hv v (by simp)), Option.getD_some]
      exact wrap_add_wrap t y v

/-- C13, sums of three and more numbers of a type in which sums wrap (unsigned types and those of 8 and 16 bits): the
value is the sum modulo the size of the type, and only the sum of the first two is checked: it alone decides whether the
element is masked. -/
theorem C13_nAry_add (t : IntTy) (ht : Unsigned t ∨ Narrow t) (in1 in2 : InPolicy Int)
    (rest : List (InPolicy Int)) (value1 value2 : List Int) (values : List (List Int))
    (result : List (Cell Int))
    (hv1 : value1.length = result.length) (hp1 : PolicyFor in1 result.length)
    (hv2 : value2.length = result.length) (hp2 : PolicyFor in2 result.length)
    (hv : ∀ v ∈ values, v.length = result.length)
    (hf1 : ∀ v ∈ value1, Fits t v) (hf2 : ∀ v ∈ value2, Fits t v)
    (hf : ∀ l ∈ values, ∀ v ∈ l, Fits t v) :
    ∃ out, nAry (addOp t t t) (in1 :: in2 :: rest) .markMask result value1 value2 values = some out ∧
      Elementwise (fun i c c' => ∀ (a b : Int) (vs : List Int), value1[i]? = some a → value2[i]? = some b →
          values.map (·[i]?) = vs.map some → ¬ (NoDataAt in1 value1 i ∨ NoDataAt in2 value2 i) →
        Fits t c'.val ∧ (∃ k : Int, c'.val = a + b + vs.sum + k * 2 ^ t.bits) ∧
        (c'.masked = true ↔ c.masked = true ∨ ¬ Fits t (a + b))) result out := by
  obtain ⟨mid, hm, hl, he⟩ := C10_binary_1d1d_converted (addOp t t t) id in1 in2 .markMask value1 value2 result
    hv1 hv2 hp1 hp2
  rw [← hl] at hv1 hp1 hv2 hp2 hv
  obtain ⟨out, ho, hl', he'⟩ := nArySteps_spec (addOp t t t) .markMask values hv1 hp1 hv2 hp2 hv
  refine ⟨out, by simp [nAry, hm, ho], hl'.trans hl, fun i c hc => ?_⟩
  obtain ⟨d, hd, h⟩ := he i c hc
  obtain ⟨e, hee, h'⟩ := he' i d hd
  refine ⟨e, hee, fun a b vs ha hb hvs hn => ?_⟩
  have h1 := h a b ha hb
  have h2 := h' vs hvs
  have fa := hf1 _ (List.mem_of_getElem? ha)
  have fb := hf2 _ (List.mem_of_getElem? hb)
  have fvs : ∀ v ∈ vs, Fits t v := by
    intro v hvm
    have : some v ∈ values.map (·[i]?) := by rw [hvs]; exact List.mem_map_of_mem hvm
    obtain ⟨l, hlm, hlv⟩ := List.mem_map.1 this
    exact hf l hlm v (List.mem_of_getElem? hlv)
  have hcomp : (addOp t t t).compute (a, b) = t.wrap (a + b) := by
    simp [addOp, addCompute_wraps ht fa fb]
  have hrange : (addOp t t t).withinRange (a, b) ((addOp t t t).compute (a, b)) = decide (Fits t (a + b)) := by
    rw [hcomp]; exact addRange_self ht fa fb
  have hdv : d.val = t.wrap (a + b) ∧ (d.masked = true ↔ c.masked = true ∨ ¬ Fits t (a + b)) := by
    by_cases hfit : Fits t (a + b)
    · have := h1.ok hn rfl (hrange.trans (by simpa using hfit))
      have hd : d = ⟨(addOp t t t).compute (a, b), c.masked⟩ := this
      rw [hd]
      exact ⟨hcomp, by simp [hfit]⟩
    · have := h1.outOfRange hn rfl (hrange.trans (by simpa using hfit))
      exact ⟨this.1.trans hcomp, by simp [this.2, hfit]⟩
  have hok := h2.ok hn (by
    rintro w ws rfl
    exact nAryOk_add ht ws _ _ (by rw [hdv.1]; exact fits_wrap _ _) (fvs w (by simp)) fun v hv => fvs v (by simp [hv]))
  rw [foldl_add ht vs _ (a + b) hdv.1 fvs] at hok
  rw [hok]
  refine ⟨fits_wrap _ _, ?_, hdv.2⟩
  obtain ⟨k, hk⟩ := wrap_eq_add t (a + b + vs.sum)
  exact ⟨k, hk⟩

/-- C13 is false in general: an overflow in the sum of three numbers goes unnoticed, that of the first two does not. -/
theorem C13_nAry_overflow_false :
    nAry (addOp .u8 .u8 .u8) [.skip, .skip, .skip] .markMask [⟨0, false⟩] [100] [100] [[100]] =
      some [⟨44, false⟩] ∧ ¬ NAryOk (addOp .u8 .u8 .u8) 100 100 [100] ∧
    nAry (addOp .u8 .u8 .u8) [.skip, .skip] .markMask [⟨0, false⟩] [200] [100] [] = some [⟨44, true⟩] := by
  refine ⟨by decide +kernel, ?_, by decide +kernel⟩
  rintro ⟨_, _, h⟩
  revert h
  decide +kernel

/-- Addition with an upper bound. -/
def addUpTo (m : Int) : LocalOp (Int × Int) Int :=
  ⟨fun _ => true, fun p => p.1 + p.2, fun _ r => decide (r ≤ m)⟩

/-- C13 is false in general: no-data in the third argument goes unnoticed. -/
theorem C13_nAry_noData_false :
    nAry (addUpTo 100) [.byMask [0] 1, .byMask [0] 1, .byMask [1] 1] .markMask [⟨0, false⟩]
      [1] [2] [[3]] = some [⟨6, false⟩] ∧ NoDataAt (V := Int) (.byMask [1] 1) [3] 0 := by
  constructor <;> rfl

/-- Also, when no-data is marked by value, an out-of-range intermediate result is overwritten by a
later step, so the mark is lost: 100 + 20 is out of range and becomes no-data (-128), to which 28 is
added. -/
theorem C13_nAry_markValue_false :
    nAry (addUpTo 100) [.skip, .skip, .skip] (.markValue (-128)) [⟨0, false⟩] [100] [20] [[28]] =
      some [⟨-100, false⟩] ∧ ¬ NAryOk (addUpTo 100) 100 20 [28] := by
  refine ⟨rfl, ?_⟩
  simp [NAryOk, StepOk, addUpTo]

/-- A case for `C13_nAry_steps` and `C13_nAry_masked`: four arguments, no-data in the second and,
at the same place, in the fourth. -/
example : nAry (addUpTo 100) [.skip, .byMask [0, 1, 0] 1, .skip, .byMask [0, 1, 0] 1] .markMask
    [⟨0, false⟩, ⟨0, false⟩, ⟨0, false⟩] [1, 2, 90] [10, 20, 20] [[5, 6, 1], [7, 8, -50]] =
    some [⟨23, false⟩, ⟨0, true⟩, ⟨61, true⟩] := by rfl

end Fern
