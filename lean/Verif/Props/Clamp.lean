import Verif.Lemmas.ElemLoop
import Verif.Lemmas.Select
import Verif.Model.Clamp
import Verif.Spec.Clamp
/-
Property C25: clamp.
-/
namespace Fern

open Spec

variable {V : Type} [LinearOrder V]

/-- C25, one value: the result is the value limited to the bounds. -/
theorem C25_value (v lo hi : V) (h : lo ≤ hi) :
    ∃ x, boostClamp v lo hi = some x ∧ Limited lo hi v x := by
  have h' : ¬ hi < lo := not_lt.mpr h
  refine ⟨if v < lo then lo else if hi < v then hi else v, by simp [boostClamp, h'], ?_⟩
  unfold Limited
  by_cases h1 : v < lo
  · simp only [if_pos h1]
    exact ⟨le_refl _, h, fun g => absurd h1 (not_lt.mpr g), fun _ => trivial,
      fun g => absurd (lt_of_lt_of_le h1 h) (not_lt.mpr g.le)⟩
  · by_cases h2 : hi < v
    · simp only [if_neg h1, if_pos h2]
      exact ⟨h, le_refl _, fun _ g => absurd h2 (not_lt.mpr g), fun g => absurd g h1, fun _ => trivial⟩
    · simp only [if_neg h1, if_neg h2]
      exact ⟨not_lt.mp h1, not_lt.mp h2, fun _ _ => trivial, fun g => absurd g h1, fun g => absurd g h2⟩

/-- `Limited` determines the result. -/
theorem C25_unique (v lo hi x y : V) (hx : Limited lo hi v x) (hy : Limited lo hi v y) : x = y := by
  rcases lt_or_ge v lo with h1 | h1
  · rw [hx.2.2.2.1 h1, hy.2.2.2.1 h1]
  · rcases lt_or_ge hi v with h2 | h2
    · rw [hx.2.2.2.2 h2, hy.2.2.2.2 h2]
    · rw [hx.2.2.1 h1 h2, hy.2.2.1 h1 h2]

/-- C25: clamping twice is clamping once. -/
theorem C25_idempotent (v lo hi x y : V) (hx : boostClamp v lo hi = some x)
    (hy : boostClamp x lo hi = some y) : y = x := by
  have h : ¬ hi < lo := by
    intro h
    simp [boostClamp, h] at hx
  obtain ⟨x', hx', hl⟩ := C25_value v lo hi (not_lt.mp h)
  rw [hx, Option.some.injEq] at hx'
  subst hx'
  obtain ⟨y', hy', hl'⟩ := C25_value x lo hi (not_lt.mp h)
  rw [hy, Option.some.injEq] at hy'
  subst hy'
  exact hl'.2.2.1 hl.1 hl.2.1

/-- C25: bounds in the wrong order are an error. -/
theorem C25_bounds_order (v lo hi : V) (h : hi < lo) : boostClamp v lo hi = none := by
  simp [boostClamp, h]

/-- C25, scalars. -/
theorem C25_clamp_0d (inV inL inU : InPolicy V) (outp : OutPolicy V) (v lo hi : V) (c : Cell V)
    (hV : (Arg.scalar v).Fits inV 1) (hL : (Arg.scalar lo).Fits inL 1)
    (hU : (Arg.scalar hi).Fits inU 1) (hb : BoundsOk inL inU (.scalar lo) (.scalar hi) 0) :
    ∃ c', clamp0d0d0d inV inL inU outp v lo hi c = some c' ∧
      Clamp outp inV (.scalar v) (.scalar lo) (.scalar hi) 0 c c' := by
  obtain ⟨b1, hb1, hs1⟩ := scalar_at hV
  obtain ⟨b2, hb2, hs2⟩ := scalar_at hL
  obtain ⟨b3, hb3, hs3⟩ := scalar_at hU
  obtain ⟨g1, g2, g3⟩ := hb
  rw [(hs2 0).1, Bool.not_eq_true] at g1
  rw [(hs3 0).1, Bool.not_eq_true] at g2
  subst g1 g2
  obtain ⟨x, hx, hl⟩ := C25_value v lo hi (g3 lo hi rfl rfl)
  cases b1
  · simp [clamp0d0d0d, run0d, hb1, hb2, hb3, hx, Clamp, (hs1 0).1, (hs1 0).2, (hs2 0).2, (hs3 0).2]
    exact ⟨x, hl, become_store x c⟩
  · simp [clamp0d0d0d, run0d, hb1, hb2, hb3, Clamp, (hs1 0).1, mark_spec]

theorem clampAAA_ok {inV inL inU : InPolicy V} {outp : OutPolicy V} {value lower upper : List V}
    {n : Nat} (hV : (Arg.array value).Fits inV n) (hL : (Arg.array lower).Fits inL n)
    (hU : (Arg.array upper).Fits inU n)
    (hb : ∀ i < n, ¬ (Arg.array value).NoData inV i → BoundsOk inL inU (.array lower) (.array upper) i) :
    ActsOk (clampAAAActs inV inL inU outp value lower upper)
      (Clamp outp inV (.array value) (.array lower) (.array upper)) n := by
  refine actsOk_intro fun i hi => ?_
  obtain ⟨b1, w1, hb1, hw1, hn1, hv1⟩ := array_at hV hi
  obtain ⟨b2, w2, hb2, hw2, hn2, hv2⟩ := array_at hL hi
  obtain ⟨b3, w3, hb3, hw3, hn3, hv3⟩ := array_at hU hi
  cases b1
  · obtain ⟨g1, g2, g3⟩ := hb i hi (by rw [hn1]; simp)
    rw [hn2, Bool.not_eq_true] at g1
    rw [hn3, Bool.not_eq_true] at g2
    subst g1 g2
    obtain ⟨x, hx, hl⟩ := C25_value w1 w2 w3 (g3 _ _ ((hv2 _).mpr rfl) ((hv3 _).mpr rfl))
    constructor
    · simp [clampAAAActs, hb1, hb2, hb3, hw1, hw2, hw3, hx]
    · intro fs hfs c
      simp [clampAAAActs, hb1, hb2, hb3, hw1, hw2, hw3, hx] at hfs
      subst hfs
      simp [Clamp, hn1, hv1, hv2, hv3]
      exact ⟨x, hl, become_store x c⟩
  · constructor
    · simp [clampAAAActs, hb1]
    · intro fs hfs c
      simp [clampAAAActs, hb1] at hfs
      subst hfs
      simp [Clamp, hn1, foldActs, mark_spec]

theorem clampAAS_ok {inV inL inU : InPolicy V} {outp : OutPolicy V} {value lower : List V}
    {upper : V} {n : Nat} (hV : (Arg.array value).Fits inV n) (hL : (Arg.array lower).Fits inL n)
    (hU : (Arg.scalar upper).Fits inU n)
    (hb : ∀ i < n, ¬ (Arg.array value).NoData inV i →
      BoundsOk inL inU (.array lower) (.scalar upper) i) :
    ActsOk (clampAASActs inV inL inU outp value lower upper)
      (Clamp outp inV (.array value) (.array lower) (.scalar upper)) n := by
  refine actsOk_intro fun i hi => ?_
  obtain ⟨b1, w1, hb1, hw1, hn1, hv1⟩ := array_at hV hi
  obtain ⟨b2, w2, hb2, hw2, hn2, hv2⟩ := array_at hL hi
  obtain ⟨b3, hb3, hs3⟩ := scalar_at hU
  cases b1
  · obtain ⟨g1, g2, g3⟩ := hb i hi (by rw [hn1]; simp)
    rw [hn2, Bool.not_eq_true] at g1
    rw [(hs3 i).1, Bool.not_eq_true] at g2
    subst g1 g2
    obtain ⟨x, hx, hl⟩ := C25_value w1 w2 upper (g3 _ _ ((hv2 _).mpr rfl) rfl)
    constructor
    · simp [clampAASActs, hb1, hb2, hb3, hw1, hw2, hx]
    · intro fs hfs c
      simp [clampAASActs, hb1, hb2, hb3, hw1, hw2, hx] at hfs
      subst hfs
      simp [Clamp, hn1, hv1, hv2, (hs3 i).2]
      exact ⟨x, hl, become_store x c⟩
  · constructor
    · simp [clampAASActs, hb1]
    · intro fs hfs c
      simp [clampAASActs, hb1] at hfs
      subst hfs
      simp [Clamp, hn1, foldActs, mark_spec]

theorem clampASA_ok {inV inL inU : InPolicy V} {outp : OutPolicy V} {value : List V} {lower : V}
    {upper : List V} {n : Nat} (hV : (Arg.array value).Fits inV n)
    (hL : (Arg.scalar lower).Fits inL n) (hU : (Arg.array upper).Fits inU n)
    (hb : ∀ i < n, ¬ (Arg.array value).NoData inV i →
      BoundsOk inL inU (.scalar lower) (.array upper) i) :
    ActsOk (clampASAActs inV inL inU outp value lower upper)
      (Clamp outp inV (.array value) (.scalar lower) (.array upper)) n := by
  refine actsOk_intro fun i hi => ?_
  obtain ⟨b1, w1, hb1, hw1, hn1, hv1⟩ := array_at hV hi
  obtain ⟨b2, hb2, hs2⟩ := scalar_at hL
  obtain ⟨b3, w3, hb3, hw3, hn3, hv3⟩ := array_at hU hi
  cases b1
  · obtain ⟨g1, g2, g3⟩ := hb i hi (by rw [hn1]; simp)
    rw [(hs2 i).1, Bool.not_eq_true] at g1
    rw [hn3, Bool.not_eq_true] at g2
    subst g1 g2
    obtain ⟨x, hx, hl⟩ := C25_value w1 lower w3 (g3 _ _ rfl ((hv3 _).mpr rfl))
    constructor
    · simp [clampASAActs, hb1, hb2, hb3, hw1, hw3, hx]
    · intro fs hfs c
      simp [clampASAActs, hb1, hb2, hb3, hw1, hw3, hx] at hfs
      subst hfs
      simp [Clamp, hn1, hv1, hv3, (hs2 i).2]
      exact ⟨x, hl, become_store x c⟩
  · constructor
    · simp [clampASAActs, hb1]
    · intro fs hfs c
      simp [clampASAActs, hb1] at hfs
      subst hfs
      simp [Clamp, hn1, foldActs, mark_spec]

theorem Spec.Computes.sequential {γ : Type} {loop : Option (ElemLoop γ)} {P : Nat → γ → γ → Prop}
    {res : List γ} (h : Computes loop P res) : ComputesSequential loop P res := by
  obtain ⟨out, hs, he, _⟩ := h
  exact ⟨out, hs, he⟩

/-- C25, 1D arrays, sequential and parallel. -/
theorem C25_clamp_1d1d1d (inV inL inU : InPolicy V) (outp : OutPolicy V)
    (value lower upper : List V) (res : List (Cell V)) (hr : res.length = value.length)
    (hV : (Arg.array value).Fits inV value.length) (hL : (Arg.array lower).Fits inL value.length)
    (hU : (Arg.array upper).Fits inU value.length)
    (hb : ∀ i < value.length, ¬ (Arg.array value).NoData inV i →
      BoundsOk inL inU (.array lower) (.array upper) i) :
    Computes (clamp1d1d1d inV inL inU outp value lower upper res.length)
      (Clamp outp inV (.array value) (.array lower) (.array upper)) res := by
  have : clamp1d1d1d inV inL inU outp value lower upper res.length =
      some (.d1 value.length (clampAAAActs inV inL inU outp value lower upper)) := by
    simp [clamp1d1d1d, hr, hL.1, hU.1]
  rw [this]
  exact computes_d1 (clampAAA_ok hV hL hU hb) hr

/-- C25, 1D, scalar upper bound, sequential. -/
theorem C25_clamp_1d1d0d (inV inL inU : InPolicy V) (outp : OutPolicy V) (value lower : List V)
    (upper : V) (res : List (Cell V)) (hr : res.length = value.length)
    (hV : (Arg.array value).Fits inV value.length) (hL : (Arg.array lower).Fits inL value.length)
    (hU : (Arg.scalar upper).Fits inU value.length)
    (hb : ∀ i < value.length, ¬ (Arg.array value).NoData inV i →
      BoundsOk inL inU (.array lower) (.scalar upper) i) :
    ComputesSequential (clamp1d1d0d inV inL inU outp value lower upper res.length)
      (Clamp outp inV (.array value) (.array lower) (.scalar upper)) res := by
  have : clamp1d1d0d inV inL inU outp value lower upper res.length =
      some (.d1 value.length (clampAASActs inV inL inU outp value lower upper)) := by
    simp [clamp1d1d0d, hr, hL.1]
  rw [this]
  exact (computes_d1 (clampAAS_ok hV hL hU hb) hr).sequential

/-- C25, 1D, scalar lower bound, sequential. -/
theorem C25_clamp_1d0d1d (inV inL inU : InPolicy V) (outp : OutPolicy V) (value : List V)
    (lower : V) (upper : List V) (res : List (Cell V)) (hr : res.length = value.length)
    (hV : (Arg.array value).Fits inV value.length) (hL : (Arg.scalar lower).Fits inL value.length)
    (hU : (Arg.array upper).Fits inU value.length)
    (hb : ∀ i < value.length, ¬ (Arg.array value).NoData inV i →
      BoundsOk inL inU (.scalar lower) (.array upper) i) :
    ComputesSequential (clamp1d0d1d inV inL inU outp value lower upper res.length)
      (Clamp outp inV (.array value) (.scalar lower) (.array upper)) res := by
  have : clamp1d0d1d inV inL inU outp value lower upper res.length =
      some (.d1 value.length (clampASAActs inV inL inU outp value lower upper)) := by
    simp [clamp1d0d1d, hr, hU.1]
  rw [this]
  exact (computes_d1 (clampASA_ok hV hL hU hb) hr).sequential

/-- C25, 2D arrays, sequential and parallel. -/
theorem C25_clamp_2d2d2d (inV inL inU : InPolicy V) (outp : OutPolicy V) (n1 n2 : Nat)
    (value lower upper : List V) (res : List (Cell V)) (hr : res.length = n1 * n2)
    (hV : (Arg.array value).Fits inV (n1 * n2)) (hL : (Arg.array lower).Fits inL (n1 * n2))
    (hU : (Arg.array upper).Fits inU (n1 * n2))
    (hb : ∀ i < n1 * n2, ¬ (Arg.array value).NoData inV i →
      BoundsOk inL inU (.array lower) (.array upper) i) :
    Computes (clamp2d2d2d inV inL inU outp (n1, n2) value (n1, n2) lower (n1, n2) upper (n1, n2))
      (Clamp outp inV (.array value) (.array lower) (.array upper)) res := by
  have : clamp2d2d2d inV inL inU outp (n1, n2) value (n1, n2) lower (n1, n2) upper (n1, n2) =
      some (.d2 n1 n2 n2 (clampAAAActs inV inL inU outp value lower upper)) := by
    simp [clamp2d2d2d]
  rw [this]
  exact computes_d2 (clampAAA_ok hV hL hU hb) hr

/-- C25, 2D, scalar upper bound, sequential. -/
theorem C25_clamp_2d2d0d (inV inL inU : InPolicy V) (outp : OutPolicy V) (n1 n2 : Nat)
    (value lower : List V) (upper : V) (res : List (Cell V)) (hr : res.length = n1 * n2)
    (hV : (Arg.array value).Fits inV (n1 * n2)) (hL : (Arg.array lower).Fits inL (n1 * n2))
    (hU : (Arg.scalar upper).Fits inU (n1 * n2))
    (hb : ∀ i < n1 * n2, ¬ (Arg.array value).NoData inV i →
      BoundsOk inL inU (.array lower) (.scalar upper) i) :
    ComputesSequential (clamp2d2d0d inV inL inU outp (n1, n2) value (n1, n2) lower upper (n1, n2))
      (Clamp outp inV (.array value) (.array lower) (.scalar upper)) res := by
  have : clamp2d2d0d inV inL inU outp (n1, n2) value (n1, n2) lower upper (n1, n2) =
      some (.d2 n1 n2 n2 (clampAASActs inV inL inU outp value lower upper)) := by
    simp [clamp2d2d0d]
  rw [this]
  exact (computes_d2 (clampAAS_ok hV hL hU hb) hr).sequential

/-- C25, 2D, scalar lower bound, sequential. -/
theorem C25_clamp_2d0d2d (inV inL inU : InPolicy V) (outp : OutPolicy V) (n1 n2 : Nat)
    (value : List V) (lower : V) (upper : List V) (res : List (Cell V)) (hr : res.length = n1 * n2)
    (hV : (Arg.array value).Fits inV (n1 * n2)) (hL : (Arg.scalar lower).Fits inL (n1 * n2))
    (hU : (Arg.array upper).Fits inU (n1 * n2))
    (hb : ∀ i < n1 * n2, ¬ (Arg.array value).NoData inV i →
      BoundsOk inL inU (.scalar lower) (.array upper) i) :
    ComputesSequential (clamp2d0d2d inV inL inU outp (n1, n2) value lower (n1, n2) upper (n1, n2))
      (Clamp outp inV (.array value) (.scalar lower) (.array upper)) res := by
  have : clamp2d0d2d inV inL inU outp (n1, n2) value lower (n1, n2) upper (n1, n2) =
      some (.d2 n1 n2 n2 (clampASAActs inV inL inU outp value lower upper)) := by
    simp [clamp2d0d2d]
  rw [this]
  exact (computes_d2 (clampASA_ok hV hL hU hb) hr).sequential

/-- A case: the first value is limited from above, the second is no-data (its bounds are in the wrong
order), the third is within bounds, the fourth is limited from below. -/
example : runSeq (clamp1d1d1d (.byMask [0, 1, 0, 0] 1) .skip .skip .markMask [9, 5, 5, -5]
    [0, 7, 0, 0] [7, 0, 7, 7] 4) [⟨(0 : Int), false⟩, ⟨0, false⟩, ⟨0, false⟩, ⟨0, false⟩] =
    some [⟨7, false⟩, ⟨0, true⟩, ⟨5, false⟩, ⟨0, false⟩] := by rfl

/-! Bounds that cannot be used at a valid value. -/

theorem forIn'_fails {σ : Type} {body : Nat → σ → Option σ} (l : List Nat) (i : Nat) (hi : i ∈ l)
    (h : ∀ s, body i s = none) (s : σ) : forIn' l body s = none := by
  induction l generalizing s with
  | nil => simp at hi
  | cons a l ih =>
    rw [forIn'_cons]
    rcases List.mem_cons.1 hi with rfl | hi
    · simp [h]
    · cases body a s with
      | none => rfl
      | some t => exact ih hi t

theorem boundsBad {inL inU : InPolicy V} {lower upper : Arg V} {i : Nat} {b2 b3 : Bool} {lo hi : V}
    (h2 : lower.NoData inL i ↔ b2 = true) (h3 : upper.NoData inU i ↔ b3 = true)
    (g2 : ∀ w, lower.HasAt i w ↔ w = lo) (g3 : ∀ w, upper.HasAt i w ↔ w = hi)
    (hb : ¬ BoundsOk inL inU lower upper i) : b2 = true ∨ b3 = true ∨ hi < lo := by
  by_contra hc
  simp only [not_or, not_lt] at hc
  apply hb
  refine ⟨by rw [h2]; exact hc.1, by rw [h3]; exact hc.2.1, fun lo' hi' h h' => ?_⟩
  rw [(g2 _).1 h, (g3 _).1 h']
  exact hc.2.2

theorem clampAAA_bad {inV inL inU : InPolicy V} {outp : OutPolicy V} {value lower upper : List V}
    {n i : Nat} (hV : (Arg.array value).Fits inV n) (hL : (Arg.array lower).Fits inL n)
    (hU : (Arg.array upper).Fits inU n) (hi : i < n) (hv : ¬ (Arg.array value).NoData inV i)
    (hb : ¬ BoundsOk inL inU (.array lower) (.array upper) i) :
    clampAAAActs inV inL inU outp value lower upper i = none := by
  obtain ⟨b1, w1, hb1, hw1, hn1, hv1⟩ := array_at hV hi
  obtain ⟨b2, w2, hb2, hw2, hn2, hv2⟩ := array_at hL hi
  obtain ⟨b3, w3, hb3, hw3, hn3, hv3⟩ := array_at hU hi
  rw [hn1, Bool.not_eq_true] at hv
  subst hv
  rcases boundsBad hn2 hn3 hv2 hv3 hb with rfl | rfl | h
  · simp [clampAAAActs, hb1, hb2]
  · cases b2 <;> simp [clampAAAActs, hb1, hb2, hb3]
  · cases b2 <;> cases b3 <;> simp [clampAAAActs, hb1, hb2, hb3, hw1, hw2, hw3, boostClamp, h]

theorem clampAAS_bad {inV inL inU : InPolicy V} {outp : OutPolicy V} {value lower : List V}
    {upper : V} {n i : Nat} (hV : (Arg.array value).Fits inV n) (hL : (Arg.array lower).Fits inL n)
    (hU : (Arg.scalar upper).Fits inU n) (hi : i < n) (hv : ¬ (Arg.array value).NoData inV i)
    (hb : ¬ BoundsOk inL inU (.array lower) (.scalar upper) i) :
    clampAASActs inV inL inU outp value lower upper i = none := by
  obtain ⟨b1, w1, hb1, hw1, hn1, hv1⟩ := array_at hV hi
  obtain ⟨b2, w2, hb2, hw2, hn2, hv2⟩ := array_at hL hi
  obtain ⟨b3, hb3, hs3⟩ := scalar_at hU
  rw [hn1, Bool.not_eq_true] at hv
  subst hv
  rcases boundsBad hn2 (hs3 i).1 hv2 (hs3 i).2 hb with rfl | rfl | h
  · simp [clampAASActs, hb1, hb2]
  · cases b2 <;> simp [clampAASActs, hb1, hb2, hb3]
  · cases b2 <;> cases b3 <;> simp [clampAASActs, hb1, hb2, hb3, hw1, hw2, boostClamp, h]

theorem clampASA_bad {inV inL inU : InPolicy V} {outp : OutPolicy V} {value : List V} {lower : V}
    {upper : List V} {n i : Nat} (hV : (Arg.array value).Fits inV n)
    (hL : (Arg.scalar lower).Fits inL n) (hU : (Arg.array upper).Fits inU n) (hi : i < n)
    (hv : ¬ (Arg.array value).NoData inV i)
    (hb : ¬ BoundsOk inL inU (.scalar lower) (.array upper) i) :
    clampASAActs inV inL inU outp value lower upper i = none := by
  obtain ⟨b1, w1, hb1, hw1, hn1, hv1⟩ := array_at hV hi
  obtain ⟨b2, hb2, hs2⟩ := scalar_at hL
  obtain ⟨b3, w3, hb3, hw3, hn3, hv3⟩ := array_at hU hi
  rw [hn1, Bool.not_eq_true] at hv
  subst hv
  rcases boundsBad (hs2 i).1 hn3 (hs2 i).2 hv3 hb with rfl | rfl | h
  · simp [clampASAActs, hb1, hb2]
  · cases b2 <;> simp [clampASAActs, hb1, hb2, hb3]
  · cases b2 <;> cases b3 <;> simp [clampASAActs, hb1, hb2, hb3, hw1, hw3, boostClamp, h]

/-- C25: a scalar bound that is no-data, or (for a valid value) bounds in the wrong order, are an
error. -/
theorem C25_bounds_required_0d (inV inL inU : InPolicy V) (outp : OutPolicy V) (v lo hi : V)
    (c : Cell V) (hV : (Arg.scalar v).Fits inV 1) (hL : (Arg.scalar lo).Fits inL 1)
    (hU : (Arg.scalar hi).Fits inU 1) (hv : ¬ (Arg.scalar v).NoData inV 0)
    (hb : ¬ BoundsOk inL inU (.scalar lo) (.scalar hi) 0) :
    clamp0d0d0d inV inL inU outp v lo hi c = none := by
  obtain ⟨b1, hb1, hs1⟩ := scalar_at hV
  obtain ⟨b2, hb2, hs2⟩ := scalar_at hL
  obtain ⟨b3, hb3, hs3⟩ := scalar_at hU
  rw [(hs1 0).1, Bool.not_eq_true] at hv
  subst hv
  rcases boundsBad (hs2 0).1 (hs3 0).1 (hs2 0).2 (hs3 0).2 hb with rfl | rfl | h
  · simp [clamp0d0d0d, run0d, hb2]
  · cases b2 <;> simp [clamp0d0d0d, run0d, hb2, hb3]
  · cases b2 <;> cases b3 <;> simp [clamp0d0d0d, run0d, hb1, hb2, hb3, boostClamp, h]

theorem runSeq_fails {γ : Type} {acts : Nat → Option (List (γ → γ))} {n i : Nat} (hi : i < n)
    (h : acts i = none) (res : List γ) : runSeq (some (.d1 n acts)) res = none := by
  show seq1d acts n res = none
  rw [seq1d_loop]
  exact forIn'_fails _ i (by simpa using hi) (fun s => by simp [elemStep, h]) res

theorem runSeq2_fails {γ : Type} {acts : Nat → Option (List (γ → γ))} {n1 n2 i : Nat}
    (hi : i < n1 * n2) (h : acts i = none) (res : List γ) :
    runSeq (some (.d2 n1 n2 n2 acts)) res = none := by
  show seq2d acts n1 n2 n2 res = none
  rw [seq2d_loop]
  exact forIn'_fails _ i (by simpa using hi) (fun s => by simp [elemStep, h]) res

/-- C25, 1D: bounds that cannot be used at one position with a valid value are an error. -/
theorem C25_bounds_required_1d1d1d (inV inL inU : InPolicy V) (outp : OutPolicy V)
    (value lower upper : List V) (res : List (Cell V)) (hr : res.length = value.length)
    (hV : (Arg.array value).Fits inV value.length) (hL : (Arg.array lower).Fits inL value.length)
    (hU : (Arg.array upper).Fits inU value.length) (i : Nat) (hi : i < value.length)
    (hv : ¬ (Arg.array value).NoData inV i)
    (hb : ¬ BoundsOk inL inU (.array lower) (.array upper) i) :
    runSeq (clamp1d1d1d inV inL inU outp value lower upper res.length) res = none := by
  have : clamp1d1d1d inV inL inU outp value lower upper res.length =
      some (.d1 value.length (clampAAAActs inV inL inU outp value lower upper)) := by
    simp [clamp1d1d1d, hr, hL.1, hU.1]
  rw [this]
  exact runSeq_fails hi (clampAAA_bad hV hL hU hi hv hb) res

theorem C25_bounds_required_1d1d0d (inV inL inU : InPolicy V) (outp : OutPolicy V)
    (value lower : List V) (upper : V) (res : List (Cell V)) (hr : res.length = value.length)
    (hV : (Arg.array value).Fits inV value.length) (hL : (Arg.array lower).Fits inL value.length)
    (hU : (Arg.scalar upper).Fits inU value.length) (i : Nat) (hi : i < value.length)
    (hv : ¬ (Arg.array value).NoData inV i)
    (hb : ¬ BoundsOk inL inU (.array lower) (.scalar upper) i) :
    runSeq (clamp1d1d0d inV inL inU outp value lower upper res.length) res = none := by
  have : clamp1d1d0d inV inL inU outp value lower upper res.length =
      some (.d1 value.length (clampAASActs inV inL inU outp value lower upper)) := by
    simp [clamp1d1d0d, hr, hL.1]
  rw [this]
  exact runSeq_fails hi (clampAAS_bad hV hL hU hi hv hb) res

theorem C25_bounds_required_1d0d1d (inV inL inU : InPolicy V) (outp : OutPolicy V)
    (value : List V) (lower : V) (upper : List V) (res : List (Cell V))
    (hr : res.length = value.length) (hV : (Arg.array value).Fits inV value.length)
    (hL : (Arg.scalar lower).Fits inL value.length)
    (hU : (Arg.array upper).Fits inU value.length) (i : Nat) (hi : i < value.length)
    (hv : ¬ (Arg.array value).NoData inV i)
    (hb : ¬ BoundsOk inL inU (.scalar lower) (.array upper) i) :
    runSeq (clamp1d0d1d inV inL inU outp value lower upper res.length) res = none := by
  have : clamp1d0d1d inV inL inU outp value lower upper res.length =
      some (.d1 value.length (clampASAActs inV inL inU outp value lower upper)) := by
    simp [clamp1d0d1d, hr, hU.1]
  rw [this]
  exact runSeq_fails hi (clampASA_bad hV hL hU hi hv hb) res

/-- C25, 2D: bounds that cannot be used at one position with a valid value are an error. -/
theorem C25_bounds_required_2d2d2d (inV inL inU : InPolicy V) (outp : OutPolicy V) (n1 n2 : Nat)
    (value lower upper : List V) (res : List (Cell V))
    (hV : (Arg.array value).Fits inV (n1 * n2)) (hL : (Arg.array lower).Fits inL (n1 * n2))
    (hU : (Arg.array upper).Fits inU (n1 * n2)) (i : Nat) (hi : i < n1 * n2)
    (hv : ¬ (Arg.array value).NoData inV i)
    (hb : ¬ BoundsOk inL inU (.array lower) (.array upper) i) :
    runSeq (clamp2d2d2d inV inL inU outp (n1, n2) value (n1, n2) lower (n1, n2) upper (n1, n2))
      res = none := by
  have : clamp2d2d2d inV inL inU outp (n1, n2) value (n1, n2) lower (n1, n2) upper (n1, n2) =
      some (.d2 n1 n2 n2 (clampAAAActs inV inL inU outp value lower upper)) := by
    simp [clamp2d2d2d]
  rw [this]
  exact runSeq2_fails hi (clampAAA_bad hV hL hU hi hv hb) res

theorem C25_bounds_required_2d2d0d (inV inL inU : InPolicy V) (outp : OutPolicy V) (n1 n2 : Nat)
    (value lower : List V) (upper : V) (res : List (Cell V))
    (hV : (Arg.array value).Fits inV (n1 * n2)) (hL : (Arg.array lower).Fits inL (n1 * n2))
    (hU : (Arg.scalar upper).Fits inU (n1 * n2)) (i : Nat) (hi : i < n1 * n2)
    (hv : ¬ (Arg.array value).NoData inV i)
    (hb : ¬ BoundsOk inL inU (.array lower) (.scalar upper) i) :
    runSeq (clamp2d2d0d inV inL inU outp (n1, n2) value (n1, n2) lower upper (n1, n2))
      res = none := by
  have : clamp2d2d0d inV inL inU outp (n1, n2) value (n1, n2) lower upper (n1, n2) =
      some (.d2 n1 n2 n2 (clampAASActs inV inL inU outp value lower upper)) := by
    simp [clamp2d2d0d]
  rw [this]
  exact runSeq2_fails hi (clampAAS_bad hV hL hU hi hv hb) res

theorem C25_bounds_required_2d0d2d (inV inL inU : InPolicy V) (outp : OutPolicy V) (n1 n2 : Nat)
    (value : List V) (lower : V) (upper : List V) (res : List (Cell V))
    (hV : (Arg.array value).Fits inV (n1 * n2)) (hL : (Arg.scalar lower).Fits inL (n1 * n2))
    (hU : (Arg.array upper).Fits inU (n1 * n2)) (i : Nat) (hi : i < n1 * n2)
    (hv : ¬ (Arg.array value).NoData inV i)
    (hb : ¬ BoundsOk inL inU (.scalar lower) (.array upper) i) :
    runSeq (clamp2d0d2d inV inL inU outp (n1, n2) value lower (n1, n2) upper (n1, n2))
      res = none := by
  have : clamp2d0d2d inV inL inU outp (n1, n2) value lower (n1, n2) upper (n1, n2) =
      some (.d2 n1 n2 n2 (clampASAActs inV inL inU outp value lower upper)) := by
    simp [clamp2d0d2d]
  rw [this]
  exact runSeq2_fails hi (clampASA_bad hV hL hU hi hv hb) res

/-- A case: the upper bound, a scalar, is no-data. -/
example : ¬ BoundsOk (.skip : InPolicy Int) (.detect (· == 7)) (.array [0, 0]) (.scalar 7) 1 ∧
    runSeq (clamp1d1d0d (.skip : InPolicy Int) .skip (.detect (· == 7)) .dontMark [9, 5] [0, 0] 7 2)
      [⟨0, false⟩, ⟨0, false⟩] = none :=
  ⟨fun h => h.2.1 (by simp [Arg.NoData, NoDataAt]), rfl⟩

/-! ### Clamping an array twice -/

omit [LinearOrder V] in
theorem hasAt_unique {a : Arg V} {i : Nat} {v w : V} (hv : a.HasAt i v) (hw : a.HasAt i w) :
    v = w := by
  cases a with
  | scalar u => exact Eq.trans hv (Eq.symm hw)
  | array l => exact Option.some.inj ((Eq.symm hv).trans hw)

/-- An array that was clamped and is clamped again, to the same bounds and with no-data in the same
elements, keeps the values of its valid elements. -/
theorem clamp_twice {outp outp2 : OutPolicy V} {inV inV2 : InPolicy V} {value : List V}
    {lower upper : Arg V} {res out res2 out2 : List (Cell V)}
    (h1 : Elementwise (Clamp outp inV (.array value) lower upper) res out)
    (h2 : Elementwise (Clamp outp2 inV2 (.array (out.map Cell.val)) lower upper) res2 out2)
    (hlen : res2.length = res.length) {i : Nat} (hi : i < res.length)
    (hn : ¬ (Arg.array value).NoData inV i)
    (hn2 : ¬ (Arg.array (out.map Cell.val)).NoData inV2 i) :
    out2[i]?.map Cell.val = out[i]?.map Cell.val := by
  obtain ⟨c, hc, _, hP⟩ := h1.2 i (res[i]) (by simp)
  obtain ⟨c2, hc2, _, hP2⟩ := h2.2 i (res2[i]'(by omega)) (by simp)
  obtain ⟨v, lo, hi', x, _, hlo, hup, hl, hx⟩ := hP hn
  obtain ⟨v2, lo2, hi2, x2, hv2, hlo2, hup2, hl2, hx2⟩ := hP2 hn2
  have e1 := hasAt_unique hlo hlo2
  have e2 := hasAt_unique hup hup2
  subst e1 e2
  have ev : v2 = x := by
    have : (out.map Cell.val)[i]? = some v2 := hv2
    rw [List.getElem?_map, hc] at this
    rw [← hx.1]
    exact (Option.some.inj this).symm
  subst ev
  rw [hc, hc2]
  have := hl2.2.2.1 hl.1 hl.2.1
  simp [hx.1, hx2.1, this]

/-- C25: clamping a 1D array twice is clamping it once. -/
theorem C25_idempotent_1d (inV inL inU : InPolicy V) (outp : OutPolicy V)
    (value lower upper : List V) (res : List (Cell V)) (hr : res.length = value.length)
    (hV : (Arg.array value).Fits inV value.length) (hL : (Arg.array lower).Fits inL value.length)
    (hU : (Arg.array upper).Fits inU value.length)
    (hb : ∀ i < value.length, ¬ (Arg.array value).NoData inV i →
      BoundsOk inL inU (.array lower) (.array upper) i) :
    ∃ out, runSeq (clamp1d1d1d inV inL inU outp value lower upper res.length) res = some out ∧
      ∀ (inV2 : InPolicy V) (outp2 : OutPolicy V) (res2 : List (Cell V)), PolicyFor inV2 value.length →
        res2.length = value.length →
        (∀ i < value.length, NoDataAt inV2 (out.map Cell.val) i ↔ NoDataAt inV value i) →
        ∃ out2, runSeq (clamp1d1d1d inV2 inL inU outp2 (out.map Cell.val) lower upper res2.length)
            res2 = some out2 ∧
          ∀ i < value.length, ¬ NoDataAt inV value i →
            out2[i]?.map Cell.val = out[i]?.map Cell.val := by
  obtain ⟨out, ho, he, _⟩ := C25_clamp_1d1d1d inV inL inU outp value lower upper res hr hV hL hU hb
  have hl : out.length = value.length := by rw [he.1, hr]
  refine ⟨out, ho, fun inV2 outp2 res2 hp2 hr2 hpat => ?_⟩
  have hm : (out.map Cell.val).length = value.length := by simp [hl]
  obtain ⟨out2, ho2, he2, _⟩ := C25_clamp_1d1d1d inV2 inL inU outp2 (out.map Cell.val) lower upper
    res2 (by rw [hm, hr2]) ⟨rfl, hm ▸ hp2⟩ (hm ▸ hL) (hm ▸ hU)
    (fun i hi hn => hb i (hm ▸ hi) (fun h => hn ((hpat i (hm ▸ hi)).mpr h)))
  exact ⟨out2, ho2, fun i hi hn => clamp_twice he he2 (by rw [hr2, hr]) (by omega) hn
    (fun h => hn ((hpat i hi).mp h))⟩

/-- C25: clamping a 2D array twice is clamping it once. -/
theorem C25_idempotent_2d (inV inL inU : InPolicy V) (outp : OutPolicy V) (n1 n2 : Nat)
    (value lower upper : List V) (res : List (Cell V)) (hr : res.length = n1 * n2)
    (hV : (Arg.array value).Fits inV (n1 * n2)) (hL : (Arg.array lower).Fits inL (n1 * n2))
    (hU : (Arg.array upper).Fits inU (n1 * n2))
    (hb : ∀ i < n1 * n2, ¬ (Arg.array value).NoData inV i →
      BoundsOk inL inU (.array lower) (.array upper) i) :
    ∃ out, runSeq (clamp2d2d2d inV inL inU outp (n1, n2) value (n1, n2) lower (n1, n2) upper
        (n1, n2)) res = some out ∧
      ∀ (inV2 : InPolicy V) (outp2 : OutPolicy V) (res2 : List (Cell V)), PolicyFor inV2 (n1 * n2) →
        res2.length = n1 * n2 →
        (∀ i < n1 * n2, NoDataAt inV2 (out.map Cell.val) i ↔ NoDataAt inV value i) →
        ∃ out2, runSeq (clamp2d2d2d inV2 inL inU outp2 (n1, n2) (out.map Cell.val) (n1, n2) lower
            (n1, n2) upper (n1, n2)) res2 = some out2 ∧
          ∀ i < n1 * n2, ¬ NoDataAt inV value i →
            out2[i]?.map Cell.val = out[i]?.map Cell.val := by
  obtain ⟨out, ho, he, _⟩ :=
    C25_clamp_2d2d2d inV inL inU outp n1 n2 value lower upper res hr hV hL hU hb
  have hl : out.length = n1 * n2 := by rw [he.1, hr]
  refine ⟨out, ho, fun inV2 outp2 res2 hp2 hr2 hpat => ?_⟩
  obtain ⟨out2, ho2, he2, _⟩ := C25_clamp_2d2d2d inV2 inL inU outp2 n1 n2 (out.map Cell.val) lower
    upper res2 hr2 ⟨by simp [hl], hp2⟩ hL hU
    (fun i hi hn => hb i hi (fun h => hn ((hpat i hi).mpr h)))
  exact ⟨out2, ho2, fun i hi hn => clamp_twice he he2 (by rw [hr2, hr]) (by omega) hn
    (fun h => hn ((hpat i hi).mp h))⟩

example : runSeq (clamp1d1d1d (.skip : InPolicy Int) .skip .skip .dontMark [9, -3, 1] [0, 0, 0]
      [5, 5, 5] 3) [⟨0, false⟩, ⟨0, false⟩, ⟨0, false⟩] =
      some [⟨5, false⟩, ⟨0, false⟩, ⟨1, false⟩] ∧
    runSeq (clamp1d1d1d (.skip : InPolicy Int) .skip .skip .dontMark [5, 0, 1] [0, 0, 0]
      [5, 5, 5] 3) [⟨0, false⟩, ⟨0, false⟩, ⟨0, false⟩] =
      some [⟨5, false⟩, ⟨0, false⟩, ⟨1, false⟩] := ⟨rfl, rfl⟩

end Fern
