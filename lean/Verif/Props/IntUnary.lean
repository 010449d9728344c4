import Verif.Lemmas.InPlace
import Verif.Lemmas.IntUnary
/-
Property C129: absolute values and factorials of whole arrays of integers.

`ComputesUnless bad loop P res` (`Spec/IntRaster.lean`): unless `bad`, the operation gives an array
whose elements are related to the original ones by `P`, in one thread and in every execution with a
pool of threads; if `bad`, every execution is undefined.
-/
namespace Fern.IntUnary

open IntTy Fern.Spec
open _root_.Fern.IntRaster (Checks)
open _root_.Fern.IntRaster.Spec (ComputesUnless)
open _root_.Fern.IntUnary.Spec

section

variable (k : Checks) (t : IntTy) (inp : InPolicy Int) (outp : OutPolicy Int)

/-- C129, the absolute value of a scalar. -/
theorem C129_absolute_0d (v : Int) (hv : Fits t v) (hp : PolicyFor inp 1) :
    Does0d (absolute k t outp) inp outp (apply0d (absOp t) k inp outp) v :=
  apply0d_spec (absolute_right k t outp) hv hp

/-- C129, absolute values, 1D. -/
theorem C129_absolute_1d (value : List Int) (res : List (Cell Int)) (hs : res.length = value.length)
    (hp : PolicyFor inp value.length) (ho : ∀ v ∈ value, Fits t v) :
    ComputesUnless (Bad (absolute k t outp) inp value) (apply1d (absOp t) k inp outp value res.length)
      (RasterCell (absolute k t outp) inp outp value) res :=
  apply1d_spec (absolute_right k t outp) hs hp ho

/-- C129, absolute values, 2D. -/
theorem C129_absolute_2d (n1 n2 : Nat) (value : List Int) (res : List (Cell Int))
    (hv : value.length = n1 * n2) (hs : res.length = n1 * n2) (hp : PolicyFor inp (n1 * n2))
    (ho : ∀ v ∈ value, Fits t v) :
    ComputesUnless (Bad (absolute k t outp) inp value)
      (apply2d (absOp t) k inp outp (n1, n2) value (n1, n2))
      (RasterCell (absolute k t outp) inp outp value) res :=
  apply2d_spec (absolute_right k t outp) hv hs hp ho

variable {gamma : Int → Domains.Flt} (hg : Gamma gamma)

include hg

/-- C129, the factorial of a scalar. -/
theorem C129_factorial_0d (v : Int) (hv : Fits t v) (hp : PolicyFor inp 1) :
    Does0d (factorial k t outp) inp outp (apply0d (factorialOp gamma t) k inp outp) v :=
  apply0d_spec (factorial_right hg k t outp) hv hp

/-- C129, factorials, 1D. -/
theorem C129_factorial_1d (value : List Int) (res : List (Cell Int)) (hs : res.length = value.length)
    (hp : PolicyFor inp value.length) (ho : ∀ v ∈ value, Fits t v) :
    ComputesUnless (Bad (factorial k t outp) inp value)
      (apply1d (factorialOp gamma t) k inp outp value res.length)
      (RasterCell (factorial k t outp) inp outp value) res :=
  apply1d_spec (factorial_right hg k t outp) hs hp ho

/-- C129, factorials, 2D. -/
theorem C129_factorial_2d (n1 n2 : Nat) (value : List Int) (res : List (Cell Int))
    (hv : value.length = n1 * n2) (hs : res.length = n1 * n2) (hp : PolicyFor inp (n1 * n2))
    (ho : ∀ v ∈ value, Fits t v) :
    ComputesUnless (Bad (factorial k t outp) inp value)
      (apply2d (factorialOp gamma t) k inp outp (n1, n2) value (n1, n2))
      (RasterCell (factorial k t outp) inp outp value) res :=
  apply2d_spec (factorial_right hg k t outp) hv hs hp ho

/-- C129: the range policy of factorials never has an effect: sequentially and in parallel the results
with and without it are the same, undefined or not. -/
theorem C129_range_policy (d : Bool) (value : List Int) (res : List (Cell Int))
    (hs : res.length = value.length) (hp : PolicyFor inp value.length) (ho : ∀ v ∈ value, Fits t v) :
    runSeq (apply1d (factorialOp gamma t) ⟨d, true⟩ inp outp value res.length) res =
      runSeq (apply1d (factorialOp gamma t) ⟨d, false⟩ inp outp value res.length) res ∧
    ∀ n, 1 ≤ n → ∀ o,
      ParResult (runTasks n (apply1d (factorialOp gamma t) ⟨d, true⟩ inp outp value res.length)) res o ↔
      ParResult (runTasks n (apply1d (factorialOp gamma t) ⟨d, false⟩ inp outp value res.length)) res o := by
  obtain ⟨g1, b1⟩ := C129_factorial_1d ⟨d, true⟩ t inp outp hg value res hs hp ho
  obtain ⟨g2, b2⟩ := C129_factorial_1d ⟨d, false⟩ t inp outp hg value res hs hp ho
  have e : factorial ⟨d, true⟩ t outp = factorial ⟨d, false⟩ t outp := rfl
  rw [e] at g1 b1
  by_cases hb : Bad (factorial ⟨d, false⟩ t outp) inp value
  · obtain ⟨s1, p1⟩ := b1 hb
    obtain ⟨s2, p2⟩ := b2 hb
    exact ⟨s1.trans s2.symm, fun n hn o => (p1 n hn o).trans (p2 n hn o).symm⟩
  · obtain ⟨o1, s1, e1, p1⟩ := g1 hb
    obtain ⟨o2, s2, e2, p2⟩ := g2 hb
    have : o1 = o2 := by
      refine elementwise_unique e1 e2 fun i c c1 c2 _ h1 h2 => ?_
      by_cases hd : NoDataAt inp value i
      · exact marked_unique (h1.1 hd) (h2.1 hd)
      · obtain ⟨v, hv, q1⟩ := h1.2 hd
        obtain ⟨w, hw, q2⟩ := h2.2 hd
        rw [hv, Option.some.injEq] at hw
        subst hw
        by_cases h0 : v < 0
        · exact marked_unique (q1.1 h0) (q2.1 h0)
        · rw [q1.2 v.toNat (by omega), q2.2 v.toNat (by omega)]
    subst this
    exact ⟨s1.trans s2.symm, fun n hn o => (p1 n hn o).trans (p2 n hn o).symm⟩

end

/-- C129: arguments and results of different sizes make an assertion fail. -/
theorem C129_sizes (op : PartialOp Int Int) (k : Checks) (inp : InPolicy Int) (outp : OutPolicy Int)
    (value : List Int) (size : Nat) (vs rs : Nat × Nat) (res : List (Cell Int)) :
    (value.length ≠ size → runSeq (apply1d op k inp outp value size) res = none ∧
      ∀ n, runTasks n (apply1d op k inp outp value size) = none) ∧
    (vs ≠ rs → runSeq (apply2d op k inp outp vs value rs) res = none ∧
      ∀ n, runTasks n (apply2d op k inp outp vs value rs) = none) := by
  refine ⟨fun h => ?_, fun h => ?_⟩
  · simp [runSeq, runTasks, apply1d, assert', h]
  · have : assertSame vs rs = none := by
      obtain ⟨a, b⟩ := vs
      obtain ⟨c, d⟩ := rs
      by_cases h1 : a = c
      · have h2 : b ≠ d := fun h2 => h (by rw [h1, h2])
        simp [assertSame, assert', h1, h2]
      · simp [assertSame, assert', h1]
    simp [runSeq, runTasks, apply2d, this]

/-- Bytes: the absolute value of the least is reported, a valid value is not affected by a value next to
it that is no-data; without the policy the result is negative. -/
example :
    runSeq (apply1d (absOp i8) ⟨true, true⟩ (.byMask [0, 1, 0] 1) .markMask [-128, -7, -7] 3)
      (List.replicate 3 ⟨0, false⟩) = some [⟨-128, true⟩, ⟨0, true⟩, ⟨7, false⟩] := by decide +kernel

/-- C129: the overload without policies (`absolute.h:100-112`) returns a negative absolute value for the
least values of the types of 8 and 16 bits. -/
theorem C129_negative_false :
    runSeq (apply1d (absOp i8) ⟨false, false⟩ .skip .dontMark [-128] 1) [⟨0, false⟩] = some [⟨-128, false⟩] ∧
    runSeq (apply1d (absOp i16) ⟨false, false⟩ .skip .dontMark [-32768] 1) [⟨0, false⟩] =
      some [⟨-32768, false⟩] := by decide +kernel

/-- Of 32 bits, one least value makes the whole operation undefined, unless it is no-data. -/
example : runSeq (apply1d (absOp i32) ⟨true, true⟩ (.byMask [0, 0] 1) .markMask [-7, -2147483648] 2)
      (List.replicate 2 ⟨0, false⟩) = none ∧
    runSeq (apply1d (absOp i32) ⟨true, true⟩ (.byMask [0, 1] 1) .markMask [-7, -2147483648] 2)
      (List.replicate 2 ⟨0, false⟩) = some [⟨7, false⟩, ⟨0, true⟩] := by decide +kernel

/-- The factorials, infinity at zero, NaN below: the assumptions can be met. -/
theorem gamma_exists : Gamma fun a => if a < 0 then .nan else if a = 0 then .inf else
    .fin (a.toNat - 1).factorial where
  small n _ := by
    rw [if_neg (by omega), if_neg (by omega)]
    congr 2
  large n h := by
    refine Or.inr ⟨n.factorial, ?_, by exact_mod_cast Nat.factorial_le h⟩
    rw [if_neg (by omega), if_neg (by omega)]
    congr 2
  zero := rfl
  negative a h := by rw [if_pos h]

/-- Bytes: 5! fits, negative values are outside of the domain, 6! does not fit. -/
example :
    ¬ Bad (factorial ⟨true, true⟩ i8 .markMask) .skip [5, -1] ∧
    Bad (factorial ⟨true, true⟩ i8 .markMask) .skip [5, 6] ∧
    Bad (factorial ⟨false, true⟩ i8 .markMask) .skip [5, -1] := by
  refine ⟨?_, ⟨1, 6, rfl, by simp [NoDataAt], .inr ⟨6, rfl, by decide⟩⟩,
    ⟨1, -1, rfl, by simp [NoDataAt], .inl ⟨by decide, rfl⟩⟩⟩
  rintro ⟨i, v, hv, -, hu⟩
  have : v = 5 ∨ v = -1 := by
    have := List.mem_of_getElem? hv
    simpa using this
  rcases this with rfl | rfl
  · rcases hu with ⟨h, _⟩ | ⟨n, h, hf⟩
    · omega
    · obtain rfl : n = 5 := by omega
      exact hf (by decide)
  · rcases hu with ⟨_, h⟩ | ⟨n, h, _⟩
    · simp at h
    · omega

end Fern.IntUnary
