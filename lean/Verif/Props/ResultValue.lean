import Verif.Lemmas.CInt
import Mathlib.Tactic.NormNum
import Mathlib.Tactic.Push
import Mathlib.Data.Rat.Cast.Order
/-
C34: the value type of the result of a binary operation.
-/
namespace Fern

open Spec

/-- C34: the result type does not depend on the order of the arguments. -/
theorem C34_symmetric (a b : NumTy) : resultValue a b = resultValue b a := by
  cases a <;> cases b <;> try rfl
  simp only [resultValue, resultInt_comm]

/-- C34: there is a result type unless exactly one of the arguments is a `bool`. -/
theorem C34_defined (a b : NumTy) :
    resultValue a b = none ↔ ¬ (a = .bool ↔ b = .bool) := by
  cases a <;> cases b <;> simp [resultValue]
  rename_i t1 t2
  obtain ⟨r, hr⟩ := resultInt_some t1 t2
  simp [hr]

/-- The combinations for which the result type does not represent all values of `a`: `uint64_t` with
a signed integer type; 32 or 64 bit integers with `float`; 64 bit integers with `double`. -/
def Exception (a b : NumTy) : Prop :=
  (a = .int .u64 ∧ ∃ t, b = .int t ∧ Signed t) ∨
  (b = .f32 ∧ (a = .int .u32 ∨ a = .int .i32 ∨ a = .int .u64 ∨ a = .int .i64)) ∨
  (b = .f64 ∧ (a = .int .u64 ∨ a = .int .i64))

theorem floatValue_int {p : Nat} {lo hi i : Int} (h1 : -2 ^ p < i) (h2 : i < 2 ^ p) (hlo : lo ≤ 0)
    (hhi : 0 ≤ hi) : FloatValue p lo hi (i : Rat) :=
  ⟨i, 0, h1, h2, hlo, hhi, 0, by simp⟩

/-- An odd integer that needs more than `p` bits is not a value of the type. -/
theorem not_floatValue {p : Nat} {lo hi n : Int} (hodd : n % 2 = 1) (hn : 2 ^ p < n) :
    ¬ FloatValue p lo hi (n : Rat) := by
  rintro ⟨m, e, -, h2, -, -, k, ⟨-, hv⟩ | ⟨-, hv⟩⟩
  · have hv' : n = m * 2 ^ k := by exact_mod_cast hv
    cases k with
    | zero => simp at hv'; omega
    | succ k =>
      rw [Int.pow_succ, ← Int.mul_assoc] at hv'
      omega
  · have hv' : n * 2 ^ k = m := by exact_mod_cast hv
    have h1 : (1 : Int) ≤ 2 ^ k := by have : (0 : Int) < 2 ^ k := Int.pow_pos (by decide)
                                      omega
    have h0 : (0 : Int) < 2 ^ p := Int.pow_pos (by decide)
    nlinarith

theorem int_in_int {a r : IntTy} (h : ∀ v, Fits a v → Fits r v) :
    RepresentsAll (.int r) (.int a) := by
  rintro v ⟨i, rfl, hi⟩
  exact ⟨i, rfl, h i hi⟩

/-- C34: the result type represents every value of the (first) argument type, except for the
combinations listed, where it does not. By `C34_symmetric` the same holds for the second argument
type. -/
theorem C34_represents (a b r : NumTy) (h : resultValue a b = some r) :
    RepresentsAll r a ↔ ¬ Exception a b := by
  have key : (RepresentsAll r a ∧ ¬ Exception a b) ∨ (¬ RepresentsAll r a ∧ Exception a b) := by
    cases a with
    | bool =>
      cases b <;> simp [resultValue] at h
      subst h
      exact .inl ⟨fun v hv => hv, by simp [Exception]⟩
    | f32 =>
      left
      refine ⟨?_, by simp [Exception]⟩
      cases b <;> simp [resultValue] at h <;> subst h <;> try exact fun v hv => hv
      rintro v ⟨m, e, h1, h2, h3, h4, hk⟩
      exact ⟨m, e, by omega, by omega, by omega, by omega, hk⟩
    | f64 =>
      left
      refine ⟨?_, by simp [Exception]⟩
      cases b <;> simp [resultValue] at h <;> subst h <;> exact fun v hv => hv
    | int t =>
      cases b with
      | bool => simp [resultValue] at h
      | f32 =>
        simp only [resultValue, Option.some.injEq] at h
        subst h
        by_cases ht : t = .u32 ∨ t = .i32 ∨ t = .u64 ∨ t = .i64
        · right
          refine ⟨fun hall => ?_, .inr (.inl ⟨rfl, by simpa using ht⟩)⟩
          refine not_floatValue (p := 24) (n := 16777217) (by decide) (by decide)
            (hall _ ⟨16777217, rfl, ?_⟩)
          rcases ht with rfl | rfl | rfl | rfl <;> decide
        · left
          refine ⟨?_, by simp only [Exception]; simpa using ht⟩
          rintro v ⟨i, rfl, hi⟩
          cases t <;> simp at ht <;> simp only [Fits] at hi <;>
            exact floatValue_int (by omega) (by omega) (by decide) (by decide)
      | f64 =>
        simp only [resultValue, Option.some.injEq] at h
        subst h
        by_cases ht : t = .u64 ∨ t = .i64
        · right
          refine ⟨fun hall => ?_, .inr (.inr ⟨rfl, by simpa using ht⟩)⟩
          refine not_floatValue (p := 53) (n := 9007199254740993) (by decide) (by decide)
            (hall _ ⟨9007199254740993, rfl, ?_⟩)
          rcases ht with rfl | rfl <;> decide
        · left
          refine ⟨?_, by simp only [Exception]; simpa using ht⟩
          rintro v ⟨i, rfl, hi⟩
          cases t <;> simp at ht <;> simp only [Fits] at hi <;>
            exact floatValue_int (by omega) (by omega) (by decide) (by decide)
      | int t2 =>
        simp only [resultValue, Option.map_eq_some_iff] at h
        obtain ⟨r', hr, rfl⟩ := h
        by_cases hs : t.signed = t2.signed
        · left
          obtain ⟨-, h1, -⟩ := resultInt_same hs hr
          refine ⟨int_in_int h1, ?_⟩
          rintro (⟨hu, t', ht', hst⟩ | ⟨hb, -⟩ | ⟨hb, -⟩)
          · simp only [NumTy.int.injEq] at hu ht'
            subst hu ht'
            rw [signed_iff] at hst
            rw [hst] at hs
            simp [IntTy.signed] at hs
          · simp at hb
          · simp at hb
        · by_cases hu : t = .u64
          · right
            subst hu
            have h2 : t2.signed = true := by simpa [IntTy.signed] using hs
            refine ⟨fun hall => ?_, .inl ⟨rfl, t2, rfl, (signed_iff _).mpr h2⟩⟩
            obtain ⟨i, hi, hf⟩ := hall (18446744073709551615 : Int)
              ⟨18446744073709551615, rfl, by decide⟩
            have hi' : i = 18446744073709551615 := by exact_mod_cast hi.symm
            subst hi'
            obtain ⟨hrs, -, -⟩ := resultInt_mixed hs hr
            revert hf
            cases r' <;> simp [IntTy.signed] at hrs <;> decide
          · left
            obtain ⟨-, h1, -⟩ := resultInt_mixed hs hr
            refine ⟨int_in_int (h1 hu), ?_⟩
            rintro (⟨hu', -⟩ | ⟨hb, -⟩ | ⟨hb, -⟩)
            · exact hu (by simpa using hu')
            · simp at hb
            · simp at hb
  rcases key with ⟨h1, h2⟩ | ⟨h1, h2⟩ <;> simp [h1, h2]

example : resultValue (.int .u8) (.int .i8) = some (.int .i16) ∧
    resultValue (.int .i64) (.int .u32) = some (.int .i64) ∧
    resultValue (.int .u64) .f32 = some .f32 := by decide
example : Exception (.int .u64) (.int .i8) ∧ ¬ Exception (.int .u32) (.int .i8) := by
  constructor
  · exact .inl ⟨rfl, .i8, rfl, .inl rfl⟩
  · simp [Exception]

end Fern
