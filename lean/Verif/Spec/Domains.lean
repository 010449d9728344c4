import Verif.Model.Domains
import Mathlib.Analysis.SpecialFunctions.Pow.Real
import Mathlib.Analysis.SpecialFunctions.Trigonometric.Inverse
import Mathlib.Analysis.SpecialFunctions.Gamma.Basic

/-!
# Where the functions are defined

In terms of the real functions of Mathlib.
-/

namespace Fern.Domains.Spec

open Fern Fern.Domains

/-- A number that a binary floating point type can represent has a power of two as denominator. -/
def Dyadic (x : Rat) : Prop := ∃ k : Nat, x.den = 2 ^ k

/-- `y` is a power of `b` with exponent `e`: with `e = p / q`, `y ^ q = b ^ p`; zero has no powers with negative
exponents. -/
def IsPower (b e : Rat) (y : ℝ) : Prop := (b = 0 → 0 ≤ e) ∧ y ^ e.den = (b : ℝ) ^ e.num

/-- `std::tgamma` of integers is accurate: exact where the result is a small factorial, and never below the first
factorial that no integer type can represent if the argument is larger; positive infinity at zero. -/
structure Accurate (gamma : Int → Flt) : Prop where
  small : ∀ n : Nat, n ≤ 20 → gamma (n + 1) = .fin n.factorial
  large : ∀ n : Nat, 21 ≤ n → gamma (n + 1) = .inf ∨
    ∃ x : Rat, gamma (n + 1) = .fin x ∧ ((21).factorial : Rat) ≤ x
  zero : gamma 0 = .inf

end Fern.Domains.Spec
