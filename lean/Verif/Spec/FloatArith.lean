import Verif.Model.FloatArith
import Verif.Spec.Cast
import Verif.Spec.Aggregate

/-! What arithmetic on floating point numbers should do. -/

namespace Fern.FloatArith.Spec

open Fern Fern.Domains Fern.Spec Fern.Casts.Spec

/-- The largest value and half of its last bit. -/
def limit : FltTy → Rat
  | .single => (2 ^ 24 - 1 / 2) * 2 ^ 104
  | .double => (2 ^ 53 - 1 / 2) * 2 ^ 971

/-- The largest relative error of rounding. -/
def unit : FltTy → Rat
  | .single => 1 / 2 ^ 24
  | .double => 1 / 2 ^ 53

/-- Half of the smallest positive value. -/
def tiny : FltTy → Rat
  | .single => 1 / 2 ^ 150
  | .double => 1 / 2 ^ 1075

/-- Up to here, all integers are values. -/
def small : FltTy → Int
  | .single => 2 ^ 24
  | .double => 2 ^ 53

/-- Too large in magnitude. -/
def TooLarge (t : FltTy) (q : Rat) : Prop := limit t ≤ |q|

/-- `r` has an even last bit where `m`, as near to the number, has an odd one. -/
def EvenBeside (r m : Rat) : Prop :=
  ∃ (n e : Int), r = (2 * n : Int) * 2 ^ e ∧ (m = (2 * n - 1 : Int) * 2 ^ e ∨ m = (2 * n + 1 : Int) * 2 ^ e)

/-- `f` is what the number `q` is rounded to: infinity if it is too large, otherwise the nearest value, the even one if
there are two. -/
def Rounded (t : FltTy) (q : Rat) (f : Flt) : Prop :=
  (TooLarge t q → f = if 0 < q then .inf else .negInf) ∧
  (¬ TooLarge t q → ∃ r, f = .fin r ∧ Nearest (Represents t.num) q r ∧
    ∀ m, Represents t.num m → m ≠ r → |q - m| = |q - r| → EvenBeside r m)

/-- The larger type. -/
def larger : FltTy → FltTy → FltTy
  | .single, .single => .single
  | _, _ => .double

/-- The numbers in a list of values. -/
def number : Flt → Rat
  | .fin q => q
  | _ => 0

/-- How far a sum of `n` numbers whose magnitudes sum up to `a` may be from the sum. -/
def sumError (t : FltTy) (n : Nat) (a : Rat) : Rat := ((1 + unit t) ^ (n - 1) - 1) * a

/-- Finite values of a type. -/
def FiniteValues (t : FltTy) (vs : List Flt) : Prop := ∀ v ∈ vs, ∃ q, v = .fin q ∧ Represents t.num q

/-- The sum of the numbers. -/
def total (vs : List Flt) : Rat := (vs.map number).sum

/-- The sum of the magnitudes of the numbers. -/
def magnitude (vs : List Flt) : Rat := (vs.map fun v => |number v|).sum

/-- What happens to the result if a sum is too large. -/
def NotStored (q : SumPolicy) (outp : OutPolicy Flt) (c c' : Cell Flt) : Prop :=
  match q with
  | .detect => Marked outp c c'
  | .discard => ∃ f, (f = .inf ∨ f = .negInf ∨ f = .nan) ∧ Assigned f c c'

/-- The result of adding up values: nothing if there are none, otherwise a number `r` with the property, unless the values
are too large. -/
def Stored (q : SumPolicy) (vs : List Flt) (outp : OutPolicy Flt) (c c' : Cell Flt) (P : Rat → Prop) (large : Prop) : Prop :=
  (vs = [] → Marked outp c c') ∧ (vs ≠ [] → (∃ r, Assigned (.fin r) c c' ∧ P r) ∨ (large ∧ NotStored q outp c c'))

/-- The sum of the values, as well as can be said without knowing in which order they are added. -/
def SumStored (q : SumPolicy) (t : FltTy) (vs : List Flt) (outp : OutPolicy Flt) (c c' : Cell Flt) : Prop :=
  Stored q vs outp c c' (fun r => Represents t.num r ∧ |r - total vs| ≤ sumError t vs.length (magnitude vs))
    (limit t ≤ (1 + unit t) ^ (vs.length - 1) * magnitude vs)

/-- Idem, for the mean. -/
def MeanStored (q : SumPolicy) (t : FltTy) (vs : List Flt) (outp : OutPolicy Flt) (c c' : Cell Flt) : Prop :=
  Stored q vs outp c c' (fun r => Represents t.num r ∧
      |r - total vs / vs.length| ≤ ((1 + unit t) ^ vs.length - 1) * (magnitude vs / vs.length) + tiny t)
    (limit t ≤ (1 + unit t) ^ (vs.length - 1) * magnitude vs)

/-- Adding the values one by one to `x`, rounding each time, gives `r`. -/
inductive RunsTo (t : FltTy) : Rat → List Flt → Rat → Prop
  | nil (x : Rat) : RunsTo t x [] x
  | cons (x q y r : Rat) (vs : List Flt) : Rounded t (x + q) (.fin y) → RunsTo t y vs r → RunsTo t x (.fin q :: vs) r

end Fern.FloatArith.Spec
