import Verif.Model.Cast
import Verif.Model.Aggregate

/-!
# Elementary arithmetic on floating point numbers

The parts of `algorithm/algebra/elementary/detail/{add, subtract, multiply, divide, absolute}.h` that `Model/Arith.lean`
leaves out: at least one of the values is a floating point number. And the floating point versions of
`algorithm/accumulator/{sum, mean}.h`.

The processor is taken to compute as IEEE 754 says: the exact result, rounded to nearest and to even. The sign of zero is
left out; the only operation whose result depends on it, division by zero, is not reached by this code.
-/

namespace Fern.FloatArith

open Fern Fern.Domains Fern.Casts

/-- `float` and `double`. -/
inductive FltTy | single | double
  deriving DecidableEq, Repr

/-- The type as a number type. -/
def FltTy.num : FltTy → NumTy
  | .single => .f32
  | .double => .f64

/-- The number of bits of the values. -/
def FltTy.bits : FltTy → Nat
  | .single => 24
  | .double => 53

/-- The smallest exponent of the last bit. -/
def FltTy.lo : FltTy → Int
  | .single => -149
  | .double => -1074

/-- The largest exponent of the last bit. -/
def FltTy.hi : FltTy → Int
  | .single => 104
  | .double => 971

/-- Rounding to the type. -/
def FltTy.round (t : FltTy) (x : Rat) : Flt := roundTo t.bits t.lo t.hi x

/-- `a + b` -/
def plus (t : FltTy) : Flt → Flt → Flt
  | .nan, _ | _, .nan => .nan
  | .inf, .negInf | .negInf, .inf => .nan
  | .inf, _ | _, .inf => .inf
  | .negInf, _ | _, .negInf => .negInf
  | .fin x, .fin y => t.round (x + y)

/-- `-a` -/
def negate : Flt → Flt
  | .fin x => .fin (-x)
  | .inf => .negInf
  | .negInf => .inf
  | .nan => .nan

/-- `a - b` -/
def minus (t : FltTy) (a b : Flt) : Flt := plus t a (negate b)

/-- An infinite value with a sign. NaN if the sign is that of zero. -/
def infinite (sign : Rat) : Flt := if 0 < sign then .inf else if sign < 0 then .negInf else .nan

/-- `a * b` -/
def times (t : FltTy) : Flt → Flt → Flt
  | .nan, _ | _, .nan => .nan
  | .inf, .inf | .negInf, .negInf => .inf
  | .inf, .negInf | .negInf, .inf => .negInf
  | .inf, .fin y | .fin y, .inf => infinite y
  | .negInf, .fin y | .fin y, .negInf => infinite (-y)
  | .fin x, .fin y => t.round (x * y)

/-- `a / b`. `none`: division by zero, whose result depends on the sign of the zero. -/
def over (t : FltTy) : Flt → Flt → Option Flt
  | .nan, _ | _, .nan => some .nan
  | .inf, .inf | .inf, .negInf | .negInf, .inf | .negInf, .negInf => some .nan
  | .inf, .fin y => if y = 0 then none else some (infinite y)
  | .negInf, .fin y => if y = 0 then none else some (infinite (-y))
  | .fin _, .inf | .fin _, .negInf => some (.fin 0)
  | .fin x, .fin y => if y = 0 then none else some (t.round (x / y))

/-- The type of the result, if it is a floating point type (`algorithm/core/detail/result_value.h:165-250`). -/
def resultType (t1 t2 : NumTy) : Option FltTy :=
  match resultValue t1 t2 with
  | some .f32 => some .single
  | some .f64 => some .double
  | _ => none

/-- What happens to an element. -/
structure FltOutcome where
  result : Flt
  withinRange : Bool
  deriving DecidableEq

/-- `within_range` of `add` (`detail/add.h:161-234`): the result is looked at if both values are floating point
numbers. -/
def addFltRange (t1 t2 : NumTy) (result : Flt) : Bool :=
  match t1, t2 with
  | .int _, _ | _, .int _ => true
  | _, _ => result.isFinite

/-- One element of `add` (`detail/add.h:242-258`). `none`: it does not compile. -/
def addFlt (t1 t2 : NumTy) (x y : Flt) : Option FltOutcome := do
  let r ← resultType t1 t2
  let a ← castTo t1 r.num x
  let b ← castTo t2 r.num y
  let z := plus r a b
  some ⟨z, addFltRange t1 t2 z⟩

/-- `within_range` of `subtract` (`detail/subtract.h:167-252`). `none`: an assertion fails. -/
def subFltRange (t1 t2 : NumTy) (result : Flt) : Option Bool :=
  match t1, t2 with
  | .int _, _ | _, .int _ => do
    assert' result.isFinite
    some true
  | _, _ => some result.isFinite

/-- One element of `subtract` (`detail/subtract.h:256-276`). `none`: it does not compile, or an assertion fails. -/
def subFlt (t1 t2 : NumTy) (x y : Flt) : Option FltOutcome := do
  let r ← resultType t1 t2
  let a ← castTo t1 r.num x
  let b ← castTo t2 r.num y
  let z := minus r a b
  some ⟨z, ← subFltRange t1 t2 z⟩

/-- One element of `multiply` (`detail/multiply.h:198-294`). -/
def mulFlt (t1 t2 : NumTy) (x y : Flt) : Option FltOutcome := do
  let r ← resultType t1 t2
  let a ← castTo t1 r.num x
  let b ← castTo t2 r.num y
  let z := times r a b
  some ⟨z, z.isFinite⟩

/-- `divide::OutOfDomainPolicy` (`divide.h:71-76`): `value2 != 0`. -/
def divFltDomain (y : Flt) : Bool := !Flt.eq y (.fin 0)

/-- One element of `divide` (`detail/divide.h:160-257`): `some none` is an element outside of the domain, for which
nothing is computed. -/
def divFlt (t1 t2 : NumTy) (x y : Flt) : Option (Option FltOutcome) := do
  let r ← resultType t1 t2
  if divFltDomain y then
    let a ← castTo t1 r.num x
    let b ← castTo t2 r.num y
    assert' (divFltDomain y)
    let z ← over r a b
    some (some ⟨z, z.isFinite⟩)
  else some none

/-- One element of `absolute` (`detail/absolute.h:88-105,146-162`). -/
def absFlt (x : Flt) : FltOutcome :=
  ⟨match x with
    | .fin q => .fin |q|
    | .inf | .negInf => .inf
    | .nan => .nan, true⟩

/-- `add` of two floating point numbers of the same type, as a binary local operation (`detail/add.h:262-290`). -/
def addFltOp (t : FltTy) : LocalOp (Flt × Flt) Flt :=
  ⟨fun _ => true, fun a => plus t a.1 a.2, fun _ z => addFltRange t.num t.num z⟩

/-- `divide` of two floating point numbers of the same type, as a binary local operation
(`detail/divide.h:260-283`). -/
def divFltOp (t : FltTy) : LocalOp (Flt × Flt) Flt :=
  ⟨fun a => divFltDomain a.2, fun a => (over t a.1 a.2).getD .nan, fun _ z => z.isFinite⟩

/-! ### Accumulators -/

/-- `accumulator::Sum<T, T>` of floating point numbers (`algorithm/accumulator/sum.h:79-197`). -/
def sumFlt (q : SumPolicy) (t : FltTy) : Accumulator Flt Flt Flt where
  init := .fin 0
  add s v :=
    let x := plus t s v
    some (x, match q with
      | .discard => true
      | .detect => addFltRange t.num t.num x)
  merge s s' :=
    let x := plus t s s'
    some (x, match q with
      | .discard => true
      | .detect => addFltRange t.num t.num x)
  result s := some s

/-- `accumulator::Mean<T, T>` of floating point numbers (`algorithm/accumulator/mean.h:84-216`). That the count wraps is
left out. -/
def meanFlt (q : SumPolicy) (t : FltTy) : Accumulator (Flt × Nat) Flt Flt where
  init := ((sumFlt q t).init, 0)
  add s v := do
    let (x, ok) ← (sumFlt q t).add s.1 v
    some ((x, s.2 + 1), ok)
  merge s s' := do
    let (x, ok) ← (sumFlt q t).merge s.1 s'.1
    some ((x, s.2 + s'.2), ok)
  result s := if 0 < s.2 then over t s.1 (t.round s.2) else none

end Fern.FloatArith
