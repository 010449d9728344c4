import Verif.Model.ResultValue
import Verif.Model.LocalOps
/-
Elementary arithmetic on two integers: the algorithm (which computes the result first) and the out of
domain / out of range policy that is asked about the result afterwards. `algorithm/algebra/elementary/
detail/{add,subtract,multiply,divide,absolute,less,less_equal,greater,greater_equal,equal}.h`.

Only integer value types are modelled, not the floating point ones.
-/
namespace Fern

open IntTy

section

variable (t1 t2 r : IntTy)

/-- `result = static_cast<R>(value1) + static_cast<R>(value2)` (`detail/add.h:255`). -/
def addCompute (v1 v2 : Int) : Option Int := (cAdd r r (r.wrap v1) (r.wrap v2)).map r.wrap

/-- `within_range<.., signed_integer_tag, unsigned_integer_tag>` (`detail/add.h:117-134`). -/
def addRangeSU (v1 result : Int) : Bool :=
  if cGt t1 i32 v1 0 then cGe r t1 result v1 else cLe r t1 result v1

/-- `add::OutOfRangePolicy::within_range` (`detail/add.h:38-158`). -/
def addRange (v1 v2 result : Int) : Bool :=
  match t1.signed, t2.signed with
  | false, false => !(cLt r t1 result v1)
  | true, true => if cGt t2 i32 v2 0 then !(cLt r t1 result v1) else !(cGt r t1 result v1)
  | false, true => addRangeSU t2 r v2 result
  | true, false => addRangeSU t1 r v1 result

/-- `result = static_cast<R>(value1) - static_cast<R>(value2)` (`detail/subtract.h:272`). -/
def subCompute (v1 v2 : Int) : Option Int := (cSub r r (r.wrap v1) (r.wrap v2)).map r.wrap

/-- `subtract::OutOfRangePolicy::within_range` (`detail/subtract.h:34-164`). -/
def subRange (v1 v2 result : Int) : Bool :=
  match t1.signed, t2.signed with
  | false, false => !(cGt r t1 result v1)
  | true, true => if cGt t2 i32 v2 0 then !(cGt r t1 result v1) else !(cLt r t1 result v1)
  | false, true | true, false =>
    if cGt t2 i32 v2 0 then cLt r r result (r.wrap v1) else cGe r r result (r.wrap v1)

/-- `result = static_cast<R>(value1) * static_cast<R>(value2)` (`detail/multiply.h:291`). -/
def mulCompute (v1 v2 : Int) : Option Int := (cMul r r (r.wrap v1) (r.wrap v2)).map r.wrap

/-- `within_range<.., unsigned_integer_tag, signed_integer_tag>` (`detail/multiply.h:113-146`). -/
def mulRangeUS (v1 v2 : Int) : Option Bool :=
  if cEq t2 t2 v2 0 then some true
  else if cGt t2 i32 v2 0 then do
    some (cLe t1 (common r t2) v1 (← cDiv r t2 r.max v2))
  else do
    let m ← cNeg r r.max
    some (cLe t1 (common r.promote t2) v1 (← cDiv r.promote t2 m v2))

/-- `multiply::OutOfRangePolicy::within_range` (`detail/multiply.h:35-195`). -/
def mulRange (v1 v2 : Int) : Option Bool :=
  match t1.signed, t2.signed with
  | false, false =>
    if cEq t2 t2 v2 0 then some true
    else do some (cLe t1 (common r t2) v1 (← cDiv r t2 r.max v2))
  | true, true =>
    if cEq t2 t2 v2 0 then some true
    else if cGt t1 t1 v1 0 then
      if cGt t2 t2 v2 0 then do
        some (cLe t1 (common r t2) v1 (← cDiv r t2 r.max v2))
      else do
        let m ← cNeg t1 v1
        some (cGe t1.promote (common r t2) m (← cDiv r t2 r.max v2))
    else
      if cLt t2 t2 v2 0 then do
        some (cGe t1 (common r t2) v1 (← cDiv r t2 r.max v2))
      else do
        let m ← cNeg r r.max
        some (cGe t1 (common r.promote t2) v1 (← cDiv r.promote t2 m v2))
  | false, true => mulRangeUS t1 t2 r v1 v2
  | true, false => mulRangeUS t2 t1 r v2 v1

/-- `divide::OutOfDomainPolicy::within_domain` (`algebra/elementary/divide.h:71-76`). -/
def divDomain (v2 : Int) : Bool := cNe t2 t2 v2 0

/-- `assert(value2 != 0); result = static_cast<R>(value1) / static_cast<R>(value2)`
(`detail/divide.h:253-254`). -/
def divCompute (v1 v2 : Int) : Option Int := do
  assert' (cNe t2 t2 v2 0)
  (cDiv r r (r.wrap v1) (r.wrap v2)).map r.wrap

/-- `divide::OutOfRangePolicy::within_range` for integers (`detail/divide.h:36-157`). -/
def divRange : Bool := true

end

/-- What happens to an element: the result that is stored and whether it is within range. `none` is
undefined behaviour. -/
structure Outcome where
  result : Int
  withinRange : Bool
  deriving DecidableEq, Repr

/-- One element of `add` for values of types `t1` and `t2` (the algorithm stores the result, then the
policy is asked, `algorithm/core/binary_local_operation.h:224-245`). -/
def addElem (t1 t2 : IntTy) (v1 v2 : Int) : Option Outcome := do
  let r ← resultInt t1 t2
  let x ← addCompute r v1 v2
  some ⟨x, addRange t1 t2 r v1 v2 x⟩

/-- One element of `subtract` (`detail/subtract.h:259-273`; `algorithm/core/binary_local_operation.h:224-245`). -/
def subElem (t1 t2 : IntTy) (v1 v2 : Int) : Option Outcome := do
  let r ← resultInt t1 t2
  let x ← subCompute r v1 v2
  some ⟨x, subRange t1 t2 r v1 v2 x⟩

/-- One element of `multiply` (`detail/multiply.h:278-293`; `algorithm/core/binary_local_operation.h:224-245`). -/
def mulElem (t1 t2 : IntTy) (v1 v2 : Int) : Option Outcome := do
  let r ← resultInt t1 t2
  let x ← mulCompute r v1 v2
  some ⟨x, ← mulRange t1 t2 r v1 v2⟩

/-- One element of `divide`: `none` is undefined behaviour, `some none` an element outside of the
domain, for which nothing is computed (`detail/divide.h:240-255`;
`algorithm/core/binary_local_operation.h:224-245`). -/
def divElem (t1 t2 : IntTy) (v1 v2 : Int) : Option (Option Outcome) := do
  let r ← resultInt t1 t2
  if divDomain t2 v2 then
    let x ← divCompute t2 r v1 v2
    some (some ⟨x, divRange⟩)
  else some none

/-- One element of `absolute`: `result = static_cast<R>(std::abs(value))` with `R` equal to the value
type (`detail/absolute.h:132-162`), the range check is `value != min<Value>()` (54-70). `std::abs` of
a type smaller than `int` is that of `int`. -/
def absElem (t : IntTy) (v : Int) : Option Outcome :=
  if t.signed then do
    let x ← if cLt t.promote i32 (t.promote.wrap v) 0 then cNeg t.promote (t.promote.wrap v)
      else some (t.promote.wrap v)
    some ⟨t.wrap x, cNe t t v t.min⟩
  else some ⟨t.wrap v, true⟩

/-- `less`, `less_equal`, `greater`, `greater_equal` on one element (`detail/less.h:34`,
`detail/less_equal.h:34`, `detail/greater.h:34`, `detail/greater_equal.h:34`): the plain operators. -/
def lessElem (t1 t2 : IntTy) (v1 v2 : Int) : Bool := cLt t1 t2 v1 v2
@[inherit_doc lessElem]
def lessEqualElem (t1 t2 : IntTy) (v1 v2 : Int) : Bool := cLe t1 t2 v1 v2
@[inherit_doc lessElem]
def greaterElem (t1 t2 : IntTy) (v1 v2 : Int) : Bool := cGt t1 t2 v1 v2
@[inherit_doc lessElem]
def greaterEqualElem (t1 t2 : IntTy) (v1 v2 : Int) : Bool := cGe t1 t2 v1 v2

/-- `equal` on one element: `is_equal(T, T)` (`detail/equal.h:35`, `core/math.h:8-13`). Both values
must have the same type. -/
def equalElem (t : IntTy) (v1 v2 : Int) : Bool := cEq t t v1 v2

/-- `add` as a binary local operation (`detail/add.h:262-290`): no domain errors. `compute` gives a
value for every pair; it is that of the program wherever `addCompute` is defined, which is everywhere
for unsigned types. -/
def addOp (t1 t2 r : IntTy) : LocalOp (Int × Int) Int where
  withinDomain _ := true
  compute a := (addCompute r a.1 a.2).getD 0
  withinRange a x := addRange t1 t2 r a.1 a.2 x

/-- `multiply` as a binary local operation (`detail/multiply.h:298-326`): no domain errors. `compute` and
`withinRange` are those of the program wherever `mulCompute` and `mulRange` are defined. -/
def mulOp (t1 t2 r : IntTy) : LocalOp (Int × Int) Int where
  withinDomain _ := true
  compute a := (mulCompute r a.1 a.2).getD 0
  withinRange a _ := (mulRange t1 t2 r a.1 a.2).getD false

/-- `divide` as a binary local operation (`detail/divide.h:260-283`). `compute` is that of the program
wherever `divCompute` is defined, which for unsigned types is everywhere within the domain. -/
def divOp (t2 r : IntTy) : LocalOp (Int × Int) Int where
  withinDomain a := divDomain t2 a.2
  compute a := (divCompute t2 r a.1 a.2).getD 0
  withinRange _ _ := divRange

end Fern
