import Verif.Model.Domains
import Verif.Model.IntRaster
/-
Absolute values and factorials of whole arrays of integers: `algebra::absolute` and
`algebra::factorial` (`algorithm/algebra/elementary/{absolute,factorial}.h`), carried out by
`algorithm/core/unary_local_operation.h`.

`Model/LocalOps.lean` has these loops for algorithms that always deliver a value. Here undefined
behaviour of one element (`none`) is undefined behaviour of the operation.
-/
namespace Fern.IntUnary

open IntTy
open _root_.Fern.IntRaster (Checks)

/-- An algorithm with its policies: `within_domain(v)`, `algorithm(v, r)` and `within_range(v, r)`;
`none` is undefined behaviour. -/
structure PartialOp (V R : Type) where
  withinDomain : V → Bool
  compute : V → Option R
  withinRange : V → R → Option Bool

/-- `absolute` (`algorithm/algebra/elementary/detail/absolute.h:38-77, 104-162`): values of all integer
types are within the domain (`DiscardDomainErrors`, 201-202). -/
def absOp (t : IntTy) : PartialOp Int Int where
  withinDomain _ := true
  compute v := (absElem t v).map (·.result)
  withinRange v _ := some (if t.signed then cNe t t v t.min else true)

/-- `factorial` (`algorithm/algebra/elementary/detail/factorial.h:33-43, 76-107, 130-145`). `gamma`:
`std::tgamma` of an integer. -/
def factorialOp (gamma : Int → Domains.Flt) (t : IntTy) : PartialOp Int Int where
  withinDomain := Domains.factorialDomain
  compute := Domains.factorialValue gamma t
  withinRange v _ := Domains.factorialRange gamma t v

section

variable {V R : Type} (op : PartialOp V R) (k : Checks) (inp : InPolicy V) (outp : OutPolicy R)

/-- The part of the loop bodies after the no-data test
(`algorithm/core/unary_local_operation.h:42-61, 87-107, 142-162`). `k` tells which of the policies are
those of the operation; the others are `DiscardDomainErrors` and `DiscardRangeErrors`. -/
def valueActs (v : V) : Option (List (Cell R → Cell R)) :=
  if k.domain && !op.withinDomain v then some [outp.mark]
  else do
    let x ← op.compute v
    let within ← if k.range then op.withinRange v x else some true
    some [storeAct x, fun c => if within then c else outp.mark c]

/-- `operation_0d` (`algorithm/core/unary_local_operation.h:29-62`). -/
def apply0d (v : V) (c : Cell R) : Option (Cell R) :=
  run0d (do if ← inp.isNoData0 v then some [outp.mark] else valueActs op k outp v) c

/-- Body of the loops of `operation_1d` and `operation_2d`
(`algorithm/core/unary_local_operation.h:83-108, 138-163`). -/
def bodyActs (value : List V) (i : Nat) : Option (List (Cell R → Cell R)) := do
  if ← inp.isNoData value i then some [outp.mark]
  else valueActs op k outp (← value[i]?)

/-- 1D (`algorithm/core/unary_local_operation.h:249-263, 290-324`). -/
def apply1d (value : List V) (size : Nat) : Option (ElemLoop (Cell R)) := do
  assert' (value.length == size)
  some (.d1 value.length (bodyActs op k inp outp value))

/-- 2D (`algorithm/core/unary_local_operation.h:405-439, 450-502`). `vs`, `rs`: extents of value and
result. -/
def apply2d (vs : Nat × Nat) (value : List V) (rs : Nat × Nat) : Option (ElemLoop (Cell R)) := do
  assertSame vs rs
  some (.d2 vs.1 vs.2 rs.2 (bodyActs op k inp outp value))

end

end Fern.IntUnary
