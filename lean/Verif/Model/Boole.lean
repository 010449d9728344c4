import Verif.Model.LocalOps
/-
Boolean operations: `algorithm/algebra/boole/detail/*.h`. Values of any integer type or `bool` are
modelled as integers; a `bool` that is stored in an element of any of these types is 0 or 1. The
operations have neither domain nor range errors (`DiscardDomainErrors`, `DiscardRangeErrors`).
-/
namespace Fern

/-- Conversion to `bool`. -/
def toBool (v : Int) : Bool := v != 0

/-- Conversion from `bool`. -/
def ofBool (b : Bool) : Int := if b then 1 else 0

/-- A local operation without domain and range errors. -/
def totalOp {A R : Type} (f : A → R) : LocalOp A R :=
  ⟨fun _ => true, f, fun _ _ => true⟩

/-- `and` (`algorithm/algebra/boole/detail/and.h:32`). -/
def andOp : LocalOp (Int × Int) Int := totalOp fun a => ofBool (toBool a.1 && toBool a.2)

/-- `or` (`algorithm/algebra/boole/detail/or.h:32`). -/
def orOp : LocalOp (Int × Int) Int := totalOp fun a => ofBool (toBool a.1 || toBool a.2)

/-- `xor` (`algorithm/algebra/boole/detail/xor.h:32`). -/
def xorOp : LocalOp (Int × Int) Int := totalOp fun a => ofBool (!toBool a.1 != !toBool a.2)

/-- `xor` of two `bool`s (`algorithm/algebra/boole/detail/xor.h:51`). -/
def xorBoolOp : LocalOp (Bool × Bool) Int := totalOp fun a => ofBool (a.1 != a.2)

/-- `nor` (`algorithm/algebra/boole/detail/nor.h:32`). -/
def norOp : LocalOp (Int × Int) Int := totalOp fun a => ofBool (!(toBool a.1 || toBool a.2))

/-- `xnor` (`algorithm/algebra/boole/detail/xnor.h:33`). -/
def xnorOp : LocalOp (Int × Int) Int := totalOp fun a => ofBool (!toBool a.1 == !toBool a.2)

/-- `xnor` of two `bool`s (`algorithm/algebra/boole/detail/xnor.h:52`). -/
def xnorBoolOp : LocalOp (Bool × Bool) Int := totalOp fun a => ofBool (a.1 == a.2)

/-- `not` (`algorithm/algebra/boole/detail/not.h:30`). -/
def notOp : LocalOp Int Int := totalOp fun a => ofBool (!toBool a)

/-- `fill` (`algorithm/core/fill.h:26-65, algorithm/core/detail/fill.h:28-59`): disaggregation of the value with policies that
neither detect nor mark no-data. -/
def fillOp {R : Type} : LocalOp R R := totalOp id

/-- `defined`, 1D, sequential (`algorithm/algebra/boole/detail/defined.h:40-56`). -/
def defined1d {P : Type} (inp : InPolicy P) (pvals : List P) (result : List (Cell Int)) :
    Option (List (Cell Int)) := do
  nullary1d 1 .dontMark inp pvals (← disaggregate1d fillOp .skip .dontMark 0 result)

/-- `defined`, 2D, sequential (`algorithm/algebra/boole/detail/defined.h:40-56`). -/
def defined2d {P : Type} (inp : InPolicy P) (pvals : List P) (rs : Nat × Nat)
    (result : List (Cell Int)) : Option (List (Cell Int)) := do
  nullary2d 1 .dontMark inp pvals rs (← disaggregate2d fillOp .skip .dontMark 0 rs result)

/-- `defined`, 2D, parallel: the tasks of `fill` have all finished before those of the nullary
operation are submitted (`algorithm/core/unary_disaggregate_operation.h:445-447` waits for them). -/
def Defined2dPar {P : Type} (t : Nat) (inp : InPolicy P) (pvals : List P) (rs : Nat × Nat)
    (result : List (Cell Int)) (o : Option (List (Cell Int))) : Prop :=
  (ParResult (disaggregate2dTasks fillOp .skip .dontMark t 0 rs) result none ∧ o = none) ∨
  ∃ filled, ParResult (disaggregate2dTasks fillOp .skip .dontMark t 0 rs) result (some filled) ∧
    ParResult (nullary2dTasks 1 .dontMark t inp pvals rs) filled o

end Fern
