import Verif.Model.ElemLoop
/-
The loops of `algorithm/core/binary_local_operation.h` for any treatment of a pair of valid values that may
be undefined behaviour (`none`).

`Model/LocalOps.lean` has the same loops for algorithms that always deliver a value, and
`Model/IntRaster.lean` those of the arithmetic on integers.
-/
namespace Fern.PairLoop

section

variable {α β γ : Type} (pair : α → β → Option (List (Cell γ → Cell γ))) (in1 : InPolicy α)
  (in2 : InPolicy β) (outp : OutPolicy γ)

/-- `operation_0d_0d` (`algorithm/core/binary_local_operation.h:31-69`). -/
def pair0d0d (v1 : α) (v2 : β) (c : Cell γ) : Option (Cell γ) :=
  run0d (do
    if ← in1.isNoData0 v1 then some [outp.mark]
    else if ← in2.isNoData0 v2 then some [outp.mark]
    else pair v1 v2) c

/-- Body of the loops of `operation_1d_0d` and `operation_2d_0d`
(`algorithm/core/binary_local_operation.h:81-132, 260-331`). -/
def arrayScalarActs (nd2 : Bool) (value1 : List α) (v2 : β) (i : Nat) :
    Option (List (Cell γ → Cell γ)) := do
  if nd2 then some [outp.mark]
  else if ← in1.isNoData value1 i then some [outp.mark]
  else pair (← value1[i]?) v2

/-- Body of the loops of `operation_0d_1d` and `operation_0d_2d`
(`algorithm/core/binary_local_operation.h:144-196, 343-414`). -/
def scalarArrayActs (nd1 : Bool) (v1 : α) (value2 : List β) (i : Nat) :
    Option (List (Cell γ → Cell γ)) := do
  if nd1 then some [outp.mark]
  else if ← in2.isNoData value2 i then some [outp.mark]
  else pair v1 (← value2[i]?)

/-- Body of the loops of `operation_1d_1d` and `operation_2d_2d`
(`algorithm/core/binary_local_operation.h:208-248, 426-476`). -/
def arrayArrayActs (value1 : List α) (value2 : List β) (i : Nat) :
    Option (List (Cell γ → Cell γ)) := do
  if ← in1.isNoData value1 i then some [outp.mark]
  else if ← in2.isNoData value2 i then some [outp.mark]
  else pair (← value1[i]?) (← value2[i]?)

/-- 1D/0D (`algorithm/core/binary_local_operation.h:551-650`). -/
def pair1d0d (value1 : List α) (v2 : β) (size : Nat) : Option (ElemLoop (Cell γ)) := do
  assert' (value1.length == size)
  some (.d1 value1.length (arrayScalarActs pair in1 outp (← in2.isNoData0 v2) value1 v2))

/-- 0D/1D (`algorithm/core/binary_local_operation.h:736-833`; the parallel version does not compare the
sizes, which is left out here: see `binary0d1dTasks`). -/
def pair0d1d (v1 : α) (value2 : List β) (size : Nat) : Option (ElemLoop (Cell γ)) := do
  assert' (value2.length == size)
  some (.d1 value2.length (scalarArrayActs pair in2 outp (← in1.isNoData0 v1) v1 value2))

/-- 1D/1D (`algorithm/core/binary_local_operation.h:919-1020`). -/
def pair1d1d (value1 : List α) (value2 : List β) (size : Nat) : Option (ElemLoop (Cell γ)) := do
  assert' (value1.length == value2.length)
  assert' (value2.length == size)
  some (.d1 value1.length (arrayArrayActs pair in1 in2 outp value1 value2))

/-- 2D/0D (`algorithm/core/binary_local_operation.h:1106-1211`). -/
def pair2d0d (vs1 : Nat × Nat) (value1 : List α) (v2 : β) (rs : Nat × Nat) :
    Option (ElemLoop (Cell γ)) := do
  assertSame vs1 rs
  some (.d2 vs1.1 vs1.2 rs.2 (arrayScalarActs pair in1 outp (← in2.isNoData0 v2) value1 v2))

/-- 0D/2D (`algorithm/core/binary_local_operation.h:1297-1402`). -/
def pair0d2d (v1 : α) (vs2 : Nat × Nat) (value2 : List β) (rs : Nat × Nat) :
    Option (ElemLoop (Cell γ)) := do
  assertSame vs2 rs
  some (.d2 vs2.1 vs2.2 rs.2 (scalarArrayActs pair in2 outp (← in1.isNoData0 v1) v1 value2))

/-- 2D/2D (`algorithm/core/binary_local_operation.h:1488-1597`). -/
def pair2d2d (vs1 : Nat × Nat) (value1 : List α) (vs2 : Nat × Nat) (value2 : List β)
    (rs : Nat × Nat) : Option (ElemLoop (Cell γ)) := do
  assertSame vs1 vs2
  assertSame vs1 rs
  some (.d2 vs1.1 vs1.2 rs.2 (arrayArrayActs pair in1 in2 outp value1 value2))

end

end Fern.PairLoop
