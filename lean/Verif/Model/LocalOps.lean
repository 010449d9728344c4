import Verif.Model.Loop
import Verif.Model.Policy
/-
Local (element-wise) operations: `algorithm/core/nullary_local_operation.h`,
`unary_local_operation.h`, `binary_local_operation.h`, `unary_disaggregate_operation.h`,
`n_ary_local_operation.h`.

The body of each element loop is modelled as the list of actions it performs on the result element
(value and mask entry). A sequential run performs the actions of the elements one after the other, a
parallel run performs some interleaving of the actions of the blocks. `none` is undefined behaviour
(an access outside of an array) or a failing `assert`.
-/
namespace Fern

/-- An algorithm with its out-of-domain and out-of-range policies: `within_domain(v..)`,
`algorithm(v.., r)` and `within_range(v.., r)`. `A` is the type of the (tuple of) argument values.
The algorithm is modelled as the value that it stores in `r`. -/
structure LocalOp (A R : Type) where
  withinDomain : A → Bool
  compute : A → R
  withinRange : A → R → Bool

/-- `algorithm(v, r)`: store the value in the result element. -/
def storeAct {R : Type} (r : R) (c : Cell R) : Cell R := { c with val := r }

/-- `if(!within_range(v, r)) mark_as_no_data(i)`: `r` is read back from the result. -/
def rangeAct {A R : Type} (op : LocalOp A R) (outp : OutPolicy R) (a : A) (c : Cell R) : Cell R :=
  if !op.withinRange a c.val then outp.mark c else c

/-- The part of the loop body after the no-data test: `within_domain` test, algorithm and
`within_range` test (`algorithm/core/unary_local_operation.h:87-107`,
`binary_local_operation.h:224-245`, `unary_disaggregate_operation.h:95-116`; the same lines are
repeated in all variants). -/
def valueActs {A R : Type} (op : LocalOp A R) (outp : OutPolicy R) (a : A) :
    List (Cell R → Cell R) :=
  if !op.withinDomain a then [outp.mark]
  else [storeAct (op.compute a), rangeAct op outp a]

/-- One element of a sequential loop: perform the element's actions. -/
def elemStep {γ : Type} (acts : Nat → Option (List (γ → γ))) (i : Nat) (s : List γ) :
    Option (List γ) := do
  runActs ((← acts i).map (Act.mk i)) s

/-- A sequential operation over a 1D index range (`IndexRanges<1>{IndexRange(0, size(value))}`). -/
def seq1d {γ : Type} (acts : Nat → Option (List (γ → γ))) (size : Nat) (s : List γ) :
    Option (List γ) :=
  loop1d ⟨0, size⟩ (elemStep acts) s

/-- A sequential operation over a 2D index range, `nrCols` being the number of columns used by
`index(result, i, j)`. -/
def seq2d {γ : Type} (acts : Nat → Option (List (γ → γ))) (size1 size2 nrCols : Nat) (s : List γ) :
    Option (List γ) :=
  loop2d nrCols ⟨⟨0, size1⟩, ⟨0, size2⟩⟩ (elemStep acts) s

/-- An operation on 0D arrays. -/
def run0d {γ : Type} (acts : Option (List (γ → γ))) (c : γ) : Option γ := do
  some ((← acts).foldl (fun c f => f c) c)

/-- `assert(condition)`. -/
def assert' (b : Bool) : Option Unit := if b then some () else none

section Unary

variable {V R : Type} (op : LocalOp V R) (inp : InPolicy V) (outp : OutPolicy R)

/-- `operation_0d` (`algorithm/core/unary_local_operation.h:29-62`). -/
def unary0d (value : V) (result : Cell R) : Option (Cell R) :=
  run0d (do if ← inp.isNoData0 value then some [outp.mark] else some (valueActs op outp value)) result

/-- Body of the loops of `operation_1d` and `operation_2d`
(`algorithm/core/unary_local_operation.h:83-108, 138-163`). -/
def unaryActs (value : List V) (i : Nat) : Option (List (Cell R → Cell R)) := do
  if ← inp.isNoData value i then some [outp.mark]
  else some (valueActs op outp (← value[i]?))

/-- Sequential dispatch for 1D (`algorithm/core/unary_local_operation.h:249-263`, `operation_1d`
73-110). -/
def unary1d (value : List V) (result : List (Cell R)) : Option (List (Cell R)) := do
  assert' (value.length == result.length)
  seq1d (unaryActs op inp outp value) value.length result

/-- Parallel dispatch for 1D: the tasks (`algorithm/core/unary_local_operation.h:290-324`). -/
def unary1dTasks (nrThreads : Nat) (value : List V) (result : List (Cell R)) :
    Option (List (List (Act (Cell R)))) := do
  assert' (value.length == result.length)
  parTasks (unaryActs op inp outp value) (← blocks1d nrThreads value.length)

/-- Sequential dispatch for 2D (`algorithm/core/unary_local_operation.h:405-439`, `operation_2d`
121-168). `vs`, `rs`: extents of value and result. -/
def unary2d (vs : Nat × Nat) (value : List V) (rs : Nat × Nat) (result : List (Cell R)) :
    Option (List (Cell R)) := do
  assert' (vs.1 == rs.1)
  assert' (vs.2 == rs.2)
  seq2d (unaryActs op inp outp value) vs.1 vs.2 rs.2 result

/-- Parallel dispatch for 2D: the tasks (`algorithm/core/unary_local_operation.h:450-502`). -/
def unary2dTasks (nrThreads : Nat) (vs : Nat × Nat) (value : List V) (rs : Nat × Nat) :
    Option (List (List (Act (Cell R)))) := do
  assert' (vs.1 == rs.1)
  assert' (vs.2 == rs.2)
  parTasks (unaryActs op inp outp value) (← blocks2d nrThreads vs.1 vs.2 rs.2)

end Unary

section Nullary

variable {R : Type} (compute : R) (outp : OutPolicy R)

/-- `operation_0d` (`algorithm/core/nullary_local_operation.h:27-50`). `nd`: result of the input
no-data policy, which is not tied to the result's values here. -/
def nullary0d (nd : Option Bool) (result : Cell R) : Option (Cell R) :=
  run0d (do if ← nd then some [outp.mark] else some [storeAct compute]) result

/-- Body of the loops (`algorithm/core/nullary_local_operation.h:67-84, 110-127`). The input no-data
policy looks at an array with values `pvals` (e.g. the argument of `defined`). -/
def nullaryActs {P : Type} (inp : InPolicy P) (pvals : List P) (i : Nat) :
    Option (List (Cell R → Cell R)) := do
  if ← inp.isNoData pvals i then some [outp.mark] else some [storeAct compute]

/-- `operation_1d`, sequential (`algorithm/core/nullary_local_operation.h:58-86`). -/
def nullary1d {P : Type} (inp : InPolicy P) (pvals : List P) (result : List (Cell R)) :
    Option (List (Cell R)) :=
  seq1d (nullaryActs compute outp inp pvals) result.length result

/-- `operation_2d`, sequential (`algorithm/core/nullary_local_operation.h:94-132`). -/
def nullary2d {P : Type} (inp : InPolicy P) (pvals : List P) (rs : Nat × Nat)
    (result : List (Cell R)) : Option (List (Cell R)) :=
  seq2d (nullaryActs compute outp inp pvals) rs.1 rs.2 rs.2 result

/-- Parallel 1D: the tasks (`algorithm/core/nullary_local_operation.h:229-259`). -/
def nullary1dTasks {P : Type} (nrThreads : Nat) (inp : InPolicy P) (pvals : List P)
    (result : List (Cell R)) : Option (List (List (Act (Cell R)))) := do
  parTasks (nullaryActs compute outp inp pvals) (← blocks1d nrThreads result.length)

/-- Parallel 2D: the tasks (`algorithm/core/nullary_local_operation.h:315-347`). -/
def nullary2dTasks {P : Type} (nrThreads : Nat) (inp : InPolicy P) (pvals : List P)
    (rs : Nat × Nat) : Option (List (List (Act (Cell R)))) := do
  parTasks (nullaryActs compute outp inp pvals) (← blocks2d nrThreads rs.1 rs.2 rs.2)

end Nullary

section Disaggregate

variable {V R : Type} (op : LocalOp V R) (inp : InPolicy V) (outp : OutPolicy R)

/-- Body of the two loops of `operation_1d` and `operation_2d`
(`algorithm/core/unary_disaggregate_operation.h:83-118, 140-192`); `nd` is `is_no_data()` of the
scalar argument, which is tested before the loop. -/
def disaggregateActs (nd : Bool) (value : V) (_i : Nat) : Option (List (Cell R → Cell R)) :=
  if nd then some [outp.mark] else some (valueActs op outp value)

/-- `operation_0d` (`algorithm/core/unary_disaggregate_operation.h:31-64`). -/
def disaggregate0d (value : V) (result : Cell R) : Option (Cell R) := do
  run0d (disaggregateActs op outp (← inp.isNoData0 value) value 0) result

/-- Sequential 1D (`algorithm/core/unary_disaggregate_operation.h:75-119, 260-288`). -/
def disaggregate1d (value : V) (result : List (Cell R)) : Option (List (Cell R)) := do
  seq1d (disaggregateActs op outp (← inp.isNoData0 value) value) result.length result

/-- Parallel 1D: the tasks (`algorithm/core/unary_disaggregate_operation.h:299-345`). -/
def disaggregate1dTasks (nrThreads : Nat) (value : V) (result : List (Cell R)) :
    Option (List (List (Act (Cell R)))) := do
  parTasks (disaggregateActs op outp (← inp.isNoData0 value) value)
    (← blocks1d nrThreads result.length)

/-- Sequential 2D (`algorithm/core/unary_disaggregate_operation.h:130-193, 358-390`). -/
def disaggregate2d (value : V) (rs : Nat × Nat) (result : List (Cell R)) :
    Option (List (Cell R)) := do
  seq2d (disaggregateActs op outp (← inp.isNoData0 value) value) rs.1 rs.2 rs.2 result

/-- Parallel 2D: the tasks (`algorithm/core/unary_disaggregate_operation.h:400-450`). -/
def disaggregate2dTasks (nrThreads : Nat) (value : V) (rs : Nat × Nat) :
    Option (List (List (Act (Cell R)))) := do
  parTasks (disaggregateActs op outp (← inp.isNoData0 value) value)
    (← blocks2d nrThreads rs.1 rs.2 rs.2)

end Disaggregate

section Binary

variable {V1 V2 R : Type}

/-- `operation_0d_0d` (`algorithm/core/binary_local_operation.h:31-69`). The tests are joined by
`||`, so the second policy is asked only if the first says no. -/
def binary0d0d (op : LocalOp (V1 × V2) R) (in1 : InPolicy V1) (in2 : InPolicy V2)
    (outp : OutPolicy R) (value1 : V1) (value2 : V2) (result : Cell R) : Option (Cell R) :=
  run0d (do
    if ← in1.isNoData0 value1 then some [outp.mark]
    else if ← in2.isNoData0 value2 then some [outp.mark]
    else some (valueActs op outp (value1, value2))) result

/-- Body of the loops of `operation_1d_0d` and `operation_2d_0d`
(`algorithm/core/binary_local_operation.h:81-132, 260-331`); `nd2` is `is_no_data()` of the scalar
second argument, tested before the loop. -/
def binaryArr0dActs (op : LocalOp (V1 × V2) R) (in1 : InPolicy V1) (outp : OutPolicy R)
    (nd2 : Bool) (value1 : List V1) (value2 : V2) (i : Nat) : Option (List (Cell R → Cell R)) := do
  if nd2 then some [outp.mark]
  else if ← in1.isNoData value1 i then some [outp.mark]
  else some (valueActs op outp (← value1[i]?, value2))

/-- Body of the loops of `operation_0d_2d` (`algorithm/core/binary_local_operation.h:343-414`). -/
def binary0dArrActs (op : LocalOp (V1 × V2) R) (in2 : InPolicy V2) (outp : OutPolicy R)
    (nd1 : Bool) (value1 : V1) (value2 : List V2) (i : Nat) : Option (List (Cell R → Cell R)) := do
  if nd1 then some [outp.mark]
  else if ← in2.isNoData value2 i then some [outp.mark]
  else some (valueActs op outp (value1, ← value2[i]?))

/-- Body of the loop of `operation_0d_1d` (`algorithm/core/binary_local_operation.h:144-196`). Line
172 declares the second value with the *first* value's type, so it is converted (`conv`) first. -/
def binary0d1dActs (op : LocalOp (V1 × V1) R) (conv : V2 → V1) (in2 : InPolicy V2)
    (outp : OutPolicy R) (nd1 : Bool) (value1 : V1) (value2 : List V2) (i : Nat) :
    Option (List (Cell R → Cell R)) := do
  if nd1 then some [outp.mark]
  else if ← in2.isNoData value2 i then some [outp.mark]
  else some (valueActs op outp (value1, conv (← value2[i]?)))

/-- Body of the loop of `operation_1d_1d` (`algorithm/core/binary_local_operation.h:208-248`). Line
225 declares the second value with the *first* value's type, so it is converted (`conv`) first. -/
def binary1d1dActs (op : LocalOp (V1 × V1) R) (conv : V2 → V1) (in1 : InPolicy V1)
    (in2 : InPolicy V2) (outp : OutPolicy R) (value1 : List V1) (value2 : List V2) (i : Nat) :
    Option (List (Cell R → Cell R)) := do
  if ← in1.isNoData value1 i then some [outp.mark]
  else if ← in2.isNoData value2 i then some [outp.mark]
  else some (valueActs op outp (← value1[i]?, conv (← value2[i]?)))

/-- Body of the loop of `operation_2d_2d` (`algorithm/core/binary_local_operation.h:426-476`). -/
def binary2d2dActs (op : LocalOp (V1 × V2) R) (in1 : InPolicy V1)
    (in2 : InPolicy V2) (outp : OutPolicy R) (value1 : List V1) (value2 : List V2) (i : Nat) :
    Option (List (Cell R → Cell R)) := do
  if ← in1.isNoData value1 i then some [outp.mark]
  else if ← in2.isNoData value2 i then some [outp.mark]
  else some (valueActs op outp (← value1[i]?, ← value2[i]?))

/-- 1D/0D, sequential (`algorithm/core/binary_local_operation.h:551-585`). -/
def binary1d0d (op : LocalOp (V1 × V2) R) (in1 : InPolicy V1) (in2 : InPolicy V2)
    (outp : OutPolicy R) (value1 : List V1) (value2 : V2) (result : List (Cell R)) :
    Option (List (Cell R)) := do
  assert' (value1.length == result.length)
  seq1d (binaryArr0dActs op in1 outp (← in2.isNoData0 value2) value1 value2) value1.length result

/-- 1D/0D, parallel: the tasks (`algorithm/core/binary_local_operation.h:597-650`). -/
def binary1d0dTasks (nrThreads : Nat) (op : LocalOp (V1 × V2) R) (in1 : InPolicy V1)
    (in2 : InPolicy V2) (outp : OutPolicy R) (value1 : List V1) (value2 : V2)
    (result : List (Cell R)) : Option (List (List (Act (Cell R)))) := do
  assert' (value1.length == result.length)
  parTasks (binaryArr0dActs op in1 outp (← in2.isNoData0 value2) value1 value2)
    (← blocks1d nrThreads value1.length)

/-- 0D/1D, sequential (`algorithm/core/binary_local_operation.h:736-770`). -/
def binary0d1d (op : LocalOp (V1 × V1) R) (conv : V2 → V1) (in1 : InPolicy V1) (in2 : InPolicy V2)
    (outp : OutPolicy R) (value1 : V1) (value2 : List V2) (result : List (Cell R)) :
    Option (List (Cell R)) := do
  assert' (value2.length == result.length)
  seq1d (binary0d1dActs op conv in2 outp (← in1.isNoData0 value1) value1 value2) value2.length
    result

/-- 0D/1D, parallel: the tasks (`algorithm/core/binary_local_operation.h:782-833`; no size assert
here). -/
def binary0d1dTasks (nrThreads : Nat) (op : LocalOp (V1 × V1) R) (conv : V2 → V1)
    (in1 : InPolicy V1) (in2 : InPolicy V2) (outp : OutPolicy R) (value1 : V1) (value2 : List V2) :
    Option (List (List (Act (Cell R)))) := do
  parTasks (binary0d1dActs op conv in2 outp (← in1.isNoData0 value1) value1 value2)
    (← blocks1d nrThreads value2.length)

/-- 1D/1D, sequential (`algorithm/core/binary_local_operation.h:919-954`). -/
def binary1d1d (op : LocalOp (V1 × V1) R) (conv : V2 → V1) (in1 : InPolicy V1) (in2 : InPolicy V2)
    (outp : OutPolicy R) (value1 : List V1) (value2 : List V2) (result : List (Cell R)) :
    Option (List (Cell R)) := do
  assert' (value1.length == value2.length)
  assert' (value2.length == result.length)
  seq1d (binary1d1dActs op conv in1 in2 outp value1 value2) value1.length result

/-- 1D/1D, parallel: the tasks (`algorithm/core/binary_local_operation.h:966-1020`). -/
def binary1d1dTasks (nrThreads : Nat) (op : LocalOp (V1 × V1) R) (conv : V2 → V1)
    (in1 : InPolicy V1) (in2 : InPolicy V2) (outp : OutPolicy R) (value1 : List V1)
    (value2 : List V2) (result : List (Cell R)) : Option (List (List (Act (Cell R)))) := do
  assert' (value1.length == value2.length)
  assert' (value2.length == result.length)
  parTasks (binary1d1dActs op conv in1 in2 outp value1 value2) (← blocks1d nrThreads value1.length)

/-- 2D/0D, sequential (`algorithm/core/binary_local_operation.h:1106-1143`). -/
def binary2d0d (op : LocalOp (V1 × V2) R) (in1 : InPolicy V1) (in2 : InPolicy V2)
    (outp : OutPolicy R) (vs1 : Nat × Nat) (value1 : List V1) (value2 : V2) (rs : Nat × Nat)
    (result : List (Cell R)) : Option (List (Cell R)) := do
  assert' (vs1.1 == rs.1)
  assert' (vs1.2 == rs.2)
  seq2d (binaryArr0dActs op in1 outp (← in2.isNoData0 value2) value1 value2) vs1.1 vs1.2 rs.2 result

/-- 2D/0D, parallel: the tasks (`algorithm/core/binary_local_operation.h:1155-1211`). -/
def binary2d0dTasks (nrThreads : Nat) (op : LocalOp (V1 × V2) R) (in1 : InPolicy V1)
    (in2 : InPolicy V2) (outp : OutPolicy R) (vs1 : Nat × Nat) (value1 : List V1) (value2 : V2)
    (rs : Nat × Nat) : Option (List (List (Act (Cell R)))) := do
  assert' (vs1.1 == rs.1)
  assert' (vs1.2 == rs.2)
  parTasks (binaryArr0dActs op in1 outp (← in2.isNoData0 value2) value1 value2)
    (← blocks2d nrThreads vs1.1 vs1.2 rs.2)

/-- 0D/2D, sequential (`algorithm/core/binary_local_operation.h:1297-1334`). -/
def binary0d2d (op : LocalOp (V1 × V2) R) (in1 : InPolicy V1) (in2 : InPolicy V2)
    (outp : OutPolicy R) (value1 : V1) (vs2 : Nat × Nat) (value2 : List V2) (rs : Nat × Nat)
    (result : List (Cell R)) : Option (List (Cell R)) := do
  assert' (vs2.1 == rs.1)
  assert' (vs2.2 == rs.2)
  seq2d (binary0dArrActs op in2 outp (← in1.isNoData0 value1) value1 value2) vs2.1 vs2.2 rs.2 result

/-- 0D/2D, parallel: the tasks (`algorithm/core/binary_local_operation.h:1346-1402`). -/
def binary0d2dTasks (nrThreads : Nat) (op : LocalOp (V1 × V2) R) (in1 : InPolicy V1)
    (in2 : InPolicy V2) (outp : OutPolicy R) (value1 : V1) (vs2 : Nat × Nat) (value2 : List V2)
    (rs : Nat × Nat) : Option (List (List (Act (Cell R)))) := do
  assert' (vs2.1 == rs.1)
  assert' (vs2.2 == rs.2)
  parTasks (binary0dArrActs op in2 outp (← in1.isNoData0 value1) value1 value2)
    (← blocks2d nrThreads vs2.1 vs2.2 rs.2)

/-- 2D/2D, sequential (`algorithm/core/binary_local_operation.h:1488-1527`). -/
def binary2d2d (op : LocalOp (V1 × V2) R) (in1 : InPolicy V1) (in2 : InPolicy V2)
    (outp : OutPolicy R) (vs1 : Nat × Nat) (value1 : List V1) (vs2 : Nat × Nat) (value2 : List V2)
    (rs : Nat × Nat) (result : List (Cell R)) : Option (List (Cell R)) := do
  assert' (vs1.1 == vs2.1)
  assert' (vs1.2 == vs2.2)
  assert' (vs1.1 == rs.1)
  assert' (vs1.2 == rs.2)
  seq2d (binary2d2dActs op in1 in2 outp value1 value2) vs1.1 vs1.2 rs.2 result

/-- 2D/2D, parallel: the tasks (`algorithm/core/binary_local_operation.h:1539-1597`). -/
def binary2d2dTasks (nrThreads : Nat) (op : LocalOp (V1 × V2) R) (in1 : InPolicy V1)
    (in2 : InPolicy V2) (outp : OutPolicy R) (vs1 : Nat × Nat) (value1 : List V1) (vs2 : Nat × Nat)
    (value2 : List V2) (rs : Nat × Nat) : Option (List (List (Act (Cell R)))) := do
  assert' (vs1.1 == vs2.1)
  assert' (vs1.2 == vs2.2)
  assert' (vs1.1 == rs.1)
  assert' (vs1.2 == rs.2)
  parTasks (binary2d2dActs op in1 in2 outp value1 value2) (← blocks2d nrThreads vs1.1 vs1.2 rs.2)

end Binary

section NAry

variable {V : Type}

/-- An operation of which arguments *are* the result (`own1`: the first one, `own2`: the second one):
`v1` and `v2` are references (`const_reference<Value1> v1(get(value1, i))`,
`algorithm/core/binary_local_operation.h:224-225, 449-450`; `const_reference` is `T const&` for all
kinds of arrays, e.g. `feature/core/data_type_traits/array.h:68`). When `within_range(v1, v2, r)` is
asked, the algorithm has stored its result already, so such an argument is the new value. The
algorithm itself, and `within_domain`, get the value from before. (All algorithms assign to `r` in
their last step.) -/
def LocalOp.aliased {V : Type} (op : LocalOp (V × V) V) (own1 own2 : Bool) : LocalOp (V × V) V :=
  { op with withinRange := fun a r => op.withinRange (if own1 then r else a.1, if own2 then r else a.2) r }

@[inherit_doc LocalOp.aliased]
def LocalOp.aliasedUnary {V : Type} (op : LocalOp V V) (own : Bool) : LocalOp V V :=
  { op with withinRange := fun a r => op.withinRange (if own then r else a) r }

/-- Body of the loop of `f(r, r, v)`: a binary local operation of which the first argument *is* the
result (`algorithm/core/n_ary_local_operation.h:126-139` with `binary_local_operation.h:208-248`).
The policies still look at the original first two arguments `value1` and `value2`, to which they were
bound when they were made. `rv`: the values of the result at the start of the loop; the body reads
only the element that it is going to write. All arrays are 1D, of the same value type. -/
def inPlaceActs (op : LocalOp (V × V) V) (in1 in2 : InPolicy V) (outp : OutPolicy V)
    (value1 value2 : List V) (rv : List V) (value : List V) (i : Nat) :
    Option (List (Cell V → Cell V)) := do
  if ← in1.isNoData value1 i then some [outp.mark]
  else if ← in2.isNoData value2 i then some [outp.mark]
  else some (valueActs (op.aliased true false) outp (← rv[i]?, ← value[i]?))

/-- `f(r, r, v)` (see `inPlaceActs`). -/
def binaryInPlace (op : LocalOp (V × V) V) (in1 in2 : InPolicy V) (outp : OutPolicy V)
    (value1 value2 : List V) (result : List (Cell V)) (value : List V) : Option (List (Cell V)) := do
  assert' (result.length == value.length)
  seq1d (inPlaceActs op in1 in2 outp value1 value2 (result.map Cell.val) value) result.length result

/-- `NAryLocalOperation::apply(result, value1, value2, values...)`
(`algorithm/core/n_ary_local_operation.h:32-142`) for 1D arrays: from the tuple of input no-data
policies `ins` only the first two are ever asked (`binary_local_operation.h:219-220`). -/
def nAry (op : LocalOp (V × V) V) (ins : List (InPolicy V)) (outp : OutPolicy V)
    (result : List (Cell V)) (value1 value2 : List V) (values : List (List V)) :
    Option (List (Cell V)) := do
  let in1 ← ins[0]?
  let in2 ← ins[1]?
  forIn' values (fun v result => binaryInPlace op in1 in2 outp value1 value2 result v)
    (← binary1d1d op id in1 in2 outp value1 value2 result)

end NAry

end Fern
