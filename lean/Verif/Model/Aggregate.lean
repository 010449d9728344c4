import Verif.Model.Loop
import Verif.Model.Policy
import Verif.Model.Arith
/-
Aggregate operations: `algorithm/core/unary_aggregate_operation.h` (with `algorithm/statistic/sum.h`)
and `algorithm/core/binary_aggregate_operation.h` (with `algorithm/statistic/count.h`).
-/
namespace Fern

/-- An accumulator class (`algorithm/accumulator/*.h`) as it is used through `Adder`
(`algorithm/core/unary_aggregate_operation.h:41-109`). `add` and `merge` return the new state and
whether the result is within range (always, when the class has no `out_of_range_risk`); `none` is
undefined behaviour. -/
structure Accumulator (S V R : Type) where
  /-- default constructor -/
  init : S
  /-- `Adder::add(accumulator, value)` -/
  add : S → V → Option (S × Bool)
  /-- `Adder::merge(accumulator, other)` -/
  merge : S → S → Option (S × Bool)
  /-- `accumulator()` -/
  result : S → Option R

/-- The tuple that the `operation_?d` functions return. -/
structure Aggregated (S : Type) where
  initialized : Bool
  withinRange : Bool
  acc : S
  deriving DecidableEq, Repr

section

variable {S V R : Type} (A : Accumulator S V R) (p : InPolicy V) (vals : List V)

/-- `operation_0d` (`algorithm/core/unary_aggregate_operation.h:118-136`). -/
def aggregate0d (v : V) : Option (Aggregated S) := do
  if ← p.isNoData0 v then some ⟨false, true, A.init⟩
  else
    let (s, ok) ← A.add A.init v
    some ⟨true, ok, s⟩

/-- The inner loop of `operation_1d` (`algorithm/core/unary_aggregate_operation.h:173-185`), on the
indices that are left. -/
def aggregateRest : List Nat → S → Option (Bool × S)
  | [], s => some (true, s)
  | i :: l, s => do
    if ← p.isNoData vals i then aggregateRest l s
    else
      let (s', ok) ← A.add s (← vals[i]?)
      if ok then aggregateRest l s' else some (false, s')

/-- The outer loop of `operation_1d` (`algorithm/core/unary_aggregate_operation.h:163-192`). After the
inner loop `i` is at the end, or the result is not within range, so the outer loop ends. -/
def aggregateFirst : List Nat → Option (Aggregated S)
  | [] => some ⟨false, true, A.init⟩
  | i :: l => do
    if ← p.isNoData vals i then aggregateFirst l
    else
      let (s, ok) ← A.add A.init (← vals[i]?)
      if ok then
        let (ok', s') ← aggregateRest A p vals l s
        some ⟨true, ok', s'⟩
      else some ⟨true, false, s⟩

/-- `operation_1d` (`algorithm/core/unary_aggregate_operation.h:145-197`). -/
def aggregate1d (r : IndexRange) : Option (Aggregated S) := aggregateFirst A p vals r.indices

/-- The inner initialisation loop of `operation_2d` (`algorithm/core/unary_aggregate_operation.h:
236-257`), `k` columns left. Returns `j`, the accumulator and whether it is within range when a value
is found. -/
def initCols : Nat → Nat → Nat → Option (Option (Nat × S × Bool))
  | 0, _, _ => some none
  | k + 1, j, index => do
    if ← p.isNoData vals index then initCols k (j + 1) (index + 1)
    else
      let (s, ok) ← A.add A.init (← vals[index]?)
      some (some (j, s, ok))

/-- The initialisation loop of `operation_2d` (`algorithm/core/unary_aggregate_operation.h:231-262`),
`k` rows left. Returns the `i` and `j` to continue with. -/
def initRows (nrCols : Nat) (cols : IndexRange) : Nat → Nat → Option (Option (Nat × Nat × S × Bool))
  | 0, _ => some none
  | k + 1, i => do
    match ← initCols A p vals (cols.e - cols.b) cols.b (linearIndex nrCols i cols.b) with
    | some (j, s, ok) =>
      if j < cols.e - 1 then some (some (i, j + 1, s, ok)) else some (some (i + 1, cols.b, s, ok))
    | none => initRows nrCols cols k (i + 1)

/-- The inner loop that continues (`algorithm/core/unary_aggregate_operation.h:271-286`). Returns the
value of `j` after the loop as well. -/
def contCols : Nat → Nat → Nat → S → Bool → Option (Nat × S × Bool)
  | 0, j, _, s, ok => some (j, s, ok)
  | k + 1, j, index, s, ok => do
    if ← p.isNoData vals index then contCols k (j + 1) (index + 1) s ok
    else
      let (s', ok') ← A.add s (← vals[index]?)
      if ok' then contCols k (j + 1) (index + 1) s' ok' else some (j, s', ok')

/-- The loop that continues (`algorithm/core/unary_aggregate_operation.h:267-297`), `k` rows left. -/
def contRows (nrCols : Nat) (cols : IndexRange) : Nat → Nat → Nat → S → Bool → Option (S × Bool)
  | 0, _, _, s, ok => some (s, ok)
  | k + 1, i, j, s, ok => do
    let (j', s', ok') ← contCols A p vals (cols.e - j) j (linearIndex nrCols i j) s ok
    if j' ≠ cols.e then some (s', ok') else contRows nrCols cols k (i + 1) cols.b s' ok'

/-- `operation_2d` (`algorithm/core/unary_aggregate_operation.h:206-303`). -/
def aggregate2d (nrCols : Nat) (r : IndexRanges2) : Option (Aggregated S) :=
  if r.rows.b < r.rows.e ∧ r.cols.b < r.cols.e then do
    match ← initRows A p vals nrCols r.cols (r.rows.e - r.rows.b) r.rows.b with
    | none => some ⟨false, true, A.init⟩
    | some (i, j, s, ok) =>
      let (s', ok') ← contRows A p vals nrCols r.cols (r.rows.e - i) i j s ok
      some ⟨true, ok', s'⟩
  else some ⟨false, true, A.init⟩

/-- Assign or mark the result (`algorithm/core/unary_aggregate_operation.h:409-415`, same in the other
specialisations). -/
def storeAggregate (outp : OutPolicy R) (a : Aggregated S) (c : Cell R) : Option (Cell R) :=
  if a.initialized && a.withinRange then (A.result a.acc).map (fun x => ⟨x, c.masked⟩)
  else some (outp.mark c)

/-- `UnaryAggregateOperation<.., array_0d_tag>::apply`
(`algorithm/core/unary_aggregate_operation.h:344-367`). -/
def aggregateSeq0d (outp : OutPolicy R) (v : V) (c : Cell R) : Option (Cell R) := do
  storeAggregate A outp (← aggregate0d A p v) c

/-- `UnaryAggregateOperation<.., SequentialExecutionPolicy, array_1d_tag>::apply`
(`algorithm/core/unary_aggregate_operation.h:392-416`). -/
def aggregateSeq1d (outp : OutPolicy R) (c : Cell R) : Option (Cell R) := do
  storeAggregate A outp (← aggregate1d A p vals ⟨0, vals.length⟩) c

/-- `UnaryAggregateOperation<.., SequentialExecutionPolicy, array_2d_tag>::apply`
(`algorithm/core/unary_aggregate_operation.h:601-626`), for a `size1` x `size2` array. -/
def aggregateSeq2d (size1 size2 : Nat) (outp : OutPolicy R) (c : Cell R) : Option (Cell R) := do
  storeAggregate A outp (← aggregate2d A p vals size2 ⟨⟨0, size1⟩, ⟨0, size2⟩⟩) c

/-- The loop that merges the results of the blocks
(`algorithm/core/unary_aggregate_operation.h:479-501`). -/
def mergeBlocks : List (Aggregated S) → Aggregated S → Option (Aggregated S)
  | [], a => some a
  | b :: l, a =>
    if b.initialized then
      if b.withinRange then do
        let (s, ok) ← A.merge a.acc b.acc
        if ok then mergeBlocks l ⟨true, true, s⟩ else some ⟨true, false, s⟩
      else some { a with withinRange := false }
    else mergeBlocks l a

/-- `UnaryAggregateOperation<.., ParallelExecutionPolicy, array_1d_tag>::apply`
(`algorithm/core/unary_aggregate_operation.h:441-510`). The tasks only read the argument and return
their result in a future; the futures are asked in block order. Hence the result does not depend on
how the tasks are scheduled. -/
def aggregatePar1d (nrThreads : Nat) (outp : OutPolicy R) (c : Cell R) : Option (Cell R) := do
  let ranges ← indexRanges nrThreads vals.length
  let blocks ← ranges.mapM (aggregate1d A p vals)
  storeAggregate A outp (← mergeBlocks A blocks ⟨false, false, A.init⟩) c

/-- `UnaryAggregateOperation<.., ParallelExecutionPolicy, array_2d_tag>::apply`
(`algorithm/core/unary_aggregate_operation.h:651-722`). -/
def aggregatePar2d (nrThreads size1 size2 : Nat) (outp : OutPolicy R) (c : Cell R) :
    Option (Cell R) := do
  let ranges ← indexRanges2 nrThreads size1 size2
  let blocks ← ranges.mapM (aggregate2d A p vals size2)
  storeAggregate A outp (← mergeBlocks A blocks ⟨false, false, A.init⟩) c

end

/-- Out of range policy of `sum`: `binary::DiscardRangeErrors`, or `sum::OutOfRangePolicy` which is
`add`'s (`algorithm/statistic/sum.h:21-25,84`). -/
inductive SumPolicy where
  | discard
  | detect
  deriving DecidableEq, Repr

/-- `OutOfRangePolicy<Result, Argument, Result>::within_range(previous_sum, value, sum)`
(`algorithm/accumulator/sum.h:166`). -/
def SumPolicy.withinRange (q : SumPolicy) (t : IntTy) (prev v x : Int) : Bool :=
  match q with
  | .discard => true
  | .detect => addRange t t t prev v x

/-- `accumulator::Sum<T, T>` (`algorithm/accumulator/sum.h:79-197`): `_sum += value`, then the policy
is asked. `|=` with a policy adds the other's sum. `statistic::sum` requires the value types of
argument and result to be equal (`algorithm/statistic/sum.h:59`). Integer types only. -/
def sumAcc (q : SumPolicy) (t : IntTy) : Accumulator Int Int Int where
  init := 0
  add s v := do
    let x ← (cAdd t t s v).map t.wrap
    some (x, q.withinRange t s v x)
  merge s s' := do
    let x ← (cAdd t t s s').map t.wrap
    some (x, q.withinRange t s s' x)
  result s := some s

/-! ### Binary aggregates -/

/-- The algorithm and range policy of a binary aggregate
(`algorithm/core/binary_aggregate_operation.h:56-113`). -/
structure BinaryAggregate (V R : Type) where
  /-- `init(values[i], value, result)` -/
  init : V → V → R
  /-- `calculate(values[i], value, result)` -/
  calculate : V → V → R → Option R
  withinRange : V → V → R → Bool

section

variable {V R : Type} (B : BinaryAggregate V R) (p : InPolicy V) (vals : List V) (value : V)

/-- What the operations change: `result` and whether `mark_as_no_data` is called. -/
structure BinaryResult (R : Type) where
  result : R
  marked : Bool
  deriving DecidableEq, Repr

/-- The inner loop of `operation_1d` (`algorithm/core/binary_aggregate_operation.h:88-105`). Returns
the indices that are left when the loop is left: none, or those after the one where the result went
out of range. -/
def binaryRest : List Nat → R → BinaryResult R → Option (List Nat × BinaryResult R)
  | [], _, b => some ([], b)
  | i :: l, tmp, b => do
    if ← p.isNoData vals i then binaryRest l tmp b
    else
      let v ← vals[i]?
      let tmp' ← B.calculate v value tmp
      if B.withinRange v value tmp' then binaryRest l tmp' { b with result := tmp' }
      else some (l, { b with marked := true })

/-- The outer loop of `operation_1d` (`algorithm/core/binary_aggregate_operation.h:77-107`). Returns
`data_seen` as well. The inner loop leaves no more indices than it got, so the fuel `vals.length`
never runs out. -/
def binaryFirst : Nat → List Nat → Bool → BinaryResult R → Option (Bool × BinaryResult R)
  | _, [], seen, b => some (seen, b)
  | 0, _ :: _, _, _ => none
  | fuel + 1, i :: l, seen, b => do
    if ← p.isNoData vals i then binaryFirst fuel l seen b
    else
      let tmp := B.init (← vals[i]?) value
      let (l', b') ← binaryRest B p vals value l tmp { b with result := tmp }
      binaryFirst fuel l' true b'

/-- `operation_1d` (`algorithm/core/binary_aggregate_operation.h:56-113`). Simplification: the input
no-data policy of the second argument (a scalar) is `SkipNoData`. -/
def binary1d (r : IndexRange) (x : R) : Option (BinaryResult R) := do
  let (seen, b) ← binaryFirst B p vals value r.indices.length r.indices false ⟨x, false⟩
  some (if seen then b else { b with marked := true })

/-- The inner initialisation loop of `operation_2d` (`algorithm/core/binary_aggregate_operation.h:
156-170`), `k` columns left. Returns `j` after the loop, and the initial result if a value is found. -/
def binaryInitCols : Nat → Nat → Nat → Option (Nat × Option R)
  | 0, j, _ => some (j, none)
  | k + 1, j, index => do
    if ← p.isNoData vals index then binaryInitCols k (j + 1) (index + 1)
    else some (j, some (B.init (← vals[index]?) value))

/-- The initialisation loop of `operation_2d` (`algorithm/core/binary_aggregate_operation.h:152-175`),
`k` rows left. Note that `j` is not set to the first column again when a row is done. -/
def binaryInitRows (nrCols : Nat) (cols : IndexRange) :
    Nat → Nat → Nat → Option (Option (Nat × Nat × R))
  | 0, _, _ => some none
  | k + 1, i, j => do
    match ← binaryInitCols B p vals value (cols.e - j) j (linearIndex nrCols i j) with
    | (j', some tmp) => some (some (i, j', tmp))
    | (j', none) => binaryInitRows nrCols cols k (i + 1) j'

/-- The inner loop that continues (`algorithm/core/binary_aggregate_operation.h:185-207`). -/
def binaryContCols : Nat → Nat → Nat → R → BinaryResult R → Option (Nat × R × BinaryResult R)
  | 0, j, _, tmp, b => some (j, tmp, b)
  | k + 1, j, index, tmp, b => do
    if ← p.isNoData vals index then binaryContCols k (j + 1) (index + 1) tmp b
    else
      let v ← vals[index]?
      let tmp' ← B.calculate v value tmp
      if B.withinRange v value tmp' then
        binaryContCols k (j + 1) (index + 1) tmp' { b with result := tmp' }
      else some (j, tmp', { b with marked := true })

/-- The loop that continues (`algorithm/core/binary_aggregate_operation.h:181-218`), `k` rows left. -/
def binaryContRows (nrCols : Nat) (cols : IndexRange) :
    Nat → Nat → Nat → R → BinaryResult R → Option (BinaryResult R)
  | 0, _, _, _, b => some b
  | k + 1, i, j, tmp, b => do
    let (j', tmp', b') ← binaryContCols B p vals value (cols.e - j) j (linearIndex nrCols i j) tmp b
    if j' ≠ cols.e then some b' else binaryContRows nrCols cols k (i + 1) cols.b tmp' b'

/-- `operation_2d` (`algorithm/core/binary_aggregate_operation.h:124-225`). -/
def binary2d (nrCols : Nat) (r : IndexRanges2) (x : R) : Option (BinaryResult R) :=
  if r.rows.b < r.rows.e ∧ r.cols.b < r.cols.e then do
    match ← binaryInitRows B p vals value nrCols r.cols (r.rows.e - r.rows.b) r.rows.b r.cols.b with
    | none => some ⟨x, true⟩
    | some (i, j, tmp) =>
      binaryContRows B p vals value nrCols r.cols (r.rows.e - i) i (j + 1) tmp ⟨tmp, false⟩
  else some ⟨x, true⟩

/-- Effect on the result of the whole operation: a result is assigned and may be marked. Only in the
sequential operations is the result that is assigned the one that is marked. Simplification: marking
is the last thing that happens when it happens. This holds for `count`, the only such operation, which
is never out of range; other operations in one dimension would start again, and overwrite the mark,
after a result that is out of range. -/
def BinaryResult.store (b : BinaryResult R) (outp : OutPolicy R) (c : Cell R) : Cell R :=
  if b.marked then outp.mark ⟨b.result, c.masked⟩ else ⟨b.result, c.masked⟩

/-- `BinaryAggregateOperation<.., SequentialExecutionPolicy, array_1d_tag>::apply`
(`algorithm/core/binary_aggregate_operation.h:385-399`). -/
def binarySeq1d (outp : OutPolicy R) (c : Cell R) : Option (Cell R) :=
  (binary1d B p vals value ⟨0, vals.length⟩ c.val).map (fun b => b.store outp c)

/-- `BinaryAggregateOperation<.., SequentialExecutionPolicy, array_2d_tag>::apply`
(`algorithm/core/binary_aggregate_operation.h:567-590`). -/
def binarySeq2d (size1 size2 : Nat) (outp : OutPolicy R) (c : Cell R) : Option (Cell R) :=
  (binary2d B p vals value size2 ⟨⟨0, size1⟩, ⟨0, size2⟩⟩ c.val).map (fun b => b.store outp c)

/-- `Aggregate::apply` with the results per block (`algorithm/core/binary_aggregate_operation.h:
237-303`): the aggregator is a sequential 1D operation (`statistic::sum` for count) on the results of
the blocks, none of which is marked. -/
def binaryPar (agg : Accumulator R R R) (outp : OutPolicy R) (blocks : List (BinaryResult R))
    (c : Cell R) : Option (Cell R) :=
  let c' := blocks.foldl (fun c b => if b.marked then outp.mark c else c) c
  aggregateSeq1d agg .skip (blocks.map BinaryResult.result) outp c'

/-- `BinaryAggregateOperation<.., ParallelExecutionPolicy, array_1d_tag>::apply`
(`algorithm/core/binary_aggregate_operation.h:426-480`). Each task writes in its own element of
`results_per_block`, initially zero, but marks the result of the whole operation. -/
def binaryPar1d (agg : Accumulator R R R) (zero : R) (nrThreads : Nat) (outp : OutPolicy R)
    (c : Cell R) : Option (Cell R) := do
  let ranges ← indexRanges nrThreads vals.length
  let blocks ← ranges.mapM (fun r => binary1d B p vals value r zero)
  binaryPar agg outp blocks c

/-- `BinaryAggregateOperation<.., ParallelExecutionPolicy, array_2d_tag>::apply`
(`algorithm/core/binary_aggregate_operation.h:621-670`). -/
def binaryPar2d (agg : Accumulator R R R) (zero : R) (nrThreads size1 size2 : Nat)
    (outp : OutPolicy R) (c : Cell R) : Option (Cell R) := do
  let ranges ← indexRanges2 nrThreads size1 size2
  let blocks ← ranges.mapM (fun r => binary2d B p vals value size2 r zero)
  binaryPar agg outp blocks c

end

/-- `count` (`algorithm/statistic/detail/count.h:22-53,80-98`) with results of type `r`: range errors
are discarded. `V` is the value type, compared with `==`; for floating point
numbers, of which one is not equal to itself, see `countFlt`. -/
def countAgg {V : Type} [DecidableEq V] (r : IntTy) : BinaryAggregate V Int where
  init a v := if a = v then 1 else 0
  calculate a v x := (cAdd r .i32 x (if a = v then 1 else 0)).map r.wrap
  withinRange _ _ _ := true

end Fern
