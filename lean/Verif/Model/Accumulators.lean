import Verif.Model.Aggregate
/-
The other accumulators: `algorithm/accumulator/{count,mean,min,max,range,median,mode}.h` and
`algorithm/accumulator/detail/frequency_table.h`, for integer types. `a` is the template parameter
`Argument`, `r` is `Result`.
-/
namespace Fern

open IntTy

/-- `accumulator::Count<Argument, Result>` as used with an out of range policy: the constructor
(`algorithm/accumulator/count.h:67-75`), `operator()<Policy>(value)` (125-138), `operator|=<Policy>`
(170-180), which adds one whatever the count of the other is, and `operator()()` (144-150). -/
def countAcc {V : Type} (q : SumPolicy) (r : IntTy) : Accumulator Int V Int where
  init := 0
  add s _ := do
    let x ← (cAdd r .i32 s 1).map r.wrap
    some (x, q.withinRange r s 1 x)
  merge s _ := do
    let x ← (cAdd r .i32 s 1).map r.wrap
    some (x, q.withinRange r s 1 x)
  result s := some s

/-- `accumulator::Count<Argument, Result>` without policy: `operator()(value)`
(`algorithm/accumulator/count.h:115-122`) and `operator|=` (159-167). -/
def countAccPlain {V : Type} (r : IntTy) : Accumulator Int V Int where
  init := 0
  add s _ := ((cAdd r .i32 s 1).map r.wrap).map (·, true)
  merge s s' := ((cAdd r r s s').map r.wrap).map (·, true)
  result s := some s

/-- `accumulator::Mean<T, T>` (`algorithm/accumulator/mean.h:84-216`) as used with an out of range
policy: a `Sum<T, T>` and a `Count<T, size_t>` to which the policy is not applied. `operator()()`
asserts that the count is larger than zero and divides the sum by the count *converted to `T`*. -/
def meanAcc (q : SumPolicy) (t : IntTy) : Accumulator (Int × Int) Int Int where
  init := ((sumAcc q t).init, (countAccPlain (V := Int) .u64).init)
  add s v := do
    let (n, _) ← (countAccPlain .u64).add s.2 v
    let (x, ok) ← (sumAcc q t).add s.1 v
    some ((x, n), ok)
  merge s s' := do
    let (n, _) ← (countAccPlain (V := Int) .u64).merge s.2 s'.2
    let (x, ok) ← (sumAcc q t).merge s.1 s'.1
    some ((x, n), ok)
  result s := if 0 < s.2 then (cDiv t t s.1 (t.wrap s.2)).map t.wrap else none

/-- `accumulator::Max<Argument, Result>` (`algorithm/accumulator/max.h:62-150`). -/
def maxAcc (a r : IntTy) : Accumulator Int Int Int where
  init := a.min
  add s v := some (if s < v then v else s, true)
  merge s s' := some (if s < s' then s' else s, true)
  result s := some (r.wrap s)

/-- `accumulator::Min<Argument, Result>` (`algorithm/accumulator/min.h:62-150`). -/
def minAcc (a r : IntTy) : Accumulator Int Int Int where
  init := a.max
  add s v := some (if v < s then v else s, true)
  merge s s' := some (if s' < s then s' else s, true)
  result s := some (r.wrap s)

/-- `accumulator::Range<Argument, Result>` (`algorithm/accumulator/range.h:61-156`): the state consists
of a `Min` and a `Max`; the result is the difference of their results. -/
def rangeAcc (a r : IntTy) : Accumulator (Int × Int) Int Int where
  init := ((minAcc a r).init, (maxAcc a r).init)
  add s v := do
    let (x, _) ← (minAcc a r).add s.1 v
    let (y, _) ← (maxAcc a r).add s.2 v
    some ((x, y), true)
  merge s s' := do
    let (x, _) ← (minAcc a r).merge s.1 s'.1
    let (y, _) ← (maxAcc a r).merge s.2 s'.2
    some ((x, y), true)
  result s := do
    let x ← (minAcc a r).result s.1
    let y ← (maxAcc a r).result s.2
    (cSub r r y x).map r.wrap

/-- `Median::operator()()` (`algorithm/accumulator/median.h:133-155`). -/
def medianResult (a r : IntTy) (values : List Int) : Option Int :=
  if values = [] then none
  else
    let sorted := values.mergeSort
    let center := sorted.length / 2
    if sorted.length % 2 = 1 then sorted[center]?.map r.wrap
    else do
      let x ← sorted[center - 1]?
      let y ← sorted[center]?
      let z ← (cAdd a a x y).map r.wrap
      (cDiv r .i32 z 2).map r.wrap

/-- `accumulator::Median<Argument, Result>` (`algorithm/accumulator/median.h:65-173`). That asking for the
result sorts the (mutable) values is left out: the next result sorts them again. -/
def medianAcc (a r : IntTy) : Accumulator (List Int) Int Int where
  init := []
  add s v := some (s ++ [v], true)
  merge s s' := some (s ++ s', true)
  result := medianResult a r

/-- The contents of a `detail::FrequencyTable` (`algorithm/accumulator/detail/frequency_table.h:23-50`):
an `unordered_map`, here a list of pairs. Frequencies have type `size_t`; that they wrap is left out. -/
abbrev FreqTable := List (Int × Nat)

/-- `++_frequency[value]` and `_frequency.insert(pair)` or `position->second += pair.second`
(`algorithm/accumulator/detail/frequency_table.h:100-106,118-124`): add `n` to the frequency of `v`, which
is zero if absent. -/
def FreqTable.bump (v : Int) (n : Nat) : FreqTable → FreqTable
  | [] => [(v, n)]
  | (w, k) :: t => if w = v then (w, k + n) :: t else (w, k) :: FreqTable.bump v n t

/-- `FrequencyTable::operator|=` (`algorithm/accumulator/detail/frequency_table.h:112-128`). `order` is
the order in which the map is iterated over, which is not specified. -/
def FreqTable.merge (order : FreqTable → FreqTable) (t t' : FreqTable) : FreqTable :=
  (order t').foldl (fun t p => t.bump p.1 p.2) t

/-- `std::max_element` comparing the frequencies: the first of the largest
(`algorithm/accumulator/detail/frequency_table.h:165-167`). -/
def FreqTable.maxElement : FreqTable → Option (Int × Nat)
  | [] => none
  | p :: t => some (t.foldl (fun m p => if m.2 < p.2 then p else m) p)

/-- `accumulator::Mode<Argument, Result>` (`algorithm/accumulator/mode.h:63-148`) and
`FrequencyTable::mode` (`algorithm/accumulator/detail/frequency_table.h:153-170`). The default
constructor constructs the table with the *value* 0. -/
def modeAcc (order : FreqTable → FreqTable) (r : IntTy) : Accumulator FreqTable Int Int where
  init := [(0, 1)]
  add s v := some (s.bump v 1, true)
  merge s s' := some (FreqTable.merge order s s', true)
  result s := (FreqTable.maxElement (order s)).map (fun p => r.wrap p.1)

/-- The constructor that gets a value (`algorithm/accumulator/mode.h:77-86`,
`detail/frequency_table.h:70-78`). -/
def modeOfValue (v : Int) : FreqTable := [(v, 1)]

end Fern
