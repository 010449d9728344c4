import Verif.Model.Aggregate
import Verif.Model.Domains

/-!
# Modes of floating point numbers

`accumulator::Mode<T, T>` and `accumulator::detail::FrequencyTable<T>` for `float` and `double`. Zeros have no sign: `0.0` and
`-0.0` are equal keys in C++ too, but which of both is the key depends on which one is inserted first.
-/

namespace Fern.FloatMode

open Fern Fern.Domains

/-- `std::unordered_map<T, size_t>` (`algorithm/accumulator/detail/frequency_table.h:49`) as a list of pairs. Frequencies have type
`size_t`; that they wrap is left out. -/
abbrev Table := List (Flt × Nat)

/-- `std::equal_to<T>`, with which the map compares keys: NaN is not equal to itself. -/
def equal (a b : Flt) : Bool := a ≠ .nan && a == b

/-- `++_frequency[value]` (`algorithm/accumulator/detail/frequency_table.h:100-106`), `_frequency.insert(pair)` and
`position->second += pair.second` (118-124): add `n` to the frequency of `v`. A pair is inserted if there is no equal key. -/
def bump (v : Flt) (n : Nat) : Table → Table
  | [] => [(v, n)]
  | (w, k) :: t => if equal w v then (w, k + n) :: t else (w, k) :: bump v n t

/-- `FrequencyTable::operator|=` (`algorithm/accumulator/detail/frequency_table.h:112-128`). `order` is the order in which the map is
iterated over, which is not specified. Merging a table with itself, which changes the map that is iterated over, is left out. -/
def merge (order : Table → Table) (t t' : Table) : Table := (order t').foldl (fun t p => bump p.1 p.2 t) t

/-- `std::max_element` comparing the frequencies (`algorithm/accumulator/detail/frequency_table.h:164-168`): the first of the
largest. -/
def maxElement : Table → Option (Flt × Nat)
  | [] => none
  | p :: t => some (t.foldl (fun m p => if m.2 < p.2 then p else m) p)

/-- `accumulator::Mode<T, T>` (`algorithm/accumulator/mode.h:63-148`) and `FrequencyTable::mode`
(`algorithm/accumulator/detail/frequency_table.h:153-170`), which asserts that the table isn't empty. The default constructor
constructs the table with the *value* 0. -/
def modeAcc (order : Table → Table) : Accumulator Table Flt Flt where
  init := [(.fin 0, 1)]
  add s v := some (bump v 1 s, true)
  merge s s' := some (merge order s s', true)
  result s := (maxElement (order s)).map (·.1)

/-- The constructor that gets a value, and assignment of a value (`algorithm/accumulator/mode.h:77-101`,
`algorithm/accumulator/detail/frequency_table.h:70-91`). -/
def modeOfValue (v : Flt) : Table := [(v, 1)]

/-- `FrequencyTable::size` (`algorithm/accumulator/detail/frequency_table.h:139-144`). -/
def size (t : Table) : Nat := t.length

end Fern.FloatMode
