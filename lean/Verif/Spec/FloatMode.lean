import Verif.Model.FloatMode

/-!
# What modes of floating point numbers have to establish
-/

namespace Fern.FloatMode.Spec

open Fern Fern.Domains Fern.FloatMode

/-- How often a value equal to `v` occurs, if `v` is one of the values: NaN isn't equal to any other NaN. -/
def occurrences (vs : List Flt) (v : Flt) : Nat := if v = .nan then 1 else vs.count v

/-- None of the values occurs more often. -/
def IsMode (vs : List Flt) (m : Flt) : Prop := m ∈ vs ∧ ∀ v ∈ vs, occurrences vs v ≤ occurrences vs m

/-- A way to iterate over maps. -/
def Iteration (order : Table → Table) : Prop := ∀ t, List.Perm (order t) t

/-- `Built n vs s`: the state of an accumulator to which the values `vs` have been added, directly or by merging accumulators;
`n` of these were default constructed. -/
inductive Built : Nat → List Flt → Table → Prop
  | default (order : Table → Table) : Built 1 [] (modeAcc order).init
  | value (v : Flt) : Built 0 [v] (modeOfValue v)
  | add (order : Table → Table) (n : Nat) (vs : List Flt) (s s' : Table) (v : Flt) (ok : Bool) (h : Built n vs s)
      (hs : (modeAcc order).add s v = some (s', ok)) : Built n (vs ++ [v]) s'
  | merge (order : Table → Table) (ho : Iteration order) (n n' : Nat) (vs vs' : List Flt) (s s' s'' : Table) (ok : Bool)
      (h : Built n vs s) (h' : Built n' vs' s') (hs : (modeAcc order).merge s s' = some (s'', ok)) :
      Built (n + n') (vs ++ vs') s''

end Fern.FloatMode.Spec
