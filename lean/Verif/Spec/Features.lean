import Verif.Model.Features

/-!
# Reaching features by names
-/

namespace Fern.Features.Spec

open Fern Fern.Features

variable {A : Type}

/-- Following names from feature `a` leads to feature `b`. -/
inductive Leads (h : Heap A) : Nat → List Str → Nat → Prop
  | here (a : Nat) : Leads h a [] a
  | step {a b c : Nat} {n : Str} {ns : List Str} (hn : (n, b) ∈ (h a).features) (hl : Leads h b ns c) :
    Leads h a (n :: ns) c

/-- No two entries of a map have the same key, and the keys are in order. -/
def Sorted {α : Type} (l : List (Str × α)) : Prop := l.Pairwise fun p q => strLt p.1 q.1 = true

/-- All maps are maps. -/
def Good (h : Heap A) : Prop := ∀ i, Sorted (h i).features ∧ Sorted (h i).attributes

/-- A path that names something below the feature it is used with: it ends with a name, and does not start with a
slash if that is the only name. -/
structure Proper (p : Path) (parents : List Str) (name : Str) : Prop where
  names : p.names = parents ++ [name]
  nonempty : ∀ n ∈ p.names, n ≠ []
  noTrailing : p.trailing = false
  relative : parents = [] → p.absolute = false

/-- Feature `i` got a new entry in a map, nothing else changed. -/
structure AddedFeature (h h' : Heap A) (i : Nat) (n : Str) (f : Nat) : Prop where
  others : ∀ j, j ≠ i → h' j = h j
  attributes : (h' i).attributes = (h i).attributes
  features : ∀ e, e ∈ (h' i).features ↔ e ∈ (h i).features ∨ e = (n, f)

@[inherit_doc AddedFeature]
structure AddedAttribute (h h' : Heap A) (i : Nat) (n : Str) (a : A) : Prop where
  others : ∀ j, j ≠ i → h' j = h j
  features : (h' i).features = (h i).features
  attributes : ∀ e, e ∈ (h' i).attributes ↔ e ∈ (h i).attributes ∨ e = (n, a)

end Fern.Features.Spec
