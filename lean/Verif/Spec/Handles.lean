import Verif.Model.Handles

/-!
# Who owns what is open
-/

namespace Fern.Handles.Spec

/-- What an object gives access to: what is open under its identifier. -/
def access (w : World) (x : Nat) : Option Nat := (w.object x).bind w.lib

/-- Something is open. -/
def isOpen (w : World) (r : Nat) : Prop := ∃ id, w.lib id = some r

/-- Nothing is lost, nothing is closed twice, nothing that is used is closed: each thing that has been opened is
either closed, once, or open and then accessible by exactly one object; objects that are not empty give access to
something; no identifier was ever closed without need. -/
structure Owned (w : World) : Prop where
  once : w.closed.Nodup
  known : ∀ r, r < w.opened ↔ r ∈ w.closed ∨ isOpen w r
  apart : ∀ r, r ∈ w.closed → ¬ isOpen w r
  owner : ∀ r, isOpen w r → ∃ x, access w x = some r ∧ ∀ y, access w y = some r → y = x
  valid : ∀ x id, w.object x = some id → id ≠ 0 → access w x ≠ none
  good : w.bad = 0

/-- The objects that an operation names. -/
def names : Op → List Nat
  | .create x _ => [x]
  | .empty x => [x]
  | .moveNew x y => [x, y]
  | .moveTo x y => [x, y]
  | .destroy x => [x]

/-- The operation is no move. -/
def Still : Op → Prop
  | .moveNew _ _ | .moveTo _ _ => False
  | _ => True

end Fern.Handles.Spec
