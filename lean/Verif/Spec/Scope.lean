import Verif.Model.Scope

/-!
# What a history of operations means

All specifications look back through the history; the most recent operation comes first.
-/

namespace Fern.Spec

/-- The binding of a name in a scope: the most recent operation that concerns the name decides. -/
def bound {V : Type} (name : Str) : List (ScopeOp V) → Option V
  | [] => none
  | .set n v :: h => if n = name then some v else bound name h
  | .erase n :: h => if n = name then none else bound name h
  | .clear :: _ => none

/-- The history of a scope is possible: only bound names are erased. -/
def Possible {V : Type} : List (ScopeOp V) → Prop
  | [] => True
  | .erase n :: h => bound n h ≠ none ∧ Possible h
  | _ :: h => Possible h

/-- The visible binding of a name in a symbol table. `skip` scopes that have been closed since have
to be skipped; `gone` tells that the name has been erased from the scope we are looking at. -/
def visible {V : Type} (name : Str) : List (TableOp V) → (skip : ℕ) → (gone : Bool) → Option V
  | [], _, _ => none
  | .pop :: h, k, g => visible name h (k + 1) g
  | .push :: h, 0, _ => visible name h 0 false
  | .push :: h, k + 1, g => visible name h k g
  | .clear :: h, 0, _ => visible name h 0 true
  | .clear :: h, k + 1, g => visible name h (k + 1) g
  | .add n v :: h, 0, false => if n = name then some v else visible name h 0 false
  | .add _ _ :: h, 0, true => visible name h 0 true
  | .add _ _ :: h, k + 1, g => visible name h (k + 1) g
  | .erase n :: h, 0, g => visible name h 0 (g || decide (n = name))
  | .erase _ :: h, k + 1, g => visible name h (k + 1) g

/-- What may happen between opening a scope and closing it. -/
inductive Inside {V : Type} : List (TableOp V) → Prop
  | nil : Inside []
  | clear (h : List (TableOp V)) : Inside h → Inside (.clear :: h)
  | add (n : Str) (v : V) (h : List (TableOp V)) : Inside h → Inside (.add n v :: h)
  | erase (n : Str) (h : List (TableOp V)) : Inside h → Inside (.erase n :: h)
  | nested (h₁ h₂ : List (TableOp V)) : Inside h₁ → Inside h₂ → Inside (.push :: h₁ ++ .pop :: h₂)

/-- The most recently pushed value that has not been popped; `skip` of them have been. -/
def lastPushed {τ : Type} {val : τ → Type} :
    List (StackOp τ val) → (skip : ℕ) → Option (AnyValue τ val)
  | [], _ => none
  | .push t v :: _, 0 => some ⟨t, v⟩
  | .push _ _ :: h, k + 1 => lastPushed h k
  | .pop :: h, k => lastPushed h (k + 1)

/-- The guard has been released: itself, or the guard it was moved from before the move. -/
def released (id : ℕ) : List GuardOp → Bool
  | [] => false
  | .release i :: h => i == id || released id h
  | .move source i :: h => if i = id then released source h else released id h
  | _ :: h => released id h

/-- The action of a guard: the one it, or the guard it was moved from, was created with. -/
def actionOf (id : ℕ) : List GuardOp → Option ℕ
  | [] => none
  | .create i a :: h => if i = id then some a else actionOf id h
  | .move source i :: h => if i = id then actionOf source h else actionOf id h
  | _ :: h => actionOf id h

end Fern.Spec
