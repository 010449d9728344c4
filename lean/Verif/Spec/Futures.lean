import Verif.Model.Futures
/-
What is to come out of operations whose tasks return values or throw exceptions.
-/
namespace Fern.Futures.Spec

variable {T E : Type}

/-- What comes out of the tasks when they are called one after the other: all values, in the order of
the tasks, or the exception of the first one that throws. -/
def inOrder : List (Task T E) → Except E (List T)
  | [] => .ok []
  | t :: ts =>
    match t.outcome with
    | .error e => .error e
    | .ok v =>
      match inOrder ts with
      | .error e => .error e
      | .ok vs => .ok (v :: vs)

/-- As an exception that comes out of a future. -/
def thrown : Except E (List T) → Except (Failure E) (List T)
  | .ok vs => .ok vs
  | .error e => .error (.thrown e)

/-- The task throws. -/
def Throws (t : Task T E) : Prop := ∃ e, t.outcome = .error e

/-- No task of the operation throws, except possibly the last one. -/
def OnlyLast (ts : List (Task T E)) : Prop := ∀ t ∈ ts.dropLast, ¬ Throws t

/-- A task throws, and a task after it reads what belongs to the operation. -/
def Early (ts : List (Task T E)) : Prop :=
  ∃ before t between u after, ts = before ++ t :: between ++ u :: after ∧ Throws t ∧ 0 < u.accesses

/-- The step is one of worker `w`. -/
def ownStep (w : Nat) : Step → Bool
  | .access v => v == w
  | .pool (.worker v) => v == w
  | .pool (.wake v) => v == w
  | _ => false

end Fern.Futures.Spec
