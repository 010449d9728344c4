import Verif.Model.ThreadPool
/-
What is observed of a thread pool, in terms of the log of events only.
-/
namespace Fern.Spec

/-- The tasks submitted, in order. -/
def submitted (log : List PoolEvent) : List Nat :=
  log.filterMap (fun e => match e with | .submitted t => some t | _ => none)

/-- The tasks taken from the queue, in order. -/
def taken (log : List PoolEvent) : List Nat :=
  log.filterMap (fun e => match e with | .took _ t => some t | _ => none)

/-- The tasks called, in order. -/
def started (log : List PoolEvent) : List Nat :=
  log.filterMap (fun e => match e with | .started _ t => some t | _ => none)

/-- The tasks that returned, in order. -/
def finished (log : List PoolEvent) : List Nat :=
  log.filterMap (fun e => match e with | .finished _ t => some t | _ => none)

/-- Number of tasks worker `w` took. -/
def takenBy (w : Nat) (log : List PoolEvent) : Nat :=
  log.countP (fun e => match e with | .took v _ => v == w | _ => false)

/-- The step is one of worker `w`, not of another thread. -/
def ownStep (w : Nat) (l : PoolStep) : Bool :=
  match l with
  | .worker v => decide (v = w)
  | .wake v => decide (v = w)
  | _ => false

end Fern.Spec
