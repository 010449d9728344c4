import Mathlib.Logic.Function.Basic
/-
`ThreadSafeQueue` (`core/thread_safe_queue.h`): any number of threads that call `push`, `try_pop`
and `empty`. Each statement of the member functions is a step; steps of different threads
interleave in every order. `std::queue` is a list, the front being first; an element from which has
been moved has no value any more (`none`).
-/
namespace Fern

/-- The calls. -/
inductive QueueCall (V : Type) where
  | push (value : V)
  | tryPop
  | empty
deriving DecidableEq, Repr

/-- What the calls return; `popped none` is `false`. -/
inductive QueueResult (V : Type) where
  | pushed
  | popped (value : Option V)
  | empty (b : Bool)
deriving DecidableEq, Repr

/-- Where a thread is. -/
inductive QueuePc (V : Type) where
  /-- Not in a call. -/
  | idle
  /-- About to lock the mutex (`core/thread_safe_queue.h:62, 73, 90`). -/
  | lock (c : QueueCall V)
  /-- Has the mutex, about to execute `_data_queue.push` (63). -/
  | push (value : V)
  /-- Has the mutex, about to execute `_data_queue.empty()` (75). -/
  | test
  /-- Has the mutex, about to move from `_data_queue.front()` (79). -/
  | front
  /-- Has the mutex, about to execute `_data_queue.pop()` (80), having moved `value`. -/
  | pop (value : Option V)
  /-- Has the mutex, about to execute `_data_queue.empty()` (91). -/
  | askEmpty
  /-- Has the mutex, about to unlock it. -/
  | unlock (r : QueueResult V)
  /-- About to return. -/
  | ret (r : QueueResult V)

/-- What callers see: calls and returns. -/
inductive QueueEvent (V : Type) where
  | call (thread : Nat) (c : QueueCall V)
  | ret (thread : Nat) (r : QueueResult V)

/-- State of the queue and of the threads that use it. -/
structure SharedQueue (V : Type) where
  mutex : Option Nat
  data : List (Option V)
  pc : Nat → QueuePc V
  /-- The calls and returns up to now, in order. -/
  history : List (QueueEvent V)

/-- An empty queue (`core/thread_safe_queue.h:52-54`). -/
def SharedQueue.initial (V : Type) : SharedQueue V := ⟨none, [], fun _ => .idle, []⟩

/-- Which step is made: thread `t` calls a member function, or executes its next statement. -/
inductive QueueStep (V : Type) where
  | call (t : Nat) (c : QueueCall V)
  | next (t : Nat)

namespace SharedQueue

variable {V : Type}

def goto (s : SharedQueue V) (t : Nat) (p : QueuePc V) : SharedQueue V :=
  { s with pc := Function.update s.pc t p }

/-- First statement after locking. -/
def afterLock : QueueCall V → QueuePc V
  | .push v => .push v
  | .tryPop => .test
  | .empty => .askEmpty

/-- The next statement of thread `t` (`core/thread_safe_queue.h:59-92`). `none`: the thread cannot
make a step, or (`front` and `pop` on an empty `std::queue`) the behaviour is undefined. -/
def next (s : SharedQueue V) (t : Nat) : Option (SharedQueue V) :=
  match s.pc t with
  | .idle => none
  | .lock c => if s.mutex.isNone then some { s.goto t (afterLock c) with mutex := some t } else none
  | .push v => some { s.goto t (.unlock .pushed) with data := s.data ++ [some v] }
  | .test => some (s.goto t (if s.data.isEmpty then .unlock (.popped none) else .front))
  | .front =>
    match s.data with
    | [] => none
    | v :: d => some { s.goto t (.pop v) with data := none :: d }
  | .pop v =>
    match s.data with
    | [] => none
    | _ :: d => some { s.goto t (.unlock (.popped v)) with data := d }
  | .askEmpty => some (s.goto t (.unlock (.empty s.data.isEmpty)))
  | .unlock r => some { s.goto t (.ret r) with mutex := none }
  | .ret r => some { s.goto t .idle with history := s.history ++ [.ret t r] }

/-- A step. -/
def step (s : SharedQueue V) : QueueStep V → Option (SharedQueue V)
  | .call t c =>
    match s.pc t with
    | .idle => some { s.goto t (.lock c) with history := s.history ++ [.call t c] }
    | _ => none
  | .next t => s.next t

/-- An execution. -/
def exec (s : SharedQueue V) (steps : List (QueueStep V)) : Option (SharedQueue V) :=
  steps.foldlM step s

end SharedQueue

end Fern
