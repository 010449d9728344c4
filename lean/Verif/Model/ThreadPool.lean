import Mathlib.Logic.Function.Basic
/-
The thread pool (`core/thread_pool.h`, `core/thread_pool.cc`): any number of worker threads, tasks
submitted by any number of other threads (or by tasks), and destruction, as steps that interleave
in every order. The work queue's operations are single steps here; that they may be considered so is
C08 (`Model/ThreadSafeQueue.lean`).

`_done` is an atomic variable, so that each access is a step of its own. The mutex only protects
the waiting, see `lock` to `unlock`.
-/
namespace Fern

/-- Where a worker is in `execute_task_or_wait` (`core/thread_pool.cc:130-162`). -/
inductive WorkerPc where
  /-- About to evaluate `while(!_done)` (line 134). -/
  | check
  /-- About to call `try_pop` (140). -/
  | pop
  /-- About to call `task()` (143). -/
  | start (task : Nat)
  /-- In `task()`. -/
  | run (task : Nat)
  /-- About to lock the mutex (155). -/
  | lock
  /-- Has the mutex, about to evaluate `if(!_done)` (156). -/
  | recheck
  /-- In `wait_for`, without the mutex (157). -/
  | wait
  /-- In `wait_for`, notified or timed out, about to lock the mutex again (157). -/
  | relock
  /-- Has the mutex, about to unlock it (160). -/
  | unlock
  /-- Has left the loop. -/
  | exit
deriving DecidableEq, Repr

/-- What can be observed of the pool. -/
inductive PoolEvent where
  /-- A task was added to the queue. -/
  | submitted (task : Nat)
  /-- Worker `w` took the task from the queue. -/
  | took (w task : Nat)
  /-- Worker `w` called the task. -/
  | started (w task : Nat)
  /-- The task returned: its future is ready. -/
  | finished (w task : Nat)
deriving DecidableEq, Repr

/-- State of the pool. Tasks are identified by numbers chosen by whoever submits. -/
structure Pool where
  done : Bool
  queue : List Nat
  mutex : Option Nat
  pc : Nat → WorkerPc
  /-- Number of calls of `submit` that have not called `notify_one` yet. -/
  toNotify : Nat
  /-- What happened up to now, in order. -/
  log : List PoolEvent

/-- After the constructor (`core/thread_pool.cc:51-74`). A thread that has not been created yet is
one that has not made a step yet. -/
def Pool.initial : Pool := ⟨false, [], none, fun _ => .check, 0, []⟩

/-- Which step is made. -/
inductive PoolStep where
  /-- The next step of worker `w`. -/
  | worker (w : Nat)
  /-- `wait_for` of worker `w` ends without notification: after 100 ms, or spuriously. -/
  | wake (w : Nat)
  /-- `_work_queue.push` in `submit` (`core/thread_pool.h:115`). -/
  | submit (task : Nat)
  /-- `notify_one` in `submit` (`core/thread_pool.h:119`), waking the given worker, or none as
  no worker is waiting. -/
  | notify (w : Option Nat)
  /-- `_done = true` in the destructor (`core/thread_pool.cc:82`). -/
  | destroy
  /-- `notify_all` in the destructor (`core/thread_pool.cc:83`). -/
  | notifyAll
deriving DecidableEq, Repr

/-- `w` moves on to `p`. -/
def Pool.goto (s : Pool) (w : Nat) (p : WorkerPc) : Pool := { s with pc := Function.update s.pc w p }

/-- `w` moves on to `p` and `e` is observed. -/
def Pool.gotoLog (s : Pool) (w : Nat) (p : WorkerPc) (e : PoolEvent) : Pool :=
  { s.goto w p with log := s.log ++ [e] }

/-- A step of a worker (`core/thread_pool.cc:130-162`). `none`: the worker cannot make a step now. -/
def Pool.workerStep (s : Pool) (w : Nat) : Option Pool :=
  match s.pc w with
  | .check => some (s.goto w (if s.done then .exit else .pop))
  | .pop =>
    match s.queue with
    | [] => some (s.goto w .lock)
    | t :: q => some { s.gotoLog w (.start t) (.took w t) with queue := q }
  | .start t => some (s.gotoLog w (.run t) (.started w t))
  | .run t => some (s.gotoLog w .check (.finished w t))
  | .lock => if s.mutex = none then some { s.goto w .recheck with mutex := some w } else none
  | .recheck =>
    if s.done then some (s.goto w .unlock) else some { s.goto w .wait with mutex := none }
  | .wait => none
  | .relock => if s.mutex = none then some { s.goto w .unlock with mutex := some w } else none
  | .unlock => some { s.goto w .check with mutex := none }
  | .exit => none

/-- A step of a pool with `n` workers. `timed`: the workers wait with a time-out, as the code does;
otherwise as in the line that is commented out (`core/thread_pool.cc:159`), in which case only
notifications end the waiting. -/
def Pool.step (timed : Bool) (n : Nat) (s : Pool) : PoolStep → Option Pool
  | .worker w => if w < n then s.workerStep w else none
  | .wake w => if w < n ∧ timed = true ∧ s.pc w = .wait then some (s.goto w .relock) else none
  | .submit t =>
    some { s with
      queue := s.queue ++ [t], toNotify := s.toNotify + 1, log := s.log ++ [.submitted t] }
  | .notify none =>
    if 0 < s.toNotify ∧ (List.range n).all (fun w => decide (s.pc w ≠ .wait)) = true then
      some { s with toNotify := s.toNotify - 1 }
    else none
  | .notify (some w) =>
    if 0 < s.toNotify ∧ w < n ∧ s.pc w = .wait then
      some { s.goto w .relock with toNotify := s.toNotify - 1 }
    else none
  | .destroy => some { s with done := true }
  | .notifyAll =>
    if s.done then some { s with pc := fun w => if s.pc w = .wait then .relock else s.pc w } else none

/-- An execution: steps one after the other. -/
def Pool.exec (timed : Bool) (n : Nat) (s : Pool) (steps : List PoolStep) : Option Pool :=
  steps.foldlM (Pool.step timed n) s

end Fern
