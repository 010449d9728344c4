import Verif.Model.ThreadPool
/-
Futures: what comes out of the tasks that an operation submits to a thread pool, be it values or
exceptions, and what becomes of the operation
(`core/thread_pool.h:104-122`, `core/thread_pool.cc:80-84,130-162`,
`core/detail/function_wrapper.h`, `core/join_threads.cc:23-30`,
`algorithm/core/unary_aggregate_operation.h:441-510,651-722`,
`algorithm/core/unary_local_operation.h:288-326` and its like).

Any number of threads call operations, one after the other; the steps of all threads and of the
workers of the pool interleave in every order. The pool is that of `Model/ThreadPool.lean`. That the
memory does not suffice is not modelled: submitting a task succeeds.
-/
namespace Fern.Futures

/-- A task: how many times it reads what belongs to the operation that submitted it (the block's
range, the algorithm, the arguments: all of them are passed by reference,
`algorithm/core/unary_local_operation.h:308-318`), and what comes out of it. -/
structure Task (T E : Type) where
  accesses : Nat
  outcome : Except E T

/-- An exception that comes out of `future.get()`: that of the task, or `std::future_error` with
`broken_promise`, as the task was destroyed without having been called. -/
inductive Failure (E : Type) where
  | thrown (e : E)
  | broken
deriving DecidableEq, Repr

/-- Where a thread is. -/
inductive Pc (T E : Type) where
  /-- Between two operations. -/
  | idle
  /-- Submitting tasks (`algorithm/core/unary_aggregate_operation.h:460-468`): the futures of those
  submitted, and the tasks to come. -/
  | submitting (futures : List Nat) (todo : List (Task T E))
  /-- At `future.get()` (`algorithm/core/unary_aggregate_operation.h:470-475`): the values obtained,
  and the futures still to be asked. -/
  | waiting (got : List T) (futures : List Nat)

/-- A thread that calls operations: where it is, the operations it has not called yet, and what came
out of the others: the values of the tasks, or an exception, which the thread catches before it calls
the next operation. -/
structure Caller (T E : Type) where
  pc : Pc T E
  rest : List (List (Task T E))
  results : List (Except (Failure E) (List T))

/-- A task that was submitted: the thread that did, the number of its operation, and the task. -/
structure Job (T E : Type) where
  caller : Nat
  operation : Nat
  task : Task T E

/-- The threads, the pool and the tasks. -/
structure Machine (T E : Type) where
  pool : Pool
  /-- The task submitted next. -/
  next : Nat
  /-- The tasks submitted. -/
  job : Nat → Option (Job T E)
  /-- How many times a worker still reads in the task it is executing. -/
  todo : Nat → Nat
  caller : Nat → Caller T E
  /-- The pool has been destroyed: threads joined, queue destroyed. -/
  destroyed : Bool
  /-- A task has read what belonged to an operation that was no longer there: undefined behaviour. -/
  dangling : Bool

variable {T E : Type}

/-- Before the first step. -/
def Machine.initial (programs : Nat → List (List (Task T E))) : Machine T E :=
  ⟨Pool.initial, 0, fun _ => none, fun _ => 0, fun i => ⟨.idle, programs i, []⟩, false, false⟩

/-- Which step is made. -/
inductive Step where
  /-- Thread `i` calls its next operation. -/
  | call (i : Nat)
  /-- Thread `i`, in an operation, submits the next task, or has submitted all of them. -/
  | submit (i : Nat)
  /-- `future.get()` of thread `i` returns or throws, or there are no futures any more and the
  operation returns. -/
  | get (i : Nat)
  /-- Worker `w` reads, in the task it is executing. -/
  | access (w : Nat)
  /-- A step of the pool: of a worker, a notification, a time-out, or the start of destruction. -/
  | pool (l : PoolStep)
  /-- The destructor of the pool has joined all threads, and destroys the queue. -/
  | dispose
deriving DecidableEq, Repr

/-- The future of a task is ready: the task returned or threw, either of which `std::packaged_task`
stores (`core/thread_pool.h:111-115`). -/
def Machine.ready (s : Machine T E) (t : Nat) : Bool :=
  s.pool.log.any (fun e => match e with | .finished _ u => u == t | _ => false)

/-- Replace thread `i`. -/
def Machine.setCaller (s : Machine T E) (i : Nat) (c : Caller T E) : Machine T E :=
  { s with caller := Function.update s.caller i c }

/-- `pool.submit(function)` (`core/thread_pool.h:104-122`). -/
def Machine.push (s : Machine T E) (j : Job T E) : Machine T E :=
  { s with
    pool := { s.pool with
      queue := s.pool.queue ++ [s.next]
      toNotify := s.pool.toNotify + 1
      log := s.pool.log ++ [.submitted s.next] }
    next := s.next + 1
    job := Function.update s.job s.next (some j) }

/-- Thread `i` calls its next operation. -/
def Machine.call (s : Machine T E) (i : Nat) : Option (Machine T E) :=
  match s.caller i with
  | ⟨.idle, ts :: rest, results⟩ => some (s.setCaller i ⟨.submitting [] ts, rest, results⟩)
  | _ => none

/-- The loop that submits the tasks (`algorithm/core/unary_aggregate_operation.h:460-468`). Using a
pool that has been destroyed is not modelled. -/
def Machine.submit (s : Machine T E) (i : Nat) : Option (Machine T E) :=
  match s.caller i with
  | ⟨.submitting fs (t :: ts), rest, results⟩ =>
    if s.destroyed then none
    else some ((s.push ⟨i, results.length, t⟩).setCaller i
      ⟨.submitting (fs ++ [s.next]) ts, rest, results⟩)
  | ⟨.submitting fs [], rest, results⟩ => some (s.setCaller i ⟨.waiting [] fs, rest, results⟩)
  | _ => none

/-- The loop that asks the futures (`algorithm/core/unary_aggregate_operation.h:470-475`,
`algorithm/core/unary_local_operation.h:322-324`). An exception leaves the operation: the futures,
the ranges and the algorithm, which are local to it, are destroyed. Unlike the futures of
`std::async`, these do not wait for their tasks when they are destroyed. -/
def Machine.get (s : Machine T E) (i : Nat) : Option (Machine T E) :=
  match s.caller i with
  | ⟨.waiting got (f :: fs), rest, results⟩ =>
    if s.ready f then
      match s.job f with
      | some ⟨_, _, ⟨_, .ok v⟩⟩ => some (s.setCaller i ⟨.waiting (got ++ [v]) fs, rest, results⟩)
      | some ⟨_, _, ⟨_, .error e⟩⟩ =>
        some (s.setCaller i ⟨.idle, rest, results ++ [.error (.thrown e)]⟩)
      | none => none
    else if s.destroyed && s.pool.queue.contains f then
      some (s.setCaller i ⟨.idle, rest, results ++ [.error .broken]⟩)
    else none
  | ⟨.waiting got [], rest, results⟩ => some (s.setCaller i ⟨.idle, rest, results ++ [.ok got]⟩)
  | _ => none

/-- The operation that submitted the task has not returned, nor thrown. -/
def Machine.alive (s : Machine T E) (j : Job T E) : Bool :=
  (s.caller j.caller).results.length == j.operation

/-- A worker reads what belongs to the operation that submitted the task it is executing. -/
def Machine.access (n : Nat) (s : Machine T E) (w : Nat) : Option (Machine T E) :=
  if w < n then
    match s.pool.pc w with
    | .run t =>
      match s.job t, s.todo w with
      | some j, k + 1 => some { s with
          todo := Function.update s.todo w k, dangling := s.dangling || !s.alive j }
      | _, _ => none
    | _ => none
  else none

/-- The steps of the pool itself. A worker is done with a task when it has made all accesses; when it
calls a task it starts with the first. An exception thrown by a task does not get out of `task()`
(`core/thread_pool.cc:143`): the `std::packaged_task` in the wrapper catches it. Tasks are submitted by
threads only. -/
def Machine.poolStep (n : Nat) (s : Machine T E) : PoolStep → Option (Machine T E)
  | .submit _ => none
  | .worker w =>
    match s.pool.pc w with
    | .run _ =>
      if s.todo w = 0 then (s.pool.step true n (.worker w)).map (fun p => { s with pool := p })
      else none
    | .start t =>
      match s.job t with
      | some j => (s.pool.step true n (.worker w)).map (fun p =>
          { s with pool := p, todo := Function.update s.todo w j.task.accesses })
      | none => none
    | _ => (s.pool.step true n (.worker w)).map (fun p => { s with pool := p })
  | l => (s.pool.step true n l).map (fun p => { s with pool := p })

/-- The members of the pool are destroyed in reverse order: `_joiner` joins the threads
(`core/join_threads.cc:23-30`), which ends when all workers have left their loop; then `_work_queue`
is destroyed with the tasks in it (`core/thread_pool.h:66-92`). -/
def Machine.dispose (n : Nat) (s : Machine T E) : Option (Machine T E) :=
  if s.pool.done && (List.range n).all (fun w => decide (s.pool.pc w = .exit)) then
    some { s with destroyed := true }
  else none

/-- A step, with `n` workers. `none`: the step cannot be made now. -/
def Machine.step (n : Nat) (s : Machine T E) : Step → Option (Machine T E)
  | .call i => s.call i
  | .submit i => s.submit i
  | .get i => s.get i
  | .access w => s.access n w
  | .pool l => s.poolStep n l
  | .dispose => s.dispose n

/-- An execution: steps one after the other. -/
def Machine.exec (n : Nat) (s : Machine T E) (steps : List Step) : Option (Machine T E) :=
  steps.foldlM (Machine.step n) s

end Fern.Futures
