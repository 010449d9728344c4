import Verif.Model.ThreadPool
import Verif.Model.Loop
/-
Operations that are executed by a thread pool, end to end: threads that call operations with a
parallel execution policy, the tasks these operations submit, the workers that execute them action
by action, and the waiting for the futures
(`algorithm/core/unary_local_operation.h:288-326` and its like,
`algorithm/policy/parallel_execution_policy.h`, `core/thread_pool.h:104-122`,
`core/thread_pool.cc:130-162`).

Steps of all threads and workers interleave in every order; the pool itself is that of
`Model/ThreadPool.lean`. Each thread has its own memory: the data its operations write. Other
threads do not write there (they may read what no operation writes meanwhile).
-/
namespace Fern.PoolRun

/-- Something a thread does, one after the other. -/
inductive Call (γ : Type) where
  /-- Calls an operation with a parallel execution policy. Given the number of workers
  (`pool.size()`) and what is in the memory, the operation determines the tasks, one per block, as
  in `algorithm/core/unary_local_operation.h:299-320`; `none`: undefined behaviour. What a task
  does is determined when the tasks are created: the arguments do not change while an operation is
  executed. -/
  | operate (tasks : Nat → List γ → Option (List (List (Act γ))))
  /-- Submits a task of the user's own to the pool, without waiting for it: it does what is in the
  program of thread `j` (`core/thread_pool.h:104-122`). -/
  | launch (j : Nat)

/-- What a task consists of. -/
inductive Work (γ : Type) where
  /-- Actions on the memory of the thread that submitted it. -/
  | acts (owner : Nat) (l : List (Act γ))
  /-- The program of a thread. -/
  | program (j : Nat)

/-- Where a thread is. -/
inductive Pc (γ : Type) where
  /-- Between two calls. -/
  | idle
  /-- In an operation, submitting tasks (`algorithm/core/unary_local_operation.h:307-320`): the
  futures of those submitted, and the ones to come. -/
  | submitting (futures : List Nat) (todo : List (List (Act γ)))
  /-- In an operation, at `future.get()` (`algorithm/core/unary_local_operation.h:322-324`): the
  futures still to be waited for. -/
  | waiting (futures : List Nat)

/-- A thread: the memory its operations write (`none`: undefined behaviour), where it is, and what it
still has to do. `inPool`: not a thread of its own, but the program of a task. -/
structure Thread (γ : Type) where
  memory : Option (List γ)
  pc : Pc γ
  rest : List (Call γ)
  inPool : Bool

/-- The threads, the pool and the tasks. -/
structure Machine (γ : Type) where
  pool : Pool
  /-- The task submitted next. -/
  next : Nat
  /-- The tasks submitted. -/
  work : Nat → Work γ
  /-- What a worker still has to do of the task it is executing. -/
  todo : Nat → List (Act γ)
  thread : Nat → Thread γ

/-- Before the first step. -/
def Machine.initial {γ : Type} (programs : Nat → List (Call γ)) (memories : Nat → List γ)
    (inPool : Nat → Bool) : Machine γ :=
  ⟨Pool.initial, 0, fun j => .program j, fun _ => [],
    fun i => ⟨some (memories i), .idle, programs i, inPool i⟩⟩

/-- Which step is made. -/
inductive Step where
  /-- Thread `i` starts its next call. -/
  | call (i : Nat)
  /-- Thread `i`, in an operation, submits the next task, or has submitted all of them. -/
  | submit (i : Nat)
  /-- `future.get()` of thread `i` returns, or there are no futures any more and the operation
  returns. -/
  | get (i : Nat)
  /-- Worker `w` performs the next action of its task. -/
  | act (w : Nat)
  /-- A step of the pool: of a worker, a notification, a time-out, or destruction. -/
  | pool (l : PoolStep)

/-- The future of a task is ready: the task returned (`std::packaged_task`,
`core/thread_pool.h:111-115`). -/
def Machine.ready {γ : Type} (s : Machine γ) (t : Nat) : Bool :=
  s.pool.log.any (fun e => match e with | .finished _ u => u == t | _ => false)

/-- Whether thread `i` can make steps: a thread of its own can; the program of a task only while a
worker executes that task. -/
def Machine.active {γ : Type} (n : Nat) (s : Machine γ) (i : Nat) : Bool :=
  !(s.thread i).inPool || (List.range n).any (fun w =>
    match s.pool.pc w with
    | .run t => match s.work t with
      | .program j => j == i
      | .acts _ _ => false
    | _ => false)

/-- Replace thread `i`. -/
def Machine.setThread {γ : Type} (s : Machine γ) (i : Nat) (t : Thread γ) : Machine γ :=
  { s with thread := Function.update s.thread i t }

/-- `pool.submit(function)` (`core/thread_pool.h:104-122`). -/
def Machine.submit {γ : Type} (s : Machine γ) (work : Work γ) : Machine γ :=
  { s with
    pool := { s.pool with
      queue := s.pool.queue ++ [s.next]
      toNotify := s.pool.toNotify + 1
      log := s.pool.log ++ [.submitted s.next] }
    next := s.next + 1
    work := Function.update s.work s.next work }

/-- The thread has done all it had to. -/
def Thread.ended {γ : Type} (t : Thread γ) : Bool :=
  match t.pc, t.rest with
  | .idle, [] => true
  | _, _ => false

/-- Whether worker `w`, which is executing task `t`, has done all of it. -/
def Machine.taskEnded {γ : Type} (s : Machine γ) (w t : Nat) : Bool :=
  match s.work t with
  | .acts _ _ => (s.todo w).isEmpty
  | .program j => (s.thread j).ended

/-- The actions a task consists of. -/
def Work.actions {γ : Type} : Work γ → List (Act γ)
  | .acts _ l => l
  | .program _ => []

/-- The steps of the pool itself. A worker only returns from a task that has been done; when it calls
a task it starts with its first action. Tasks are submitted by threads only. -/
def Machine.poolStep {γ : Type} (n : Nat) (s : Machine γ) : PoolStep → Option (Machine γ)
  | .submit _ => none
  | .worker w =>
    match s.pool.pc w with
    | .run t =>
      if s.taskEnded w t then
        (s.pool.step true n (.worker w)).map (fun p => { s with pool := p })
      else none
    | .start t =>
      (s.pool.step true n (.worker w)).map (fun p =>
        { s with pool := p, todo := Function.update s.todo w (s.work t).actions })
    | _ => (s.pool.step true n (.worker w)).map (fun p => { s with pool := p })
  | l => (s.pool.step true n l).map (fun p => { s with pool := p })

/-- A step of thread `i` that starts a call. -/
def Machine.call {γ : Type} (n : Nat) (s : Machine γ) (i : Nat) : Option (Machine γ) :=
  let t := s.thread i
  match t.pc, t.rest with
  | .idle, .operate tasks :: rest =>
    match t.memory with
    | none => none
    | some m =>
      match tasks n m with
      | none => some (s.setThread i { t with memory := none, rest := rest })
      | some ts => some (s.setThread i { t with pc := .submitting [] ts, rest := rest })
  | .idle, .launch j :: rest =>
    some ((s.submit (.program j)).setThread i { t with rest := rest })
  | _, _ => none

/-- A step of thread `i` in the loop that submits the tasks
(`algorithm/core/unary_local_operation.h:307-320`). -/
def Machine.submitting {γ : Type} (s : Machine γ) (i : Nat) : Option (Machine γ) :=
  let t := s.thread i
  match t.pc with
  | .submitting fs (l :: ls) =>
    some ((s.submit (.acts i l)).setThread i { t with pc := .submitting (fs ++ [s.next]) ls })
  | .submitting fs [] => some (s.setThread i { t with pc := .waiting fs })
  | _ => none

/-- A step of thread `i` in the loop that waits for the futures
(`algorithm/core/unary_local_operation.h:322-324`). -/
def Machine.get {γ : Type} (s : Machine γ) (i : Nat) : Option (Machine γ) :=
  let t := s.thread i
  match t.pc with
  | .waiting (f :: fs) =>
    if s.ready f then some (s.setThread i { t with pc := .waiting fs }) else none
  | .waiting [] => some (s.setThread i { t with pc := .idle })
  | _ => none

/-- A worker performs an action of the task it is executing, on the memory of the thread that
submitted the task (e.g. `algorithm/core/unary_local_operation.h:83-110`). -/
def Machine.act {γ : Type} (n : Nat) (s : Machine γ) (w : Nat) : Option (Machine γ) :=
  if w < n then
    match s.pool.pc w with
    | .run t =>
      match s.work t, s.todo w with
      | .acts i _, a :: as =>
        let th := s.thread i
        some ({ s with todo := Function.update s.todo w as }.setThread i
          { th with memory := th.memory.bind (modifyAt a.idx a.fn) })
      | _, _ => none
    | _ => none
  else none

/-- A step, with `n` workers. `none`: the step cannot be made now. -/
def Machine.step {γ : Type} (n : Nat) (s : Machine γ) : Step → Option (Machine γ)
  | .call i => if s.active n i then s.call n i else none
  | .submit i => if s.active n i then s.submitting i else none
  | .get i => if s.active n i then s.get i else none
  | .act w => s.act n w
  | .pool l => s.poolStep n l

/-- An execution: steps one after the other. -/
def Machine.exec {γ : Type} (n : Nat) (s : Machine γ) (steps : List Step) : Option (Machine γ) :=
  steps.foldlM (Machine.step n) s

end Fern.PoolRun
