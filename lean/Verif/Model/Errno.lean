import Verif.Model.LocalOps
/-
Range errors detected by `errno`: `DetectOutOfRangeByErrno`
(`algorithm/policy/detect_out_of_range_by_errno.h:20-38`), which the documentation of `pow`, `tgamma` and
`factorial` refers to (`algorithm/algebra/elementary/{pow.h:70, tgamma.h:53, factorial.h:57}`) and which can be
passed to every local operation as its out-of-range policy.

`errno` belongs to a thread and outlives the operation. Functions of the mathematical library set it in case of
an error and otherwise leave it alone. The no-data policies of the arguments are those of `Model/LocalOps.lean`;
here an argument is `none` if one of them says so.
-/
namespace Fern.Errno

/-- The values of `errno` that are told apart: zero, `EDOM`, `ERANGE` and the others. -/
inductive Errno | zero | domain | range | other
  deriving DecidableEq, Repr

/-- An algorithm: whether it does `errno = 0` first, the value that it stores, and the error that the
mathematical library reports, if any. -/
structure Algorithm (A R : Type) where
  resets : Bool
  compute : A → R
  report : A → Option Errno

/-- `pow` (`algorithm/algebra/elementary/detail/pow.h:30-40`). -/
def pow {A R : Type} (f : A → R) (report : A → Option Errno) : Algorithm A R := ⟨true, f, report⟩

/-- `tgamma` (`algorithm/algebra/elementary/detail/tgamma.h:28-37`); the other algorithms of one argument that
call a function of the library don't set `errno` either
(`algorithm/algebra/elementary/detail/{factorial,sqrt,log,log2,log10}.h`, `algorithm/trigonometry/detail`). -/
def tgamma {A R : Type} (f : A → R) (report : A → Option Errno) : Algorithm A R := ⟨false, f, report⟩

/-- `errno` of a thread after calling the algorithm. -/
def Algorithm.after {A R : Type} (alg : Algorithm A R) (a : A) (e : Errno) : Errno :=
  (alg.report a).getD (if alg.resets then .zero else e)

/-- `DetectOutOfRangeByErrno::within_range` (`algorithm/policy/detect_out_of_range_by_errno.h:31-38`). -/
def withinRange (e : Errno) : Bool := e != .range

/-- `errno` of each thread, and the result. -/
structure State (R : Type) where
  errno : Nat → Errno
  cells : List (Cell R)

section

variable {A R : Type} (alg : Algorithm A R) (withinDomain : A → Bool) (outp : OutPolicy R)
  (args : List (Option A))

/-- Thread `p.1` does the body of the loop for element `p.2` (`algorithm/core/unary_local_operation.h:83-108`,
`algorithm/core/binary_local_operation.h:218-246`). No two threads use the same element or the same `errno`, so
that bodies can be taken one after the other. -/
def step (s : State R) (p : Nat × Nat) : Option (State R) := do
  let arg ← args[p.2]?
  let c ← s.cells[p.2]?
  match arg with
  | none => some { s with cells := s.cells.set p.2 (outp.mark c) }
  | some a =>
    if !withinDomain a then some { s with cells := s.cells.set p.2 (outp.mark c) }
    else
      let e := alg.after a (s.errno p.1)
      let stored := storeAct (alg.compute a) c
      some ⟨fun t => if t = p.1 then e else s.errno t,
        s.cells.set p.2 (if !withinRange e then outp.mark stored else stored)⟩

/-- The bodies in the order in which they are done. -/
def run (order : List (Nat × Nat)) (s : State R) : Option (State R) :=
  order.foldlM (step alg withinDomain outp args) s

end

/-- The order of a sequential execution: the calling thread does all elements. -/
def sequential (n : Nat) : List (Nat × Nat) := (List.range n).map fun i => (0, i)

/-- `Pool nrThreads queue busy order`: a pool of threads can do the elements in this order
(`algorithm/core/unary_local_operation.h:299-319`, `core/thread_pool.cc:130-162`). A thread that has nothing to do
takes the first block of the queue; `busy t` is what thread `t` still has to do of its block. -/
inductive Pool (nrThreads : Nat) : List (List Nat) → (Nat → List Nat) → List (Nat × Nat) → Prop
  | done (busy : Nat → List Nat) : (∀ t, busy t = []) → Pool nrThreads [] busy []
  | take (t : Nat) (block : List Nat) (queue : List (List Nat)) (busy : Nat → List Nat)
      (order : List (Nat × Nat)) : t < nrThreads → busy t = [] →
      Pool nrThreads queue (fun u => if u = t then block else busy u) order →
      Pool nrThreads (block :: queue) busy order
  | work (t i : Nat) (rest : List Nat) (queue : List (List Nat)) (busy : Nat → List Nat)
      (order : List (Nat × Nat)) : t < nrThreads → busy t = i :: rest →
      Pool nrThreads queue (fun u => if u = t then rest else busy u) order →
      Pool nrThreads queue busy ((t, i) :: order)

/-- The orders of a parallel execution. -/
def parallel (nrThreads : Nat) (blocks : List (List Nat)) (order : List (Nat × Nat)) : Prop :=
  Pool nrThreads blocks (fun _ => []) order

end Fern.Errno
