import Verif.Model.IndexRanges
/-
The loops shared by the array algorithms, and element stores.
-/
namespace Fern

/-- A loop `for(i : list) body` that stops at undefined behaviour. -/
def forIn' {ι σ : Type} (l : List ι) (body : ι → σ → Option σ) (s : σ) : Option σ :=
  l.foldlM (fun s i => body i s) s

/-- `for(size_t i = r.begin(); i < r.end(); ++i) body(i)`,
e.g. `algorithm/core/unary_local_operation.h:81`. -/
def loop1d {σ : Type} (r : IndexRange) (body : Nat → σ → Option σ) (s : σ) : Option σ :=
  forIn' r.indices body s

/-- `index(array, i, j)`: row-major linear index
(`feature/core/data_customization_point/array.h`, `raster.h`, ..: `i * size(array, 1) + j`). -/
def linearIndex (nrCols i j : Nat) : Nat := i * nrCols + j

/-- The inner loop: `for(j ..) { body(index_); ++index_; }`
(`algorithm/core/unary_local_operation.h:135-166`). Returns state and final `index_`. -/
def rowLoop {σ : Type} (body : Nat → σ → Option σ) : Nat → Nat → σ → Option σ
  | 0, _, s => some s
  | k + 1, index, s => do rowLoop body k (index + 1) (← body index s)

/-- The nested 2D loop with the linear index computed at the start of each row and incremented
(`algorithm/core/unary_local_operation.h:129-167`, same in all 2D operations). -/
def loop2d {σ : Type} (nrCols : Nat) (r : IndexRanges2) (body : Nat → σ → Option σ) (s : σ) :
    Option σ :=
  forIn' r.rows.indices
    (fun i s => rowLoop body (r.cols.e - r.cols.b) (linearIndex nrCols i r.cols.b) s) s

/-- Write access to element `i`; `none` when out of bounds. -/
def modifyAt {α : Type} (i : Nat) (f : α → α) (l : List α) : Option (List α) :=
  if i < l.length then some (l.modify i f) else none

/-- An atomic action of a task on the shared result: a read-modify-write of one element. -/
structure Act (γ : Type) where
  idx : Nat
  fn : γ → γ

/-- Perform a sequence of actions. -/
def runActs {γ : Type} (l : List (Act γ)) (s : List γ) : Option (List γ) :=
  forIn' l (fun a s => modifyAt a.idx a.fn s) s

/-- `Interleave tasks l`: `l` is an interleaving of the lists in `tasks` (each task's own order is
kept). This is what the workers of the thread pool may make of tasks that run concurrently
(`core/thread_pool.h`, `future.get()` on all of them before the operation returns). -/
inductive Interleave {α : Type} : List (List α) → List α → Prop
  | done {ts : List (List α)} : (∀ t ∈ ts, t = []) → Interleave ts []
  | step {pre post : List (List α)} {a : α} {t : List α} {l : List α} :
      Interleave (pre ++ t :: post) l → Interleave (pre ++ (a :: t) :: post) (a :: l)

/-- The actions of one task that handles the elements in `l` in order, where element `i` is handled
by the actions `acts i` (`none`: undefined behaviour while determining them, e.g. a read outside of
an argument). The arguments are only read by the tasks, so which actions a task performs does not
depend on the other tasks. -/
def taskActs {γ : Type} (acts : Nat → Option (List (γ → γ))) (l : List Nat) :
    Option (List (Act γ)) :=
  (l.mapM (fun i => (acts i).map (fun fs => fs.map (Act.mk i)))).map List.flatten

/-- One task per block; the blocks are given by the element indices they handle, e.g.
`algorithm/core/unary_local_operation.h:307-319`. -/
def parTasks {γ : Type} (acts : Nat → Option (List (γ → γ))) (blocks : List (List Nat)) :
    Option (List (List (Act γ))) :=
  blocks.mapM (taskActs acts)

/-- The blocks of a parallel 1D operation: element indices per block
(`algorithm/core/unary_local_operation.h:299-319`: one task per range of `index_ranges`). -/
def blocks1d (nrThreads size : Nat) : Option (List (List Nat)) :=
  (indexRanges nrThreads size).map (fun rs => rs.map IndexRange.indices)

/-- The linear indices visited by `loop2d` in a block. -/
def cells2d (nrCols : Nat) (r : IndexRanges2) : List Nat :=
  r.rows.indices.flatMap (fun i => List.range' (linearIndex nrCols i r.cols.b) (r.cols.e - r.cols.b))

/-- The blocks of a parallel 2D operation: linear element indices per block
(`algorithm/core/unary_local_operation.h:461-495`). -/
def blocks2d (nrThreads size1 size2 nrCols : Nat) : Option (List (List Nat)) :=
  (indexRanges2 nrThreads size1 size2).map (fun rs => rs.map (cells2d nrCols))

/-- `ParResult tasks s o`: some interleaving of the tasks turns `s` into `o` (`none`: undefined
behaviour, also when preparing the tasks). -/
def ParResult {γ : Type} (tasks : Option (List (List (Act γ)))) (s : List γ)
    (o : Option (List γ)) : Prop :=
  match tasks with
  | none => o = none
  | some ts => ∃ l, Interleave ts l ∧ runActs l s = o

end Fern
