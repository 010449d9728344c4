import Verif.Model.LocalOps
/-
Element-wise operations as they are dispatched on the execution policy: the same loop body is either
run sequentially over the whole index range, or per block by the tasks of a parallel run.
-/
namespace Fern

/-- The loop of an element-wise operation: extents of the index range and the actions on the result
element per index (`none`: undefined behaviour). `nrCols`: number of columns as used by
`index(result, i, j)`. -/
inductive ElemLoop (γ : Type) where
  | d1 (size : Nat) (acts : Nat → Option (List (γ → γ)))
  | d2 (size1 size2 nrCols : Nat) (acts : Nat → Option (List (γ → γ)))

/-- Sequential execution (`algorithm/core/unary_local_operation.h:249-263, 405-439`; the same in the other
operations). -/
def ElemLoop.seq {γ : Type} : ElemLoop γ → List γ → Option (List γ)
  | .d1 size acts, s => seq1d acts size s
  | .d2 size1 size2 nrCols acts, s => seq2d acts size1 size2 nrCols s

/-- The tasks of parallel execution with a pool of `nrThreads` threads
(`algorithm/core/unary_local_operation.h:290-324, 450-502`; the same in the other operations). -/
def ElemLoop.tasks {γ : Type} (nrThreads : Nat) : ElemLoop γ → Option (List (List (Act γ)))
  | .d1 size acts => (blocks1d nrThreads size).bind (parTasks acts)
  | .d2 size1 size2 nrCols acts => (blocks2d nrThreads size1 size2 nrCols).bind (parTasks acts)

/-- Sequential execution of an operation that may fail an `assert` first. -/
def runSeq {γ : Type} (loop : Option (ElemLoop γ)) (s : List γ) : Option (List γ) :=
  loop.bind (fun l => l.seq s)

/-- Parallel execution of an operation that may fail an `assert` first: the tasks. -/
def runTasks {γ : Type} (nrThreads : Nat) (loop : Option (ElemLoop γ)) :
    Option (List (List (Act γ))) :=
  loop.bind (fun l => l.tasks nrThreads)

/-- Asserts that the extents of two 2D arrays are the same. -/
def assertSame (s1 s2 : Nat × Nat) : Option Unit := do
  assert' (s1.1 == s2.1)
  assert' (s1.2 == s2.2)

end Fern
