import Verif.Model.PoolRun
/-
What programs that call operations in parallel are to compute.
-/
namespace Fern.PoolRun.Spec

/-- What the calls of a thread make of its memory when they are done one after the other, each
operation with its tasks in some order: `o` is a possible outcome (`none`: undefined behaviour). -/
inductive Outcome {γ : Type} (n : Nat) : List (Call γ) → List γ → Option (List γ) → Prop
  | nothing (m : List γ) : Outcome n [] m (some m)
  | launch {j : Nat} {cs : List (Call γ)} {m : List γ} {o : Option (List γ)} :
      Outcome n cs m o → Outcome n (.launch j :: cs) m o
  | operate {op : Nat → List γ → Option (List (List (Act γ)))} {cs : List (Call γ)}
      {m m' : List γ} {o : Option (List γ)} :
      ParResult (op n m) m (some m') → Outcome n cs m' o → Outcome n (.operate op :: cs) m o
  | undefined {op : Nat → List γ → Option (List (List (Act γ)))} {cs : List (Call γ)}
      {m : List γ} : ParResult (op n m) m none → Outcome n (.operate op :: cs) m none

/-- With `n` workers, the operation is one that turns a memory satisfying `P` into the one `f`
says, whatever the order of its tasks, and that satisfies `P` again. -/
def Computes {γ : Type} (n : Nat) (P : List γ → Prop)
    (op : Nat → List γ → Option (List (List (Act γ)))) (f : List γ → Option (List γ)) : Prop :=
  ∀ m, P m → (∀ o, ParResult (op n m) m o → o = f m) ∧ ∃ m', f m = some m' ∧ P m'

/-- The functions one after the other, in one thread. -/
def inTurn {γ : Type} : List (List γ → Option (List γ)) → List γ → Option (List γ)
  | [], m => some m
  | f :: fs, m => (f m).bind (inTurn fs)

/-- Only operations, whose results are those of the functions. -/
def Program {γ : Type} (n : Nat) (P : List γ → Prop) :
    List (Call γ) → List (List γ → Option (List γ)) → Prop
  | [], [] => True
  | .operate op :: cs, f :: fs => Computes n P op f ∧ Program n P cs fs
  | _, _ => False

/-- The thread has returned from its last call. -/
def Returned {γ : Type} (s : Machine γ) (i : Nat) : Prop :=
  (s.thread i).pc = .idle ∧ (s.thread i).rest = []

/-- The step is one of worker `w`. -/
def ownStep (w : Nat) : Step → Bool
  | .act v => v == w
  | .pool (.worker v) => v == w
  | .pool (.wake v) => v == w
  | _ => false

/-- Nothing in the program is submitted without waiting for it. -/
def Plain {γ : Type} (cs : List (Call γ)) : Prop := ∀ j, Call.launch j ∉ cs

/-- Worker `w` executes a task that is at `future.get()`, and the task waited for is queued. -/
def Occupied {γ : Type} (s : Machine γ) (w : Nat) : Prop :=
  ∃ t j f fs, s.pool.pc w = .run t ∧ s.work t = .program j ∧
    (s.thread j).pc = .waiting (f :: fs) ∧ f ∈ s.pool.queue

end Fern.PoolRun.Spec
