import Verif.Model.Errno
import Verif.Spec.LocalOps
namespace Fern.Errno.Spec

open Fern.Spec

/-- A way to do the elements of arrays of one or two dimensions, `n` in total: in one thread or by a pool. -/
inductive Execution (n : Nat) (order : List (Nat × Nat)) : Prop
  | sequential : order = sequential n → Execution n order
  | d1 (nrThreads : Nat) (blocks : List (List Nat)) : blocks1d nrThreads n = some blocks →
      parallel nrThreads blocks order → Execution n order
  | d2 (nrThreads n1 n2 : Nat) (blocks : List (List Nat)) : n = n1 * n2 →
      blocks2d nrThreads n1 n2 n2 = some blocks → parallel nrThreads blocks order → Execution n order

section

variable {A R : Type} (alg : Algorithm A R) (withinDomain : A → Bool) (outp : OutPolicy R)
  (args : List (Option A))

/-- The element is evaluated: its argument is valid and within the domain. -/
def Evaluated (i : Nat) (a : A) : Prop := args[i]? = some (some a) ∧ withinDomain a = true

/-- What becomes of an element, given whether a range error is detected. -/
def CellIs (detected : Prop) (i : Nat) (c c' : Cell R) : Prop :=
  ((∀ a, ¬ Evaluated withinDomain args i a) → Marked outp c c') ∧
  ∀ a, Evaluated withinDomain args i a →
    (detected → Marked outp ⟨alg.compute a, c.masked⟩ c') ∧
    (¬ detected → c' = ⟨alg.compute a, c.masked⟩)

/-- The last error reported for the elements, or the error there was before. -/
def LastError (elements : List Nat) (before last : Errno) : Prop :=
  (∃ pre j a post, elements = pre ++ j :: post ∧ Evaluated withinDomain args j a ∧
    alg.report a = some last ∧ ∀ k ∈ post, ∀ b, Evaluated withinDomain args k b → alg.report b = none) ∨
  (∀ k ∈ elements, ∀ b, Evaluated withinDomain args k b → alg.report b = none) ∧ last = before

/-- The library reports a range error for the element. -/
def RangeError (i : Nat) : Prop :=
  ∃ a, Evaluated withinDomain args i a ∧ alg.report a = some .range

end

/-- `i` is the `k`-th element that is done, `t` the thread that does it. -/
def DoneBy (order : List (Nat × Nat)) (k t i : Nat) : Prop := order[k]? = some (t, i)

/-- The elements that a thread has done up to the `k`-th one, this included. -/
def doneUntil (order : List (Nat × Nat)) (k t : Nat) : List Nat :=
  ((order.take (k + 1)).filter (·.1 = t)).map (·.2)

end Fern.Errno.Spec
