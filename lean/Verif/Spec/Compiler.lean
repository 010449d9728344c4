import Verif.Model.Compiler

/-!
# Files: what is found at the ends of paths
-/

namespace Fern.Spec

open Fern.Compiler

/-- Following links from a place to one that has none. -/
inductive LeadsTo (d : Disk) : Nat → Place → Place → Prop
  | here (k : Place) (n : Nat) (h : ∀ t, d.node k ≠ some (.link t)) : LeadsTo d n k k
  | link {k t l : Place} {n : Nat} (h : d.node k = some (.link t)) (h' : LeadsTo d n t l) : LeadsTo d (n + 1) k l

/-- What is found at the end of a path, links (40 at most) followed. -/
def Finds (d : Disk) (p : Str) (n : Option Node) : Prop := ∃ k, LeadsTo d 40 (d.place p) k ∧ d.node k = n

/-- A file with a text is found. -/
def Reads (d : Disk) (p text : Str) : Prop := ∃ o m, Finds d p (some (.file text o m))

/-- A name of a file: not empty, without slashes, not that of a directory itself. -/
def FileName (n : Str) : Prop := n ≠ [] ∧ '/' ∉ n ∧ n ≠ ['.']

/-- A file that can be written without following links: there is none in the directory, or one which the process may
write. -/
def Free (d : Disk) (k : Place) : Prop :=
  d.node k = none ∨ ∃ t o, d.node k = some (.file t o true)

/-- An extension as the compiler wants it. -/
def Extension (e : Str) : Prop := e ≠ [] ∧ '/' ∉ e ∧ e.head? ≠ some '.'

end Fern.Spec
