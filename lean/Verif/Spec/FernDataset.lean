import Verif.Model.FernDataset

/-!
# Trees of features and attributes
-/

namespace Fern.Spec

/-- The root is a group, and everything is inside of a group. -/
structure WellFormedFile (f : Hdf5) : Prop where
  root : f [] = some .group
  above : ∀ p n, f (p ++ [n]) ≠ none → f p = some .group

/-- There is a dataset at the path. -/
def IsAttribute (f : Hdf5) (p : List Str) : Prop := ∃ o, f p = some o ∧ o ≠ .group

/-- Numbers of the same type. -/
def SameType : Number → Number → Prop
  | .int t _, .int t' _ => t = t'
  | .float32 _, .float32 _ => True
  | .float64 _, .float64 _ => True
  | _, _ => False

/-- Both integers, or both floating point. -/
def SameClass : Number → Number → Prop
  | .int _ _, .int _ _ => True
  | .int _ _, _ => False
  | _, .int _ _ => False
  | _, _ => True

/-- A number can be written at the path `features / name`: the features exist, or only the last of them
does not; and there is nothing, or a number of the same class, at the path. -/
structure Writable (f : Hdf5) (features : List Str) (name : Str) (n : Number) : Prop where
  parents : f features = some .group ∨
    f features = none ∧ features ≠ [] ∧ f features.dropLast = some .group
  here : f (features ++ [name]) = none ∨ ∃ old, f (features ++ [name]) = some (.scalar old) ∧ SameClass old n

/-- What is stored after writing. -/
def stored (convert : Number → Number → Number) (old : Option Object) (n : Number) : Number :=
  match old with
  | some (.scalar o) => convert o n
  | _ => n

/-- The numbers that are written one after the other. -/
def writeAll (convert : Number → Number → Number) (f : Hdf5) : List (List Str × Number) → Option Hdf5
  | [] => some f
  | (p, n) :: ws => (Hdf5.writeNumber convert f p n).bind fun f => writeAll convert f ws

/-- The number that was written last at a path. -/
def lastWritten (ws : List (List Str × Number)) (p : List Str) : Option Number :=
  ((ws.filter fun w => decide (w.1 = p)).getLast?).map (·.2)

end Fern.Spec
