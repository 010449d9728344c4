import Verif.Model.Parsing
import Verif.Spec.Messages

/-!
# What is expected of references, errors and files
-/

namespace Fern.Parsing.Spec

open Fern.Parsing

/-- The number of references of the program to an object. -/
def held (s : Refs) (o : Nat) : Nat := s.refs.countP fun x => x.2 = some o

/-- Every reference is accounted for. -/
def Balanced (s : Refs) : Prop := ∀ o, s.count o = s.outside o + held s o

/-- A reference is used only while it exists, filled only while it is empty, and others release only what they hold. -/
def Sensible (s : Refs) : Op → Prop
  | .assign x _ => (s.refs.lookup x).isSome
  | .fill x _ => s.refs.lookup x = some none
  | .destroy x => (s.refs.lookup x).isSome
  | .release o => 0 < s.outside o
  | _ => True

/-- A reference is not assigned the object that it has. -/
def NotAgain (s : Refs) : Op → Prop
  | .assign x o => ∀ y, o = some y → s.refs.lookup x ≠ some o
  | _ => True

/-- All operations of a history have a property. -/
inductive All (P : Refs → Op → Prop) : Refs → List Op → Prop
  | nil (s) : All P s []
  | cons (s p l) : P s p → (∀ s', s.step p = some s' → All P s' l) → All P s (p :: l)

/-- The value of an error that can be reported: the message, and a place with a line, a column, and the statement. -/
inductive Reportable : PyValue → Int → Int → Str → Str → Prop
  | mk (source : PyValue) (line col : Int) (statement message : Str) :
    Reportable (.tuple [.str message, .tuple [source, .int line, .int col, .str statement]]) line col statement message

/-- A text without zeros. -/
def Text (s : Str) : Prop := '\x00' ∉ s

end Fern.Parsing.Spec
