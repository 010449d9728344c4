import Verif.Model.Drivers

/-!
# Registered drivers
-/

namespace Fern.Spec

variable {W : Type}

/-- Each driver is registered once, by its name. -/
structure Registered (drivers : List (Str × Driver W)) : Prop where
  once : (drivers.map Prod.fst).Nodup
  byName : ∀ k d, (k, d) ∈ drivers → d.name = k

/-- To ask whether a dataset can be opened changes nothing. -/
def Harmless (mode : OpenMode) (d : Driver W) : Prop :=
  ∀ name w, (d.canOpen name mode w).2 = w

/-- The driver can open the dataset. -/
def CanOpen (d : Driver W) (name : Str) (mode : OpenMode) (w : W) : Prop :=
  (d.canOpen name mode w).1 = true

/-- `d` is the first of the drivers that can open the dataset. -/
def FirstToOpen (ds : List (Driver W)) (name : Str) (mode : OpenMode) (w : W) (d : Driver W) : Prop :=
  ∃ before after, ds = before ++ d :: after ∧ (∀ e ∈ before, ¬ CanOpen e name mode w) ∧ CanOpen d name mode w

/-- The message if no driver can open a dataset. -/
def refusal : OpenMode → IOMessage
  | .read => .cannotBeRead
  | .update => .cannotBeWritten
  | .overwrite => .cannotBeWritten

end Fern.Spec
