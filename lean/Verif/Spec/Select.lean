import Verif.Spec.ElemLoop
/-
Specifications of `cover`, `if` and the no-data operations.
-/
namespace Fern.Spec

variable {R V : Type}

/-- An argument: a scalar or an array (of any number of dimensions, in row-major order). -/
inductive Arg (V : Type) where
  | scalar (v : V)
  | array (l : List V)

/-- The argument's value for position `i`. -/
def Arg.HasAt (a : Arg V) (i : Nat) (v : V) : Prop :=
  match a with
  | .scalar w => v = w
  | .array l => l[i]? = some v

/-- The argument is no-data at position `i`. -/
def Arg.NoData (p : InPolicy V) (a : Arg V) (i : Nat) : Prop :=
  match a with
  | .scalar v => NoDataAt p [v] 0
  | .array l => NoDataAt p l i

/-- The argument and its policy fit a result of `n` elements. -/
def Arg.Fits (p : InPolicy V) (a : Arg V) (n : Nat) : Prop :=
  match a with
  | .scalar _ => PolicyFor p 1
  | .array l => l.length = n ∧ PolicyFor p n

/-- The element becomes `v`, its mask entry is left alone. -/
def Becomes (v : R) (c c' : Cell R) : Prop := c'.val = v ∧ c'.masked = c.masked

/-- First valid value, else no-data. -/
def Cover (outp : OutPolicy R) (in1 in2 : InPolicy R) (a1 a2 : Arg R) (i : Nat)
    (c c' : Cell R) : Prop :=
  (¬ a1.NoData in1 i → ∃ v, a1.HasAt i v ∧ Becomes v c c') ∧
  (a1.NoData in1 i → ¬ a2.NoData in2 i → ∃ v, a2.HasAt i v ∧ Becomes v c c') ∧
  (a1.NoData in1 i → a2.NoData in2 i → Marked outp c c')

/-- The selected argument's value, or no-data. -/
def Take (outp : OutPolicy R) (p : InPolicy R) (a : Arg R) (i : Nat) (c c' : Cell R) : Prop :=
  (a.NoData p i → Marked outp c c') ∧ (¬ a.NoData p i → ∃ v, a.HasAt i v ∧ Becomes v c c')

/-- if-then. -/
def IfThen (outp : OutPolicy R) (inC : InPolicy Bool) (inT : InPolicy R) (cond : Arg Bool)
    (tv : Arg R) (i : Nat) (c c' : Cell R) : Prop :=
  (cond.NoData inC i → Marked outp c c') ∧
  (¬ cond.NoData inC i → cond.HasAt i true → Take outp inT tv i c c') ∧
  (¬ cond.NoData inC i → cond.HasAt i false → Marked outp c c')

/-- if-then-else. -/
def IfThenElse (outp : OutPolicy R) (inC : InPolicy Bool) (inT inF : InPolicy R) (cond : Arg Bool)
    (tv fv : Arg R) (i : Nat) (c c' : Cell R) : Prop :=
  (cond.NoData inC i → Marked outp c c') ∧
  (¬ cond.NoData inC i → cond.HasAt i true → Take outp inT tv i c c') ∧
  (¬ cond.NoData inC i → cond.HasAt i false → Take outp inF fv i c c')

/-- The element is marked if `nd`, and not touched otherwise. -/
def MarkedIff (outp : OutPolicy R) (nd : Prop) (c c' : Cell R) : Prop :=
  (nd → Marked outp c c') ∧ (¬ nd → c' = c)

end Fern.Spec
