import Verif.Model.InPlace
import Verif.Spec.LocalOps
/-
Operations that write into one of their arguments: the arguments are what they were before the
operation.
-/
namespace Fern.Spec

variable {V : Type}

/-- The value of an argument at position `i`, `before` being the result before the operation. -/
def ValueBefore (x : Operand V) (before : List (Cell V)) (i : Nat) (v : V) : Prop :=
  match x with
  | .own => ∃ c, before[i]? = some c ∧ c.val = v
  | .array values => values[i]? = some v
  | .scalar w => v = w

/-- An argument is no-data at position `i`, `before` being the result before the operation. -/
def NoDataBefore (p : OperandPolicy V) (before : List (Cell V)) (i : Nat) : Prop :=
  match p with
  | .ownMask => ∃ c, before[i]? = some c ∧ c.masked = true
  | .ownValue isNd => ∃ c, before[i]? = some c ∧ isNd c.val = true
  | .bound p values => NoDataAt p values i
  | .number nd => nd = true

/-- What the range check is told about an argument with value `v`, `r` being the result: if the argument
is the result itself, it has been overwritten. -/
def Overwritten (x : Operand V) (v r : V) : V :=
  match x with
  | .own => r
  | _ => v

/-- The range check has the same opinion, whether or not the arguments have been overwritten. -/
def RangeAfter (op : LocalOp (V × V) V) (x1 x2 : Operand V) : Prop :=
  ∀ v1 v2, op.withinRange (Overwritten x1 v1 (op.compute (v1, v2)), Overwritten x2 v2 (op.compute (v1, v2)))
    (op.compute (v1, v2)) = op.withinRange (v1, v2) (op.compute (v1, v2))

@[inherit_doc RangeAfter]
def RangeAfterUnary (op : LocalOp V V) (x : Operand V) : Prop :=
  ∀ v, op.withinRange (Overwritten x v (op.compute v)) (op.compute v) = op.withinRange v (op.compute v)

/-- What an operation does with an element if arguments are the result itself: it is `LocalCell`, but for the
range check, which is told that these arguments equal the result. -/
structure InPlaceCell (op : LocalOp (V × V) V) (x1 x2 : Operand V) (outp : OutPolicy V) (nd : Prop)
    (v1 v2 : V) (c c' : Cell V) : Prop where
  noData : nd → Marked outp c c'
  outOfDomain : ¬ nd → op.withinDomain (v1, v2) = false → Marked outp c c'
  accepted : ¬ nd → op.withinDomain (v1, v2) = true →
    op.withinRange (Overwritten x1 v1 (op.compute (v1, v2)), Overwritten x2 v2 (op.compute (v1, v2)))
      (op.compute (v1, v2)) = true → c' = ⟨op.compute (v1, v2), c.masked⟩
  rejected : ¬ nd → op.withinDomain (v1, v2) = true →
    op.withinRange (Overwritten x1 v1 (op.compute (v1, v2)), Overwritten x2 v2 (op.compute (v1, v2)))
      (op.compute (v1, v2)) = false → Marked outp ⟨op.compute (v1, v2), c.masked⟩ c'

/-- Arrays are of size `n`. -/
def OperandOk (n : Nat) (x : Operand V) : Prop :=
  match x with
  | .array values => values.length = n
  | _ => True

@[inherit_doc OperandOk]
def OperandPolicyOk (n : Nat) (p : OperandPolicy V) : Prop :=
  match p with
  | .bound p values => values.length = n ∧ PolicyFor p n
  | _ => True

end Fern.Spec
