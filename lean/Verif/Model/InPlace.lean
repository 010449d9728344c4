import Verif.Model.LocalOps
/-
Local operations that write their result into one of their arguments, as in
`algebra::subtract(.., result, multiplied_values, result)`
(`algorithm/algebra/vector/detail/laplacian.h:176-179`) or
`algebra::sqrt(.., result, result)` (`algorithm/space/focal/detail/slope.h:203-206`).

The loops are the ones of `Verif.Model.LocalOps`. What differs is that the values and the mask that
are read are those of the result at that moment: the body of the loop depends on the state; and that
the out of range policy gets an argument that has been overwritten (`LocalOp.aliased`). In a
parallel run, the elements are the steps: a task handles its elements one after the other, while
other tasks may handle other elements in between.
-/
namespace Fern

variable {V γ : Type}

/-- An argument of an operation: the result itself, another array, or a number. -/
inductive Operand (V : Type) where
  | own
  | array (values : List V)
  | scalar (v : V)

/-- `get(value, i)`, `none`: out of bounds. -/
def Operand.read (x : Operand V) (s : List (Cell V)) (i : Nat) : Option V :=
  match x with
  | .own => (s[i]?).map Cell.val
  | .array values => values[i]?
  | .scalar v => some v

/-- The argument is the result itself. -/
def Operand.isOwn (x : Operand V) : Bool :=
  match x with
  | .own => true
  | _ => false

/-- The input no-data policy of an argument.
* `ownMask`: `DetectNoDataByValue` bound to the mask of the result
  (`InputNoDataPolicyTemporary<.., Result>{mask(result)}`, `detail/laplacian.h:169-174`)
* `ownValue isNd`: `DetectNoData` bound to the result
* `bound p values`: a policy that does not look at the result
* `number nd`: the policy of a number, with its answer (asked before the loop, e.g.
  `binary_local_operation.h:274`). -/
inductive OperandPolicy (V : Type) where
  | ownMask
  | ownValue (isNd : V → Bool)
  | bound (p : InPolicy V) (values : List V)
  | number (nd : Bool)

/-- `is_no_data(i)`, `none`: out of bounds. -/
def OperandPolicy.isNoData (p : OperandPolicy V) (s : List (Cell V)) (i : Nat) : Option Bool :=
  match p with
  | .ownMask => (s[i]?).map Cell.masked
  | .ownValue isNd => (s[i]?).map (fun c => isNd c.val)
  | .bound p values => p.isNoData values i
  | .number nd => some nd

/-- Body of the loop of a unary operation (`algorithm/core/unary_local_operation.h:83-108,
138-163`), given the current state of the result. -/
def ownUnaryActs (op : LocalOp V V) (p : OperandPolicy V) (outp : OutPolicy V) (x : Operand V)
    (s : List (Cell V)) (i : Nat) : Option (List (Cell V → Cell V)) := do
  if ← p.isNoData s i then some [outp.mark]
  else some (valueActs (op.aliasedUnary x.isOwn) outp (← x.read s i))

/-- Body of the loop of a binary operation (`algorithm/core/binary_local_operation.h:81-132,
208-248, 260-331, 343-414, 426-476`), given the current state of the result. -/
def ownBinaryActs (op : LocalOp (V × V) V) (p1 p2 : OperandPolicy V) (outp : OutPolicy V)
    (x1 x2 : Operand V) (s : List (Cell V)) (i : Nat) : Option (List (Cell V → Cell V)) := do
  if ← p1.isNoData s i then some [outp.mark]
  else if ← p2.isNoData s i then some [outp.mark]
  else some (valueActs (op.aliased x1.isOwn x2.isOwn) outp (← x1.read s i, ← x2.read s i))

/-- One element of the loop: read, then perform the actions. -/
def ownStep (acts : List γ → Nat → Option (List (γ → γ))) (i : Nat) (s : List γ) :
    Option (List γ) := do
  runActs ((← acts s i).map (Act.mk i)) s

/-- A sequential operation over a 1D range. -/
def ownSeq1d (acts : List γ → Nat → Option (List (γ → γ))) (size : Nat) (s : List γ) :
    Option (List γ) :=
  loop1d ⟨0, size⟩ (ownStep acts) s

/-- A sequential operation over a 2D range. -/
def ownSeq2d (acts : List γ → Nat → Option (List (γ → γ))) (size1 size2 nrCols : Nat)
    (s : List γ) : Option (List γ) :=
  loop2d nrCols ⟨⟨0, size1⟩, ⟨0, size2⟩⟩ (ownStep acts) s

/-- A parallel run: some interleaving of the blocks' elements. -/
def OwnParResult (acts : List γ → Nat → Option (List (γ → γ))) (blocks : Option (List (List Nat)))
    (s : List γ) (o : Option (List γ)) : Prop :=
  match blocks with
  | none => o = none
  | some bs => ∃ l, Interleave bs l ∧ forIn' l (ownStep acts) s = o

end Fern
