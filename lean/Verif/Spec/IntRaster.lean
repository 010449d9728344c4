import Verif.Model.IntRaster
import Verif.Spec.CInt
import Verif.Spec.ElemLoop
import Verif.Spec.Select
namespace Fern.IntRaster.Spec

open IntTy Fern.Spec

/-- The exact result; there is none for division by zero. -/
def exact : ArithOp → Int → Int → Option Int
  | .add, a, b => some (a + b)
  | .subtract, a, b => some (a - b)
  | .multiply, a, b => some (a * b)
  | .divide, a, b => if b = 0 then none else some (a.tdiv b)

/-- What the language leaves undefined, for results of type `r`: a result of 32 or 64 bits, signed,
that does not fit; a product of two `uint16_t` (which are multiplied as `int`) that does not fit an
`int`; a division by zero that is not prevented by the domain policy. -/
def Undefined (op : ArithOp) (k : Checks) (r : IntTy) (v1 v2 : Int) : Prop :=
  (∃ x, exact op v1 v2 = some x ∧
    ((r = i32 ∨ r = i64) ∧ ¬ Fits r x ∨ op = .multiply ∧ r = u16 ∧ 2147483647 < x)) ∨
  exact op v1 v2 = none ∧ k.domain = false

/-- The results that are not reported as out of range. -/
def Accepted (op : ArithOp) (k : Checks) (t1 t2 r : IntTy) (v1 v2 x : Int) : Prop :=
  k.range = false ∨
  match op with
  | .add => Fits r x ∧ (Signed t1 → Unsigned t2 → 0 < v1 ∨ v2 = 0) ∧
      (Unsigned t1 → Signed t2 → 0 < v2 ∨ v1 = 0)
  | .subtract => Fits r x
  | .multiply => Fits r x ∧ (Unsigned t1 ∧ Unsigned t2 ∨ Fits r (-x))
  | .divide => True

/-- `y` is the value of type `r` that a program gets when it stores `x`: the only one that differs
from `x` by a multiple of the number of values of the type. -/
def Stored (r : IntTy) (x y : Int) : Prop := Fits r y ∧ ∃ m : Int, y = x + m * 2 ^ r.bits

/-- The element of the result for a pair of valid values. -/
def PairCell (op : ArithOp) (k : Checks) (t1 t2 r : IntTy) (outp : OutPolicy Int) (v1 v2 : Int)
    (c c' : Cell Int) : Prop :=
  (exact op v1 v2 = none → Marked outp c c') ∧
  ∀ x, exact op v1 v2 = some x → ∃ y, Stored r x y ∧
    (Accepted op k t1 t2 r v1 v2 x → c' = ⟨y, c.masked⟩) ∧
    (¬ Accepted op k t1 t2 r v1 v2 x → Marked outp ⟨y, c.masked⟩ c')

/-- The element of the result at position `i`. `f` is what happens to the second value before it is
used. -/
def RasterCell (op : ArithOp) (k : Checks) (t1 t2 r : IntTy) (f : Int → Int)
    (in1 in2 : InPolicy Int) (outp : OutPolicy Int) (a1 a2 : Arg Int) (i : Nat)
    (c c' : Cell Int) : Prop :=
  (a1.NoData in1 i ∨ a2.NoData in2 i → Marked outp c c') ∧
  (¬ (a1.NoData in1 i ∨ a2.NoData in2 i) → ∃ v1 v2, a1.HasAt i v1 ∧ a2.HasAt i v2 ∧
    PairCell op k t1 t2 r outp v1 (f v2) c c')

/-- There is a pair of valid values for which the operation is undefined. -/
def Bad (op : ArithOp) (k : Checks) (r : IntTy) (f : Int → Int) (in1 in2 : InPolicy Int)
    (a1 a2 : Arg Int) (n : Nat) : Prop :=
  ∃ i < n, ¬ (a1.NoData in1 i ∨ a2.NoData in2 i) ∧
    ∃ v1 v2, a1.HasAt i v1 ∧ a2.HasAt i v2 ∧ Undefined op k r v1 (f v2)

/-- The operation computes `P`, sequentially and in parallel, unless `bad`, in which case every
execution is undefined. -/
def ComputesUnless {γ : Type} (bad : Prop) (loop : Option (ElemLoop γ)) (P : Nat → γ → γ → Prop)
    (res : List γ) : Prop :=
  (¬ bad → Computes loop P res) ∧
  (bad → runSeq loop res = none ∧ ∀ t, 1 ≤ t → ∀ o, ParResult (runTasks t loop) res o ↔ o = none)

/-- All values of the argument are values of the type. -/
def OfType (t : IntTy) : Arg Int → Prop
  | .scalar v => Fits t v
  | .array l => ∀ v ∈ l, Fits t v

/-- `uint64_t` is not combined with a signed type. -/
def Combinable (t1 t2 : IntTy) : Prop :=
  ¬ (t1 = u64 ∧ Signed t2) ∧ ¬ (Signed t1 ∧ t2 = u64)

end Fern.IntRaster.Spec
