import Verif.Spec.Select
/-
What shifting an array means.
-/
namespace Fern.Spec

variable {V : Type}

/-- Source element `s` ends up at element `d` when `n` elements are shifted by `o`. -/
def Shifted1 (n : Nat) (o : Int) (d s : Nat) : Prop := s < n ∧ (s : Int) + o = d

/-- Source element `s` ends up at element `d` when `n1` rows and `n2` columns (row-major) are shifted
by `o1` rows and `o2` columns. -/
def Shifted2 (n1 n2 : Nat) (o1 o2 : Int) (d s : Nat) : Prop :=
  ∃ r c r' c', c < n2 ∧ d = r * n2 + c ∧ c' < n2 ∧ s = r' * n2 + c' ∧
    Shifted1 n1 o1 r r' ∧ Shifted1 n2 o2 c c'

/-- The element gets no-data, or the fill value if there is one. -/
def Initialised (outp : OutPolicy V) (fill : Option V) (c c' : Cell V) : Prop :=
  match fill with
  | none => Marked outp c c'
  | some f => Becomes f c c'

/-- Element `c` of the result becomes `c'`: the value of its source element, no-data if that is
no-data, and no-data or the fill value without source element. -/
def OffsetCell (inp : InPolicy V) (outp : OutPolicy V) (fill : Option V) (value : List V)
    (src : Nat → Prop) (c c' : Cell V) : Prop :=
  (∀ s, src s → (NoDataAt inp value s → Marked outp c c') ∧
    (¬ NoDataAt inp value s → ∃ v, value[s]? = some v ∧ Becomes v c c')) ∧
  ((∀ s, ¬ src s) → Initialised outp fill c c')

/-- The offset is a value of the signed integer type of `w` bits. -/
def OffsetOfType (w : Nat) (o : Int) : Prop := -(2 ^ (w - 1) : Int) ≤ o ∧ o < 2 ^ (w - 1)

end Fern.Spec
