import Verif.Model.LocalOps
/-
What the local operations have to establish, element by element. Only the types of the model are
used here, none of its functions.
-/
namespace Fern.Spec

variable {A V R : Type}

/-- Element `i` of the argument is no-data according to the input no-data policy. -/
def NoDataAt (p : InPolicy V) (vals : List V) (i : Nat) : Prop :=
  match p with
  | .skip => False
  | .all => True
  | .detect isNd => ∃ v, vals[i]? = some v ∧ isNd v = true
  | .byMask mask marker => mask[i]? = some marker

/-- The policy can be asked about elements `0 .. n-1`: its mask is as large as the array. -/
def PolicyFor (p : InPolicy V) (n : Nat) : Prop :=
  match p with
  | .byMask mask _ => mask.length = n
  | _ => True

/-- `c'` is `c` marked as no-data. -/
def Marked (p : OutPolicy R) (c c' : Cell R) : Prop :=
  match p with
  | .dontMark => c' = c
  | .markValue nd => c'.val = nd ∧ c'.masked = c.masked
  | .markMask => c'.val = c.val ∧ c'.masked = true

/-- What a local operation does with result element `c`, given whether an argument is no-data, and
the argument value(s) `a`. -/
structure LocalCell (op : LocalOp A R) (outp : OutPolicy R) (nd : Prop) (a : A)
    (c c' : Cell R) : Prop where
  noData : nd → Marked outp c c'
  outOfDomain : ¬ nd → op.withinDomain a = false → Marked outp c c'
  ok : ¬ nd → op.withinDomain a = true → op.withinRange a (op.compute a) = true →
    c' = ⟨op.compute a, c.masked⟩
  outOfRange : ¬ nd → op.withinDomain a = true → op.withinRange a (op.compute a) = false →
    Marked outp ⟨op.compute a, c.masked⟩ c'

/-- `out` results from `res` by changing each element, at position `i`, according to `P i`. -/
def Elementwise {α : Type} (P : Nat → α → α → Prop) (res out : List α) : Prop :=
  out.length = res.length ∧
  ∀ i c, res[i]? = some c → ∃ c', out[i]? = some c' ∧ P i c c'

/-- `f(v1, v2)` is within domain and range. -/
def StepOk (op : LocalOp (V × V) V) (a b : V) : Prop :=
  op.withinDomain (a, b) = true ∧ op.withinRange (a, b) (op.compute (a, b)) = true

/-- The value of `f(..f(f(a, b), v3).., vn)`. -/
def nAryValue (op : LocalOp (V × V) V) (a b : V) (vs : List V) : V :=
  vs.foldl (fun x v => op.compute (x, v)) (op.compute (a, b))

/-- All applications of `f` in `f(..f(f(a, b), v3).., vn)` are within domain and range. -/
def NAryOk (op : LocalOp (V × V) V) (a b : V) : List V → Prop
  | [] => StepOk op a b
  | v :: vs => StepOk op a b ∧ NAryOk op (op.compute (a, b)) v vs

end Fern.Spec
