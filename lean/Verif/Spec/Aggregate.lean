import Verif.Spec.LocalOps
import Verif.Spec.CInt
import Verif.Model.Aggregate
/-
What aggregates have to establish. Of the model only the types are used.
-/
namespace Fern.Spec

variable {S V R : Type}

instance (p : InPolicy V) (vals : List V) (i : Nat) : Decidable (NoDataAt p vals i) :=
  match p with
  | .skip => isFalse id
  | .all => isTrue trivial
  | .detect isNd =>
    match h : vals[i]? with
    | none => isFalse (by simp [NoDataAt, h])
    | some v =>
      if hv : isNd v = true then isTrue ⟨v, h, hv⟩
      else isFalse (by simp [NoDataAt, h, hv])
  | .byMask mask marker => inferInstanceAs (Decidable (mask[i]? = some marker))

/-- The values of the elements with index in `l` that are not no-data, in the order of `l`. -/
def valuesAt (p : InPolicy V) (vals : List V) (l : List Nat) : List V :=
  l.filterMap (fun i => if NoDataAt p vals i then none else vals[i]?)

/-- The valid values of an array, in the order of the (row-major) elements. -/
def validList (p : InPolicy V) (vals : List V) : List V :=
  valuesAt p vals (List.range vals.length)

/-- The cell `c` has become `c'`: assigned `x`. -/
def Assigned (x : R) (c c' : Cell R) : Prop := c'.val = x ∧ c'.masked = c.masked

/-- All partial sums `v₁`, `v₁ + v₂`, ... are values of type `t`. -/
def PartialSumsFit (t : IntTy) (vs : List Int) : Prop := ∀ k, Fits t (vs.take k).sum

/-- `x` is `n` modulo the number of values of type `t`, and a value of `t`. -/
def ModuloOf (t : IntTy) (n x : Int) : Prop :=
  Fits t x ∧ ∃ k : Int, x = n + k * 2 ^ t.bits

/-- An accumulator without undefined behaviour and range errors for values in `Q` and states in `P`, for
which merging with an accumulator to which values were added amounts to adding these values. -/
structure PureAccumulator (A : Accumulator S V R) (P : S → Prop) (Q : V → Prop) (f : S → V → S)
    (m : S → S → S) : Prop where
  init : P A.init
  step : ∀ s v, P s → Q v → P (f s v)
  add : ∀ s v, P s → Q v → A.add s v = some (f s v, true)
  merge : ∀ s s', P s → P s' → A.merge s s' = some (m s s', true)
  hom : ∀ s (vs : List V), P s → (∀ v ∈ vs, Q v) → m s (vs.foldl f A.init) = vs.foldl f s

end Fern.Spec
