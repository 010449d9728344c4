import Verif.Spec.Aggregate
/-
What accumulators have to establish. Of the model only the types are used.
-/
namespace Fern.Spec

/-- The state after adding the values to an accumulator in state `s`. `none` is undefined behaviour. -/
def addFrom {S V R : Type} (A : Accumulator S V R) : S → List V → Option S
  | s, [] => some s
  | s, v :: vs => (A.add s v).bind (fun x => addFrom A x.1 vs)

/-- The state after adding the values to a default constructed accumulator. -/
def addAllTo {S V R : Type} (A : Accumulator S V R) (vs : List V) : Option S := addFrom A A.init vs

/-- The result after adding the values to a default constructed accumulator. -/
def resultOf {S V R : Type} (A : Accumulator S V R) (vs : List V) : Option R :=
  (addAllTo A vs).bind A.result

/-- The result after adding the values in `xs` and `ys` to two accumulators, and merging them. -/
def resultOfMerged {S V R : Type} (A : Accumulator S V R) (xs ys : List V) : Option R :=
  (addAllTo A xs).bind fun s => (addAllTo A ys).bind fun s' =>
    (A.merge s s').bind fun x => A.result x.1

/-- The state after adding the values in `xs` and `ys` to two accumulators, and merging them. -/
def merged {S V R : Type} (A : Accumulator S V R) (xs ys : List V) : Option S :=
  (addAllTo A xs).bind fun s => (addAllTo A ys).bind fun s' => (A.merge s s').map Prod.fst

/-- `m` is the largest of the values. -/
def IsMax (vs : List Int) (m : Int) : Prop := m ∈ vs ∧ ∀ v ∈ vs, v ≤ m

/-- `m` is the smallest of the values. -/
def IsMin (vs : List Int) (m : Int) : Prop := m ∈ vs ∧ ∀ v ∈ vs, m ≤ v

/-- `l` are the values, sorted. -/
def SortedValues (vs l : List Int) : Prop := List.Perm l vs ∧ l.Pairwise (· ≤ ·)

/-- `m` is one of the most frequent values. -/
def IsMode (vs : List Int) (m : Int) : Prop := m ∈ vs ∧ ∀ v, vs.count v ≤ vs.count m

end Fern.Spec
