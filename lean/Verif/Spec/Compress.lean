import Verif.Spec.LocalOps
namespace Fern.Spec

variable {V : Type}

open Classical in
/-- The valid (not no-data) values at the given positions, in order. -/
noncomputable def validAt (inp : InPolicy V) (values : List V) (idxs : List Nat) : List V :=
  (idxs.filter (fun i => ¬ NoDataAt inp values i)).filterMap (fun i => values[i]?)

/-- The valid values of an array, in order. -/
noncomputable def validValues (inp : InPolicy V) (values : List V) : List V :=
  validAt inp values (List.range values.length)

end Fern.Spec

namespace Fern.Spec

open Classical in
/-- The number of valid elements before position `i`. -/
noncomputable def rank {P : Type} (inp : InPolicy P) (pvals : List P) (i : Nat) : Nat :=
  ((List.range i).filter (fun j => ¬ NoDataAt inp pvals j)).length

/-- Element `i` after decompressing `value`. -/
def DecompressCell {P V : Type} (inp : InPolicy P) (pvals : List P) (outp : OutPolicy V)
    (value : List V) (i : Nat) (c c' : Cell V) : Prop :=
  (NoDataAt inp pvals i → Marked outp c c') ∧
  (¬ NoDataAt inp pvals i →
    ∃ v, value[rank inp pvals i]? = some v ∧ c' = ⟨v, c.masked⟩)

end Fern.Spec
