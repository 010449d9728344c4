import Mathlib.Data.List.Basic

/-!
# What splitting and stripping mean

Independent of the loops of the model.
-/

namespace Fern.Spec

/-- `ts` are the maximal non-empty runs of non-separators of `s`, in order: `s` is a gap of
separators, a run, a gap, ..., a run, a gap; a run is non-empty, free of separators, and what
follows it is nothing or starts with a separator. -/
inductive Runs (sep : Char → Prop) : List Char → List (List Char) → Prop
  | done (g : List Char) : (∀ c ∈ g, sep c) → Runs sep g []
  | run (g t rest : List Char) (ts : List (List Char)) :
      (∀ c ∈ g, sep c) → t ≠ [] → (∀ c ∈ t, ¬ sep c) →
      (∀ c, rest.head? = some c → sep c) → Runs sep rest ts →
      Runs sep (g ++ t ++ rest) (t :: ts)

/-- `r` is `s` without the longest prefix of characters in `p`. -/
def StrippedBegin (p : Char → Prop) (s r : List Char) : Prop :=
  ∃ g, s = g ++ r ∧ (∀ c ∈ g, p c) ∧ ∀ c, r.head? = some c → ¬ p c

/-- `r` is `s` without the longest suffix of characters in `p`. -/
def StrippedEnd (p : Char → Prop) (s r : List Char) : Prop :=
  ∃ g, s = r ++ g ∧ (∀ c ∈ g, p c) ∧ ∀ c, r.getLast? = some c → ¬ p c

/-- `r` is `s` without the longest prefix and suffix of characters in `p`. -/
def Stripped (p : Char → Prop) (s r : List Char) : Prop :=
  ∃ g h, s = g ++ r ++ h ∧ (∀ c ∈ g, p c) ∧ (∀ c ∈ h, p c) ∧
    (∀ c, r.head? = some c → ¬ p c) ∧ ∀ c, r.getLast? = some c → ¬ p c

end Fern.Spec
