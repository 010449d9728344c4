import Verif.Model.IndexRanges
/-
Specification of a division in consecutive ranges.
-/
namespace Fern.Spec

/-- `Consecutive a b l`: the ranges in `l` are non-empty and lie side by side, from `a` up to `b`. -/
def Consecutive (a b : Nat) : List IndexRange → Prop
  | [] => a = b
  | r :: rs => r.b = a ∧ a < r.e ∧ Consecutive r.e b rs

/-- Index `i` lies in range `r`. -/
def InRange (i : Nat) (r : IndexRange) : Prop := r.b ≤ i ∧ i < r.e

/-- Every index below `n` is in exactly one of the ranges and no other index is in any. -/
def ExactCover (n : Nat) (l : List IndexRange) : Prop :=
  (∀ i, i < n → ∃ k, ∃ h : k < l.length, InRange i l[k] ∧
    ∀ k', ∀ h' : k' < l.length, InRange i l[k'] → k' = k) ∧
  (∀ i k, ∀ h : k < l.length, InRange i l[k] → i < n)

/-- Cell `(i, j)` lies in a block. -/
def InBlock (i j : Nat) (r : IndexRanges2) : Prop := InRange i r.rows ∧ InRange j r.cols

/-- Every cell of an `n1 x n2` array is in exactly one of the blocks and no other cell is. -/
def ExactCover2 (n1 n2 : Nat) (l : List IndexRanges2) : Prop :=
  (∀ i j, i < n1 → j < n2 → ∃ k, ∃ h : k < l.length, InBlock i j l[k] ∧
    ∀ k', ∀ h' : k' < l.length, InBlock i j l[k'] → k' = k) ∧
  (∀ i j k, ∀ h : k < l.length, InBlock i j l[k] → i < n1 ∧ j < n2)

end Fern.Spec
