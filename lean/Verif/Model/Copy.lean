import Verif.Model.LocalOps
/-
`copy` (`algorithm/core/detail/copy.h`), for a destination that is not the source. Source and
destination have the same value type here.
-/
namespace Fern

variable {V : Type}

/-- The body of the loop of `copy_1d` (`algorithm/core/detail/copy.h:45-50`): the action on the
destination element for source element `i`. -/
def copyAct (inp : InPolicy V) (outp : OutPolicy V) (source : List V) (i : Nat) :
    Option (Cell V → Cell V) := do
  if ← inp.isNoData source i then some outp.mark
  else some (storeAct (← source[i]?))

/-- The loop of `copy_1d` (`algorithm/core/detail/copy.h:41-53`): source elements `idxs`, destination
index. -/
def copyLoop (inp : InPolicy V) (outp : OutPolicy V) (source : List V) :
    List Nat → Nat → Option (List (Act (Cell V)))
  | [], _ => some []
  | i :: is, dst => do
    let f ← copyAct inp outp source i
    let rest ← copyLoop inp outp source is (dst + 1)
    some (⟨dst, f⟩ :: rest)

/-- Sequential `copy` (`algorithm/core/detail/copy.h:92-105`). -/
def copySeq (inp : InPolicy V) (outp : OutPolicy V) (source : List V) (range : IndexRange)
    (position : Nat) (destination : List (Cell V)) : Option (List (Cell V)) := do
  assert' (source.length == destination.length)
  runActs (← copyLoop inp outp source range.indices position) destination

/-- `position_per_block` (`algorithm/core/detail/copy.h:163-169`): element 0 is assigned without
testing that there is one. -/
def positionPerBlock (position : Nat) : List IndexRange → Option (List Nat)
  | [] => none
  | r :: rs => some (go position (r :: rs))
where
  go (p : Nat) : List IndexRange → List Nat
    | [] => []
    | r :: rs => p :: go (p + r.size) rs

/-- Parallel `copy`: the tasks (`algorithm/core/detail/copy.h:129-187`). -/
def copyTasks (t : Nat) (inp : InPolicy V) (outp : OutPolicy V) (source : List V)
    (range : IndexRange) (position : Nat) (destination : List (Cell V)) :
    Option (List (List (Act (Cell V)))) := do
  assert' (source.length == destination.length)
  let blocks ← indexRanges t range.size
  let blocks := blocks.map (fun r => (⟨range.b + r.b, range.b + r.e⟩ : IndexRange))
  let positions ← positionPerBlock position blocks
  (blocks.zip positions).mapM (fun p => copyLoop inp outp source p.1.indices p.2)

end Fern
