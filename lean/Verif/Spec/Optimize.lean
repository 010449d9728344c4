import Verif.Spec.Execute
import Verif.Model.Optimize

/-!
# Names that are used once

When the expression a name is defined by may take the place of the name's only use.
-/

namespace Fern.Spec

/-- The use `v` refers to the definition `d`, and no other use does. -/
def OnlyUse (ts : List Token) (v d : Vid) : Prop :=
  RefersTo ts v d ∧ ∀ v', RefersTo ts v' d → v' = v

/-- The name defined at `d` is used once. -/
def UsedOnce (ts : List Token) (d : Vid) : Prop := ∃ v, OnlyUse ts v d

/-- The identities of the expressions assigned. -/
def assignedIds (l : List Stmt) : List Vid :=
  l.filterMap fun
    | .assign _ _ _ e => some e.vid
    | _ => none

/-- The vertices are different objects. -/
structure Distinct (l : List Stmt) : Prop where
  names : (tokenIds (stmtsTokens l)).Nodup
  statements : (l.map Stmt.vid).Nodup
  expressions : (assignedIds l).Nodup

/-- A name whose definition is used once, where it is used, is all of the expression of an
assignment. -/
structure UsedWhole (l : List Stmt) : Prop where
  expr : ∀ e, Stmt.expr e ∈ l → ∀ v ∈ useIds (exprTokens e), ∀ d, ¬ OnlyUse (stmtsTokens l) v d
  assign : ∀ v t n e, Stmt.assign v t n e ∈ l → ∀ u ∈ useIds (exprTokens e), ∀ d,
    OnlyUse (stmtsTokens l) u d → ∃ k, e = .name u k

/-- No name used once is defined to be a name that is used once. -/
def NoChain (l : List Stmt) : Prop :=
  ∀ v t n u k, Stmt.assign v t n (.name u k) ∈ l → UsedOnce (stmtsTokens l) t →
    ∀ d, ¬ OnlyUse (stmtsTokens l) u d

/-- The names that statements assign to. -/
def targets : List Stmt → List Str
  | [] => []
  | .assign _ _ n _ :: ts => n :: targets ts
  | _ :: ts => targets ts

/-- No name in the defining expression of a name used once is assigned to between the definition and
the use. -/
def NotReassigned (l : List Stmt) : Prop :=
  ∀ a v t n e b v' t' n' u k r, l = a ++ .assign v t n e :: (b ++ .assign v' t' n' (.name u k) :: r) →
    OnlyUse (stmtsTokens l) u t → ∀ m ∈ usedNames (exprTokens e), m ∉ targets b

/-- The last assignment to the name, if any, is not of a value used once. -/
def Remains (l : List Stmt) (n : Str) : Prop :=
  ∀ a v t e b, l = a ++ .assign v t n e :: b → n ∉ targets b → ¬ UsedOnce (stmtsTokens l) t

/-- The statements `b'` are what remains of the statements `b` of `l`: a definition that is used once is
left out, and its expression takes the place of the use. -/
inductive Inlines (l : List Stmt) : List Stmt → List Stmt → Prop
  | nil : Inlines l [] []
  | expr {e b b'} : Inlines l b b' → Inlines l (.expr e :: b) (.expr e :: b')
  | removed {v t n e b b'} : UsedOnce (stmtsTokens l) t → Inlines l b b' →
      Inlines l (.assign v t n e :: b) b'
  | replaced {v t n u k v' d n' e b b'} : ¬ UsedOnce (stmtsTokens l) t → OnlyUse (stmtsTokens l) u d →
      Stmt.assign v' d n' e ∈ l → Inlines l b b' →
      Inlines l (.assign v t n (.name u k) :: b) (.assign v t n e :: b')
  | kept {v t n e b b'} : ¬ UsedOnce (stmtsTokens l) t →
      (∀ u ∈ useIds (exprTokens e), ∀ d, ¬ OnlyUse (stmtsTokens l) u d) → Inlines l b b' →
      Inlines l (.assign v t n e :: b) (.assign v t n e :: b')

end Fern.Spec
