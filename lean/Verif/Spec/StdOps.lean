import Verif.Model.StdOps

/-!
# What attributes in space, the operations of the language, and printing should be
-/

namespace Fern.StdOps.Spec

open Fern Fern.StdOps Fern.Domains

/-- Adding to an attribute, one after the other: what the attribute becomes, and the identifiers. -/
def addAll {G V : Type} (a : Attribute G V) : List (G × V) → Option (Attribute G V × List Nat)
  | [] => some (a, [])
  | (g, v) :: l =>
    match a.add g v with
    | none => none
    | some (a, i) =>
      match addAll a l with
      | none => none
      | some (a, is) => some (a, i :: is)

/-- `a` is the attribute with these geometries and values, in this order. -/
def Built {G V : Type} (l : List (G × V)) (a : Attribute G V) : Prop :=
  ∃ is, addAll .empty l = some (a, is)

/-- The mathematical absolute value. -/
def magnitude : Flt → Flt
  | .fin q => .fin (if q < 0 then -q else q)
  | .inf => .inf
  | .negInf => .inf
  | .nan => .nan

/-- `dst` is `src` with `f` of the cells that have a value, and the same mask. -/
structure Cells {α : Type} (f : α → Option α) (zero : α) (src dst : Field α) : Prop where
  rows : dst.rows = src.rows
  cols : dst.cols = src.cols
  mask : ∀ r c, r < src.rows → c < src.cols → (dst.cell r c).2 = (src.cell r c).2
  value : ∀ r c, r < src.rows → c < src.cols → (src.cell r c).2 = false →
    f (src.cell r c).1 = some (dst.cell r c).1
  masked : ∀ r c, r < src.rows → c < src.cols → (src.cell r c).2 = true → (dst.cell r c).1 = zero

/-- Texts with commas between them. -/
def commas : List (List Char) → List Char
  | [] => []
  | [t] => t
  | t :: l => t ++ ", ".toList ++ commas l

/-- Whether an attribute is a constant or a field, and of which type: 0 booleans, 1 strings, 2 floats, 3 doubles, and
the integers. -/
def kind {G : Type} : Arg G → Bool × (Nat ⊕ IntTy)
  | .constInt t _ => (false, .inr t)
  | .constFlt d _ => (false, .inl (if d then 3 else 2))
  | .constString _ => (false, .inl 1)
  | .constBool _ => (false, .inl 0)
  | .fieldInt t _ => (true, .inr t)
  | .fieldFlt d _ => (true, .inl (if d then 3 else 2))
  | .fieldBool _ => (true, .inl 0)
  | .fieldString _ => (true, .inl 1)

end Fern.StdOps.Spec
