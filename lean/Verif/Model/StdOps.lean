import Verif.Model.Cast
import Mathlib.Logic.Function.Basic

/-!
# Attributes in space, and the operations of the language

Model of `language/feature/core/{spatial_domain, geometry_values, spatial_attribute}.h` and of the executions in
`language/operation/std/{abs, add, int32}.cc`, and of `language/operation/std/print.h`.

Simplified: attributes are values, not shared pointers. `std::abs` of `uint32_t` and `uint64_t` is ambiguous according to the
standard; libraries that accept it give the value itself, which is what the model does.
-/

namespace Fern.StdOps

open Fern Fern.Domains

/-! ## Attributes in space -/

/-- `SpatialDomain` (`spatial_domain.h:22-73`): the geometries by their identifiers, in the order of the map. -/
abbrev Domain (G : Type) := List (Nat × G)

/-- `SpatialDomain::add` (`spatial_domain.h:116-124`): the identifier is the size of the map; `insert` does nothing if
there is something with that identifier already. -/
def Domain.add {G : Type} (d : Domain G) (g : G) : Domain G × Nat :=
  let gid := d.length
  (if d.any (fun p => p.1 == gid) then d else d ++ [(gid, g)], gid)

/-- `SpatialDomain::geometry` (`spatial_domain.h:127-134`). `none`: the assertion fails. -/
def Domain.geometry {G : Type} (d : Domain G) (gid : Nat) : Option G := d.lookup gid

/-- `SpatialAttribute` (`spatial_attribute.h:24-67`). -/
structure Attribute (G V : Type) where
  domain : Domain G
  values : List (Nat × V)

/-- The default constructor (`spatial_attribute.h:70-79`). -/
def Attribute.empty {G V : Type} : Attribute G V := ⟨[], []⟩

/-- `_values[gid] = value` (`geometry_values.h:64-72`). -/
def setValue {V : Type} (l : List (Nat × V)) (gid : Nat) (v : V) : List (Nat × V) :=
  if l.any (fun p => p.1 == gid) then l.map fun p => if p.1 = gid then (gid, v) else p
  else l ++ [(gid, v)]

/-- `GeometryValues::value` (`geometry_values.h:93-102`). `none`: the assertion fails. -/
def Attribute.value {G V : Type} (a : Attribute G V) (gid : Nat) : Option V := a.values.lookup gid

/-- `SpatialAttribute::add` (`spatial_attribute.h:82-95`). `none`: the assertion fails. -/
def Attribute.add {G V : Type} (a : Attribute G V) (g : G) (v : V) : Option (Attribute G V × Nat) :=
  if a.domain.isEmpty = a.values.isEmpty ∨ a.values.isEmpty then
    let d := a.domain.add g
    some (⟨d.1, setValue a.values d.2 v⟩, d.2)
  else none

/-- `SpatialAttribute::size` (`spatial_attribute.h:128-136`). `none`: the assertion fails. -/
def Attribute.size {G V : Type} (a : Attribute G V) : Option Nat :=
  if a.domain.length = a.values.length ∨ a.values.isEmpty then some a.domain.length else none

/-- `SpatialAttribute::empty` (`spatial_attribute.h:117-125`). `none`: the assertion fails. -/
def Attribute.isEmpty {G V : Type} (a : Attribute G V) : Option Bool :=
  if a.domain.isEmpty = a.values.isEmpty ∨ a.values.isEmpty then some a.domain.isEmpty else none

/-! ## Absolute values -/

/-- `FieldValue`: an array with a mask. -/
structure Field (α : Type) where
  rows : Nat
  cols : Nat
  cell : Nat → Nat → α × Bool

/-- How executing an operation ends. -/
inductive Outcome (α : Type)
  | ok (a : α)
  /-- An assertion fails. -/
  | fails
  /-- Undefined behaviour. -/
  | undefined
  deriving DecidableEq

/-- The next step, if there is one. -/
def Outcome.andThen {α β : Type} (o : Outcome α) (k : α → Outcome β) : Outcome β :=
  match o with
  | .ok a => k a
  | .fails => .fails
  | .undefined => .undefined

/-- `T result = std::abs(value)` for an integer (`abs.cc:23`, `54-55`): types of less than 32 bits are promoted to `int`,
the result is converted back. -/
def absInt (t : IntTy) (i : Int) : Option Int :=
  if i < 0 then (t.promote.arith (-i)).map t.wrap else some i

/-- `std::abs` for a floating point number. -/
def absFlt : Flt → Flt
  | .fin q => .fin |q|
  | .negInf => .inf
  | x => x

/-- The loops over the cells of an array (`abs.cc:51-58`): `dst` has the values written so far. -/
def absCell {α : Type} (f : α → Option α) (src : Field α) (dst : Nat → Nat → α × Bool) (row col : Nat) :
    Option (Nat → Nat → α × Bool) :=
  if (src.cell row col).2 then some dst
  else (f (src.cell row col).1).map fun v =>
    Function.update dst row (Function.update (dst row) col (v, (dst row col).2))

/-- The inner loop (`abs.cc:52-57`). -/
def absRow {α : Type} (f : α → Option α) (src : Field α) (dst : Nat → Nat → α × Bool) (row : Nat) :
    Option (Nat → Nat → α × Bool) :=
  (List.range src.cols).foldlM (fun dst col => absCell f src dst row col) dst

/-- The absolute values of one array (`abs.cc:41-58`). The new array has zeros and gets a copy of the mask. -/
def absField {α : Type} (zero : α) (f : α → Option α) (src : Field α) : Outcome (Field α) :=
  if 0 < src.rows then
    match (List.range src.rows).foldlM (absRow f src) (fun r c => (zero, (src.cell r c).2)) with
    | some cell => .ok ⟨src.rows, src.cols, cell⟩
    | none => .undefined
  else .fails

/-- The loop over the boxes (`abs.cc:38-68`). -/
def absBoxes {G α : Type} (zero : α) (f : α → Option α) (a : Attribute G (Field α)) :
    Attribute G (Field α) → List (Nat × G) → Outcome (Attribute G (Field α))
  | result, [] => .ok result
  | result, (gid, g) :: l =>
    match a.value gid with
    | none => .fails
    | some src =>
      (absField zero f src).andThen fun dst =>
        match result.add g dst with
        | none => .fails
        | some (result, _) => absBoxes zero f a result l

/-- The attributes that operations are given. -/
inductive Arg (G : Type)
  | constInt (t : IntTy) (v : Int)
  | constFlt (double : Bool) (v : Flt)
  | constString (s : List Char)
  | constBool (b : Bool)
  | fieldInt (t : IntTy) (a : Attribute G (Field Int))
  | fieldFlt (double : Bool) (a : Attribute G (Field Flt))
  | fieldBool (a : Attribute G (Field Bool))
  | fieldString (a : Attribute G (Field (List Char)))

/-- `Abs::execute` (`abs.cc:126-195`). -/
def abs {G : Type} : List (Arg G) → Outcome (List (Arg G))
  | [.constInt t v] =>
    match absInt t v with
    | some r => .ok [.constInt t r]
    | none => .undefined
  | [.constFlt d v] => .ok [.constFlt d (absFlt v)]
  | [.fieldInt t a] => (absBoxes 0 (absInt t) a .empty a.domain).andThen fun r => .ok [.fieldInt t r]
  | [.fieldFlt d a] =>
    (absBoxes (.fin 0) (fun x => some (absFlt x)) a .empty a.domain).andThen fun r => .ok [.fieldFlt d r]
  | _ => .fails

/-- `Add::execute` (`add.cc:52-65`): no result. -/
def add {G : Type} : List (Arg G) → Outcome (List (Arg G))
  | [.constInt .i64 _, _] => .ok []
  | _ => .fails

/-- `Int32::execute` (`int32.cc:48-62`). -/
def int32 {G : Type} : List (Arg G) → Outcome (List (Arg G)) := fun _ => .fails

/-! ## Printing -/

/-- The loop `while(pos != end) { stream << ", " << *pos++; }` (`print.h:48-51`). -/
def printRest {α : Type} (text : α → List Char) : List α → List Char
  | [] => []
  | x :: l => ", ".toList ++ text x ++ printRest text l

/-- `print` of a constant (`print.h:20-28`). -/
def printConstant {α : Type} (text : α → List Char) (x : α) : List Char := text x ++ "\n".toList

/-- `print` of a range (`print.h:31-63`). -/
def printRange {α : Type} (text : α → List Char) (l : List α) : List Char :=
  "[".toList ++
    (match l with
    | [] => []
    | x :: r =>
      if l.length < 7 then text x ++ printRest text r
      else match r with
        | y :: z :: _ =>
          let last (k : Nat) := ((l[l.length - k]?).map text).getD []
          text x ++ ", ".toList ++ text y ++ ", ".toList ++ text z ++ ", ..., ".toList ++
            last 3 ++ ", ".toList ++ last 2 ++ ", ".toList ++ last 1
        | _ => []) ++
    "]\n".toList

/-- `print` of a raster (`print.h:66-76`). -/
def printRaster {α : Type} (_ : α) : List Char := "[".toList ++ "]\n".toList

end Fern.StdOps
