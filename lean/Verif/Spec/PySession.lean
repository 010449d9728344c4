import Verif.Model.PySession
import Verif.Spec.PyOps

/-!
# What Python programs with rasters are about

A program that changes no raster can be read with values for names, as if rasters were numbers.
-/

namespace Fern.PySession.Spec

open Fern Fern.Spec PyOps PyOps.Spec

/-- The operation that an operator stands for, with both sides in the order in which they are written. Rasters of
which nothing else is known are given by their contents. -/
def meant (f : Operator) : Value → Value → Out Value
  | .number n, .number m =>
    .ok (.number (match f with
      | .add => n + m
      | .multiply => n * m
      | .less => if n < m then 1 else 0
      | .greater => if n > m then 1 else 0))
  | .raster l, .raster r =>
    made (match f with
      | .add => rasterRaster .add (fun _ => 0) l r
      | .multiply => rasterRaster .multiply (fun _ => 0) l r
      | .less => compareRasters .less (fun _ => 0) l r
      | .greater => compareRasters .greater (fun _ => 0) l r)
  | .raster l, .number n =>
    if Fits .i64 n then
      made (match f with
        | .add => rasterNumber .add (fun _ => 0) l n
        | .multiply => rasterNumber .multiply (fun _ => 0) l n
        | .less => compareNumber .less (fun _ => 0) l n
        | .greater => compareNumber .greater (fun _ => 0) l n)
    else .error
  | .number n, .raster r =>
    if Fits .i64 n then
      made (match f with
        | .add => numberRaster .add (fun _ => 0) n r
        | .multiply => numberRaster .multiply (fun _ => 0) n r
        | .less => numberCompare .less (fun _ => 0) n r
        | .greater => numberCompare .greater (fun _ => 0) n r)
    else .error
where
  /-- The raster as a value. -/
  made : Out Raster → Out Value
    | .ok q => .ok (.raster q)
    | .error => .error
    | .assertion => .assertion
    | .undefined => .undefined

/-- The values of names. -/
abbrev Environment := String → Option Value

/-- The environment in which name `x` has value `v`. -/
def Environment.with (env : Environment) (x : String) (v : Option Value) : Environment :=
  fun y => if y = x then v else env y

/-- Value `v` is the value of an expression. -/
inductive Means (env : Environment) : Expr → Value → Prop
  | name {x v} (h : env x = some v) : Means env (.name x) v
  | number {n} : Means env (.number n) (.number n)
  | raster {t vs m o c r} (h : fromLists t vs m o c = .ok r) : Means env (.raster t vs m o c) (.raster r)
  | operate {f a b v w q} (h1 : Means env a v) (h2 : Means env b w) (h3 : meant f v w = .ok q) :
    Means env (.operate f a b) q

/-- What a program does without changing rasters: the values of all names at the end. -/
inductive Leads : Environment → List Statement → Environment → Prop
  | nil {env} : Leads env [] env
  | assign {env x e v rest env'} (h : Means env e v) (h' : Leads (env.with x (some v)) rest env') :
    Leads env (.assign x e :: rest) env'
  | times {env x e v rest env'} (h : Means env (.operate .multiply (.name x) e) v)
    (h' : Leads (env.with x (some v)) rest env') : Leads env (.times x e :: rest) env'
  | look {env x r rest env'} (h : env x = some (.raster r)) (h' : Leads env rest env') :
    Leads env (.look x :: rest) env'
  | delete {env x v rest env'} (h : env x = some v) (h' : Leads (env.with x none) rest env') :
    Leads env (.delete x :: rest) env'

/-- A statement that changes no raster. -/
def Harmless : Statement → Prop
  | .plus _ _ | .call _ _ _ => False
  | _ => True

/-- The values of names are those of the environment. -/
def HasValues (s : State) (env : Environment) : Prop :=
  ∀ x, match env x with
    | none => s.get x = .error
    | some v => ∃ o, s.get x = .ok (o, v)

/-- States of programs. -/
structure Sound (s : State) : Prop where
  rasters : ∀ (o : Nat) (r : Raster), s.objects[o]? = some (.raster r) → WellFormed r ∧ Supported r.type
  names : ∀ (x : String) (o : Nat), s.find x = some o → o < s.objects.length
  references : ∀ o w : Nat, s.objects[o]? = some (.reference w) → ∃ r, s.objects[w]? = some (.raster r)

/-- There is no result of `+=`. -/
def Plain (s : State) : Prop := ∀ o w : Nat, s.objects[o]? ≠ some (.reference w)

/-- The raster that name `x` stands for is held by object `o`, and is `r`. -/
def Stands (s : State) (x : String) (o : Nat) (r : Raster) : Prop := s.get x = .ok (o, .raster r)

/-- The value of name `x` is `v`. -/
def Has (s : State) (x : String) (v : Value) : Prop := ∃ o, s.get x = .ok (o, v)

/-- A name other than `x` refers to the object that name `x` refers to. -/
def Shared (s : State) (x : String) (o : Nat) : Prop := ∃ z, z ≠ x ∧ s.find z = some o

end Fern.PySession.Spec
