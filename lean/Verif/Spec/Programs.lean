import Verif.Model.Loop
import Verif.Model.LocalOps
import Verif.Spec.LocalOps

/-! Programs that call local operations one after the other, and what they should mean for each of the cells. A call
reads its arguments as they were before the call: that this is also right if the result goes to one of the arguments is
C73. -/

namespace Fern.Programs

open Fern

/-- How rasters tell which cells have no value: by a mask, or by a value (`isNoData` is the comparison with it). -/
inductive Scheme (V : Type)
  | mask
  | value (noData : V) (isNoData : V → Bool)

/-- A call. Arguments and results are numbers of rasters, or a constant. -/
inductive Call (V : Type)
  | unary (op : LocalOp V V) (source target : Nat)
  | binary (op : LocalOp (V × V) V) (source1 source2 target : Nat)
  | binaryRight (op : LocalOp (V × V) V) (source : Nat) (constant : V) (target : Nat)
  | binaryLeft (op : LocalOp (V × V) V) (constant : V) (source target : Nat)

variable {V : Type}

/-- The rasters. -/
abbrev Rasters (V : Type) := Nat → List (Cell V)

namespace Scheme

/-- The input no-data policy for a raster. -/
def input (s : Scheme V) (raster : List (Cell V)) : InPolicy V :=
  match s with
  | mask => .byMask (raster.map fun c => if c.masked then 1 else 0) 1
  | value _ isNoData => .detect isNoData

/-- The output no-data policy. -/
def output : Scheme V → OutPolicy V
  | mask => .markMask
  | value noData _ => .markValue noData

end Scheme

/-- The values of a raster. -/
def values (raster : List (Cell V)) : List V := raster.map Cell.val

/-- Store a raster. -/
def put (m : Rasters V) (k : Nat) (raster : List (Cell V)) : Rasters V := fun j => if j = k then raster else m j

/-- Perform a call, by one thread. -/
def call (s : Scheme V) (size : Nat × Nat) (m : Rasters V) : Call V → Option (Rasters V)
  | .unary op a r =>
    (unary2d op (s.input (m a)) s.output size (values (m a)) size (m r)).map (put m r)
  | .binary op a b r =>
    (binary2d2d op (s.input (m a)) (s.input (m b)) s.output size (values (m a)) size (values (m b)) size (m r)).map (put m r)
  | .binaryRight op a v r =>
    (binary2d0d op (s.input (m a)) .skip s.output size (values (m a)) v size (m r)).map (put m r)
  | .binaryLeft op v b r =>
    (binary0d2d op .skip (s.input (m b)) s.output v size (values (m b)) size (m r)).map (put m r)

/-- Perform calls. -/
def calls (s : Scheme V) (size : Nat × Nat) : Rasters V → List (Call V) → Option (Rasters V)
  | m, [] => some m
  | m, c :: cs => (call s size m c).bind fun m => calls s size m cs

/-- A call performed by threads may give this. -/
def CallBy (threads : Nat) (s : Scheme V) (size : Nat × Nat) (m : Rasters V) : Call V → Option (Rasters V) → Prop
  | .unary op a r, o => ∃ x, ParResult (unary2dTasks op (s.input (m a)) s.output threads size (values (m a)) size) (m r) x ∧
    o = x.map (put m r)
  | .binary op a b r, o => ∃ x, ParResult (binary2d2dTasks threads op (s.input (m a)) (s.input (m b)) s.output size
    (values (m a)) size (values (m b)) size) (m r) x ∧ o = x.map (put m r)
  | .binaryRight op a v r, o => ∃ x, ParResult (binary2d0dTasks threads op (s.input (m a)) .skip s.output size
    (values (m a)) v size) (m r) x ∧ o = x.map (put m r)
  | .binaryLeft op v b r, o => ∃ x, ParResult (binary0d2dTasks threads op .skip (s.input (m b)) s.output v size
    (values (m b)) size) (m r) x ∧ o = x.map (put m r)

/-- Calls performed by threads may give this. -/
inductive CallsBy (threads : Nat) (s : Scheme V) (size : Nat × Nat) : Rasters V → List (Call V) → Option (Rasters V) → Prop
  | nil (m : Rasters V) : CallsBy threads s size m [] (some m)
  | fails (m : Rasters V) (c : Call V) (cs : List (Call V)) : CallBy threads s size m c none →
    CallsBy threads s size m (c :: cs) none
  | cons (m m' : Rasters V) (c : Call V) (cs : List (Call V)) (o : Option (Rasters V)) :
    CallBy threads s size m c (some m') → CallsBy threads s size m' cs o → CallsBy threads s size m (c :: cs) o

namespace Spec

/-- What is in a cell: a value, or none. -/
def content : Scheme V → Cell V → Option V
  | .mask, c => if c.masked then none else some c.val
  | .value _ isNoData, c => if isNoData c.val then none else some c.val

/-- An operation on values that may be missing. -/
def apply {A : Type} (op : LocalOp A V) (a : Option A) : Option V :=
  a.bind fun a => if op.withinDomain a && op.withinRange a (op.compute a) then some (op.compute a) else none

/-- Two values. -/
def both (a b : Option V) : Option (V × V) := a.bind fun a => b.map fun b => (a, b)

/-- Storing a value that may be missing. A mark in a mask is never removed, and a value that happens to be the one that
stands for no value counts as such. -/
def stored (s : Scheme V) (old new : Option V) : Option V :=
  match s with
  | .mask => old.bind fun _ => new
  | .value _ isNoData => new.bind fun v => if isNoData v then none else some v

/-- The result of a call, for one cell. `x k`: what is in this cell of raster `k`. -/
def result (x : Nat → Option V) : Call V → Option V
  | .unary op a _ => apply op (x a)
  | .binary op a b _ => apply op (both (x a) (x b))
  | .binaryRight op a v _ => apply op (both (x a) (some v))
  | .binaryLeft op v b _ => apply op (both (some v) (x b))

/-- Where the result goes. -/
def target : Call V → Nat
  | .unary _ _ r | .binary _ _ _ r | .binaryRight _ _ _ r | .binaryLeft _ _ _ r => r

/-- A call, for one cell. -/
def cellCall (s : Scheme V) (x : Nat → Option V) (c : Call V) : Nat → Option V :=
  fun k => if k = target c then stored s (x k) (result x c) else x k

/-- Calls, for one cell. -/
def cellCalls (s : Scheme V) (x : Nat → Option V) (cs : List (Call V)) : Nat → Option V := cs.foldl (cellCall s) x

/-- Idem, with targets that have nothing in them. -/
def plainCalls (x : Nat → Option V) (cs : List (Call V)) : Nat → Option V :=
  cs.foldl (fun x c k => if k = target c then result x c else x k) x

/-- What is in cell `i` of the rasters. -/
def cell (s : Scheme V) (m : Rasters V) (i : Nat) : Nat → Option V := fun k => (m k)[i]?.bind (content s)

/-- All rasters have this size. -/
def Sized (size : Nat × Nat) (m : Rasters V) : Prop := ∀ k, (m k).length = size.1 * size.2

/-- The value that stands for no value is recognised. -/
def Recognised : Scheme V → Prop
  | .mask => True
  | .value noData isNoData => isNoData noData = true

end Spec

end Fern.Programs
