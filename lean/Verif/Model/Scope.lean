import Verif.Model.Strings

/-!
# Scopes, symbol tables, stacks and scope exit guards

Model of `core/scope.h`, `language/core/symbol_table.h`, `core/stack.{h,cc}` and
`core/scope_exit.h`.
-/

namespace Fern

/-- `Scope<Value>`: a `std::map<std::string, Value>` (`core/scope.h:17-61`), as the list of its
entries. The model does not keep the entries sorted: iteration over a scope is not modelled. -/
abbrev Scope (V : Type) := List (Str × V)

namespace Scope

variable {V : Type}

/-- `size` (`core/scope.h:131-134`). -/
def size (s : Scope V) : ℕ := s.length

/-- `has_value` (`core/scope.h:157-163`). -/
def hasValue (s : Scope V) (name : Str) : Bool := s.any (fun e => e.1 == name)

/-- `_values[name] = value`: overwrite the entry of the name, or add one
(`core/scope.h:143`). -/
def assign : Scope V → Str → V → Scope V
  | [], name, value => [(name, value)]
  | (n, v) :: s, name, value => if n == name then (n, value) :: s else (n, v) :: assign s name value

/-- `set_value` (`core/scope.h:137-144`). -/
def setValue (s : Scope V) (name : Str) (value : V) : Scope V := assign s name value

/-- `erase_value` (`core/scope.h:147-154`). `none`: the assertion fails. -/
def eraseValue (s : Scope V) (name : Str) : Option (Scope V) :=
  if s.hasValue name then some (s.filter fun e => !(e.1 == name)) else none

/-- `value` (`core/scope.h:166-173`). `none`: the assertion fails. -/
def value (s : Scope V) (name : Str) : Option V := (s.find? fun e => e.1 == name).map (·.2)

/-- `clear` (`core/scope.h:176-181`). -/
def clear (_ : Scope V) : Scope V := []

end Scope

/-- The operations that change a scope. -/
inductive ScopeOp (V : Type)
  | set (name : Str) (value : V)
  | erase (name : Str)
  | clear

/-- One operation on a scope. -/
def ScopeOp.run {V : Type} (s : Scope V) : ScopeOp V → Option (Scope V)
  | .set n v => some (s.setValue n v)
  | .erase n => s.eraseValue n
  | .clear => some s.clear

/-- Operations from the first to the last. -/
def runScope {V : Type} (s : Scope V) (ops : List (ScopeOp V)) : Option (Scope V) :=
  ops.foldlM ScopeOp.run s

/-! ### Symbol table -/

/-- `SymbolTable<T>` (`language/core/symbol_table.h:29-85`): its scopes. The model lists them from
the innermost one (`_scopes.back()`) to the outermost one. -/
abbrev SymbolTable (V : Type) := List (Scope V)

namespace SymbolTable

variable {V : Type}

/-- `push_scope` (`language/core/symbol_table.h:144-149`). -/
def pushScope (t : SymbolTable V) : SymbolTable V := [] :: t

/-- `pop_scope` (`language/core/symbol_table.h:159-165`). -/
def popScope : SymbolTable V → Option (SymbolTable V)
  | [] => none
  | _ :: t => some t

/-- `clear_scope` (`language/core/symbol_table.h:168-174`). -/
def clearScope : SymbolTable V → Option (SymbolTable V)
  | [] => none
  | s :: t => some (s.clear :: t)

/-- `scope_level()` (`language/core/symbol_table.h:185-190`). -/
def scopeLevel (t : SymbolTable V) : ℕ := t.length

/-- `has_value` (`language/core/symbol_table.h:284-299`). -/
def hasValue (t : SymbolTable V) (name : Str) : Bool := t.any (fun s => s.hasValue name)

/-- The loop of `scope_level(name)`: from the innermost scope outwards, the level is the number of
scopes from there on. -/
def levelLoop : SymbolTable V → Str → ℕ
  | [], _ => 0
  | s :: t, name => if s.hasValue name then t.length + 1 else levelLoop t name

/-- `scope_level(name)` (`language/core/symbol_table.h:198-221`). -/
def scopeLevelOf (t : SymbolTable V) (name : Str) : Option ℕ :=
  if t.hasValue name then some (t.levelLoop name) else none

/-- `scope(level)` (`language/core/symbol_table.h:224-232`): levels count from 1, the outermost
one. -/
def scope (t : SymbolTable V) (level : ℕ) : Option (Scope V) :=
  if level ≤ t.length ∧ level > 0 then t[t.length - level]? else none

/-- `add_value` (`language/core/symbol_table.h:243-266`). -/
def addValue : SymbolTable V → Str → V → Option (SymbolTable V)
  | [], _, _ => none
  | s :: t, name, value => some (s.setValue name value :: t)

/-- `erase_value` (`language/core/symbol_table.h:273-281`). -/
def eraseValue : SymbolTable V → Str → Option (SymbolTable V)
  | [], _ => none
  | s :: t, name => (s.eraseValue name).map (· :: t)

/-- `value` (`language/core/symbol_table.h:302-318`): the scopes are tried from the innermost one.
`none`: the assertion fails. -/
def value : SymbolTable V → Str → Option V
  | [], _ => none
  | s :: t, name => if s.hasValue name then s.value name else value t name

/-- `size` (`language/core/symbol_table.h:329-342`): the number of values in all scopes. -/
def size (t : SymbolTable V) : ℕ := (t.map Scope.size).sum

/-- `empty` (`language/core/symbol_table.h:321-326`). -/
def empty (t : SymbolTable V) : Bool := t.size == 0

end SymbolTable

/-- The operations that change a symbol table. -/
inductive TableOp (V : Type)
  | push
  | pop
  | clear
  | add (name : Str) (value : V)
  | erase (name : Str)

/-- One operation on a symbol table. -/
def TableOp.run {V : Type} (t : SymbolTable V) : TableOp V → Option (SymbolTable V)
  | .push => some t.pushScope
  | .pop => t.popScope
  | .clear => t.clearScope
  | .add n v => t.addValue n v
  | .erase n => t.eraseValue n

/-- Operations from the first to the last. -/
def runTable {V : Type} (t : SymbolTable V) (ops : List (TableOp V)) : Option (SymbolTable V) :=
  ops.foldlM TableOp.run t

/-! ### Stack -/

/-- A `boost::any`: a value together with its type, out of the types `τ`. -/
abbrev AnyValue (τ : Type) (val : τ → Type) := (t : τ) × val t

/-- `Stack` (`core/stack.h:21-55`); the head of the list is the top. -/
abbrev AnyStack (τ : Type) (val : τ → Type) := List (AnyValue τ val)

/-- What reading the top can give. -/
inductive TopResult (α : Type)
  | value (v : α)
  /-- The exception `boost::bad_any_cast`. -/
  | badCast
  /-- Undefined behaviour: the stack is empty. -/
  | undefined
  deriving DecidableEq, Repr

namespace AnyStack

variable {τ : Type} {val : τ → Type}

/-- `push` (`core/stack.h:63-68`). -/
def push (s : AnyStack τ val) (t : τ) (v : val t) : AnyStack τ val := ⟨t, v⟩ :: s

/-- `top<T>` (`core/stack.h:77-81`, `core/stack.cc:18-21`). -/
def top [DecidableEq τ] (s : AnyStack τ val) (t : τ) : TopResult (val t) :=
  match s with
  | [] => .undefined
  | ⟨t', v⟩ :: _ => if h : t' = t then .value (h ▸ v) else .badCast

/-- `pop` (`core/stack.cc:28-32`). -/
def pop : AnyStack τ val → Option (AnyStack τ val)
  | [] => none
  | _ :: s => some s

/-- `size` (`core/stack.cc:38-41`). -/
def size (s : AnyStack τ val) : ℕ := s.length

/-- `empty` (`core/stack.cc:47-50`). -/
def empty (s : AnyStack τ val) : Bool := s.isEmpty

end AnyStack

/-- The operations that change a stack. -/
inductive StackOp (τ : Type) (val : τ → Type)
  | push (t : τ) (v : val t)
  | pop

/-- One operation on a stack. -/
def StackOp.run {τ : Type} {val : τ → Type} (s : AnyStack τ val) :
    StackOp τ val → Option (AnyStack τ val)
  | .push t v => some (s.push t v)
  | .pop => s.pop

/-- Operations from the first to the last. -/
def runStack {τ : Type} {val : τ → Type} (s : AnyStack τ val) (ops : List (StackOp τ val)) :
    Option (AnyStack τ val) :=
  ops.foldlM StackOp.run s

/-! ### Scope exit guards -/

/-- A `ScopeExit` object (`core/scope_exit.h:53-82`): the function, named, and whether it is called
upon destruction. -/
structure Guard where
  action : ℕ
  execute : Bool
  deriving DecidableEq, Repr

/-- The guard objects that exist, by identity, the identities used so far, and the calls made so far
(the identity of the object and its action), the last one first. -/
structure GuardState where
  live : ℕ → Option Guard
  used : List ℕ
  calls : List (ℕ × ℕ)

/-- What can happen to guards. Identities name the objects. -/
inductive GuardOp
  | create (id action : ℕ)
  | release (id : ℕ)
  /-- Move construct a guard from another one. -/
  | move (source id : ℕ)
  | destroy (id : ℕ)
  deriving DecidableEq, Repr

/-- One event (`core/scope_exit.h:91-128`). The defaulted move constructor (line 72) copies the flag
and leaves the one of the source as it is. `none`: not possible, since the object does not exist, or
the identity has been used already. -/
def GuardOp.run (s : GuardState) : GuardOp → Option GuardState
  | .create id action =>
    if id ∈ s.used then none
    else some { s with live := Function.update s.live id (some ⟨action, true⟩), used := id :: s.used }
  | .release id =>
    match s.live id with
    | none => none
    | some g => some { s with live := Function.update s.live id (some { g with execute := false }) }
  | .move source id =>
    match s.live source with
    | none => none
    | some g =>
      if id ∈ s.used then none
      else some { s with live := Function.update s.live id (some g), used := id :: s.used }
  | .destroy id =>
    match s.live id with
    | none => none
    | some g => some
      { s with
        live := Function.update s.live id none
        calls := if g.execute then (id, g.action) :: s.calls else s.calls }

/-- No guards yet. -/
def GuardState.initial : GuardState := ⟨fun _ => none, [], []⟩

/-- Events from the first to the last. -/
def runGuards (ops : List GuardOp) : Option GuardState := ops.foldlM GuardOp.run GuardState.initial

end Fern
