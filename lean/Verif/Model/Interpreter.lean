import Verif.Model.Thread
import Verif.Model.Validate
import Verif.Model.Execute

/-!
# The interpreter

Model of `language/interpreter/interpreter.cc` (the parsers left out) and of the parts of
`language/interpreter/execute_visitor.cc` that connect the calls.
-/

namespace Fern

/-- What the interpreter uses of a `DataSource` (`language/interpreter/data_source.h`): `expression_type()`
and the result of `read()`. -/
structure DataSource (V : Type) where
  type : ExpressionType
  value : V

/-- What does not change: `_operations`, and the values of constants. -/
structure InterpreterContext (V : Type) where
  ops : Operations V
  number : Number → V
  string : Str → V

/-- The members that change (`language/interpreter/interpreter.h:80-92`): the stack and the symbol table of
the annotate visitor, and the state of the back end. The validate visitor has none, the thread and the
identify visitor are new in every call. -/
structure Interpreter (V : Type) where
  types : List ExpressionType
  table : SymbolTable ExpressionType
  back : ExecuteState V

/-- How a call ends: normally; by a `ValidateError`, after which the interpreter can still be used; or by a
failing assertion, or an exception of an operation. -/
inductive Called (V : Type)
  | done (i : Interpreter V)
  | refused (i : Interpreter V) (p : Problem)
  | failed

variable {V : Type}

/-- The constructor (`language/interpreter/interpreter.cc:55-65`). -/
def Interpreter.initial : Interpreter V := ⟨[], [[]], ExecuteState.initial⟩

/-- A tree as parsed: without types and operations. -/
def Annotations.none : Annotations V := ⟨fun _ => [], fun _ => Option.none⟩

/-- `annotate` (`language/interpreter/interpreter.cc:252-271`): threading, identification, the types of the
data sources and annotation. `tree`: the types and operations of the vertices. -/
def Interpreter.annotate (c : InterpreterContext V) (i : Interpreter V) (m : Module)
    (tree : Annotations V) (sources : Scope (DataSource V)) :
    Option (Interpreter V × Annotations V) :=
  (threadModule m).bind fun _ =>
  (identifyModule m).bind fun _ =>
  ((⟨i.types, i.table, tree.types, tree.operation⟩ : AnnotateState V).addGlobalSymbols
    (sources.map fun e => (e.1, e.2.type))).bind fun s =>
  (annotateStmts c.ops s m.statements).map fun s =>
    ({ i with types := s.stack, table := s.table }, ⟨s.types, s.operation⟩)

/-- `validate` (`language/interpreter/interpreter.cc:294-393`). The tree is returned with the interpreter. -/
def Interpreter.validate (c : InterpreterContext V) (i : Interpreter V) (m : Module)
    (tree : Annotations V) (sources : Scope (DataSource V)) : Called V × Annotations V :=
  match i.annotate c m tree sources with
  | .none => (.failed, tree)
  | some (i, tree) =>
    match validateStmts tree m.statements with
    | .ok => (.done i, tree)
    | .error p => (.refused i p, tree)
    | .undefined => (.failed, tree)

/-- `set_data_source_symbols` (`language/interpreter/execute_visitor.cc:48-66`): the symbols for which there
is a data source are erased. The data sources themselves are an argument of `executeTree`. -/
def eraseSources (t : SymbolTable V) (sources : Scope (DataSource V)) : Option (SymbolTable V) :=
  sources.foldlM (fun t e => if t.hasValue e.1 then t.eraseValue e.1 else some t) t

/-- The last part of `execute` (`language/interpreter/interpreter.cc:439-441`). -/
def Interpreter.executeTree (c : InterpreterContext V) (i : Interpreter V) (m : Module)
    (sources : Scope (DataSource V)) (syncs : List Str) : Called V :=
  match (eraseSources i.back.table sources).bind fun t =>
      executeModule ⟨c.ops, c.number, c.string, fun n => (sources.value n).map (·.value), syncs.contains,
        []⟩ { i.back with table := t } m with
  | .none => .failed
  | some s => .done { i with back := s }

/-- `execute` (`language/interpreter/interpreter.cc:415-445`). -/
def Interpreter.execute (c : InterpreterContext V) (i : Interpreter V) (m : Module)
    (tree : Annotations V) (sources : Scope (DataSource V)) (syncs : List Str) : Called V :=
  match (i.validate c m tree sources).1 with
  | .done i => i.executeTree c m sources syncs
  | r => r

/-- `clear_stack` (`language/interpreter/interpreter.cc:467-471`). -/
def Interpreter.clearStack (i : Interpreter V) : Interpreter V :=
  { i with types := [], back := { i.back with stack := [] } }

end Fern
