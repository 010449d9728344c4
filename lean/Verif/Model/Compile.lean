import Verif.Model.InOut

/-!
# The compiler

Model of `language/compiler/compile_visitor.cc`: the C++ code that is written for a module.
-/

namespace Fern

/-- The members that change during the visit of the statements
(`language/compiler/compile_visitor.h:52-55`). -/
structure CompileState where
  statement : Str
  body : List Str
  deriving DecidableEq

/-- The first part of an operation (`language/compiler/compile_visitor.cc:102-104`). -/
def operationText (n : Str) : Str :=
  "_operations->operation(\"".toList ++ n ++
    "\")->execute(std::vector<std::shared_ptr<fern::Argument>>{".toList

mutual

/-- The visits of expressions (`language/compiler/compile_visitor.cc:78-109, 252-261`): what `_statement` is after
them, given what it was. The default visit of an attribute ends with the visit of a statement
(`language/ast/visitor/ast_visitor.cc:66-84`), which clears `_statement`
(`language/compiler/compile_visitor.cc:112-118`). `none`: there is no such operation
(`language/operation/core/operations.cc`), which makes an assertion fail. -/
def compileExpr (known : Str → Bool) (t : Str) : Expr → Option Str
  | .name _ n => some (t ++ n)
  | .number _ _ => some t
  | .string _ _ => some t
  | .call _ n args =>
    if known n then (compileExprs known (t ++ operationText n) args).map (· ++ "}))".toList) else none
  | .operator _ n args =>
    if known n then (compileExprs known (t ++ operationText n) args).map (· ++ "}))".toList) else none
  | .subscript _ _ _ => some t
  | .attribute _ e _ => (compileExpr known t e).map fun _ => []

/-- `visit_expressions` (`language/ast/visitor/ast_visitor.cc:33-39`). -/
def compileExprs (known : Str → Bool) (t : Str) : List Expr → Option Str
  | [] => some t
  | e :: es => (compileExpr known t e).bind fun t => compileExprs known t es

end

/-- The begin of the statement for an assignment (`language/compiler/compile_visitor.cc:56-57`). -/
def resultsText : Str := "std::vector<std::shared_ptr<fern::Argument>> results(".toList

/-- The statement for the target (`language/compiler/compile_visitor.cc:60-62`). -/
def targetText (n : Str) : Str := "std::shared_ptr<fern::Argument> ".toList ++ n ++ "(results[0])".toList

mutual

/-- The visits of statements (`language/compiler/compile_visitor.cc:52-75`, for definitions of functions and return
statements `language/ast/visitor/ast_visitor.cc:95-101, 204-211`). -/
def compileStmt (known : Str → Bool) (s : CompileState) : Stmt → Option CompileState
  | .expr e => (compileExpr known s.statement e).map fun t => { s with statement := t }
  | .assign _ _ n e => (compileExpr known resultsText e).map fun t => ⟨t, s.body ++ [t, targetText n]⟩
  | .ifElse _ _ _ _ _ _ _ _ _ => some s
  | .while _ _ _ _ _ _ _ _ _ => some s
  | .function _ _ args _ _ body =>
    (compileExprs known s.statement args).bind fun t =>
    (compileStmts known { s with statement := t } body).map fun s => { s with statement := [] }
  | .ret _ (some e) => (compileExpr known s.statement e).map fun _ => { s with statement := [] }
  | .ret _ none => some { s with statement := [] }

/-- `visit_statements` (`language/ast/visitor/ast_visitor.cc:20-26`). -/
def compileStmts (known : Str → Bool) (s : CompileState) : List Stmt → Option CompileState
  | [] => some s
  | t :: ts => (compileStmt known s t).bind fun s => compileStmts known s ts

end

/-- A number as text. -/
def natText (i : Nat) : Str := (Nat.toDigits 10 i)

/-- The statement that reads an input (`language/compiler/compile_visitor.cc:156-158`). -/
def readText (n : Str) (i : Nat) : Str :=
  "std::shared_ptr<fern::Argument> ".toList ++ n ++ "(data_sources[".toList ++ natText i ++
    "]->read());".toList

/-- The three pieces that write an output (`language/compiler/compile_visitor.cc:166-173`). -/
def writeTexts (n : Str) (i : Nat) : List Str :=
  ["if(".toList ++ natText i ++ " < data_syncs.size()) {".toList,
   "    data_syncs[".toList ++ natText i ++ "]->write(*".toList ++ n ++ ");".toList,
   "}".toList]

/-- `_body` at the end of the visit of a module (`language/compiler/compile_visitor.cc:124-174`). -/
def compileBody (known : Str → Bool) (m : Module) : Option (List Str) :=
  (ioModule m).bind fun io =>
  (compileStmts known ⟨[], io.inputs.mapIdx fun i n => readText n i⟩ m.statements).map fun s =>
  s.body ++ (io.outputs.mapIdx fun i r => writeTexts r.n i).flatten

/-- The body of the function `run` (`language/compiler/compile_visitor.cc:247-248`). -/
def joinBody (body : List Str) : Str :=
  join body ";\n    ".toList ++ if body ≠ [] then [';'] else []

/-- The list of descriptions (`language/compiler/compile_visitor.cc:135-151`). -/
def descriptionsText (names : List Str) : Str :=
  join (names.map fun n => "fern::DataDescription(\"".toList ++ n ++ "\")".toList) ", ".toList

/-- The first part of the C++ module (`language/compiler/compile_visitor.cc:211-242`), given the names of the header
and of the class, and those of inputs and outputs. -/
def moduleBegin (header className : Str) (inputs outputs : List Str) : Str :=
  "#include \"".toList ++ header ++ "\"\n\n\n".toList ++ className ++ "::".toList ++ className ++
  "()\n\n    : fern::Module(\n          {\n              // Inputs.\n              ".toList ++
  descriptionsText inputs ++
  "\n          },\n          {\n              // Outputs.\n              ".toList ++
  descriptionsText outputs ++
  "\n          }),\n      _operations(fern::operations())\n\n{\n}\n\n\n".toList ++
  className ++ "::~".toList ++ className ++ "()\n{\n}\n\n\nvoid ".toList ++ className ++
  ("::run(\n    std::vector<std::shared_ptr<fern::DataSource>> const& data_sources,\n" ++
   "    std::vector<std::shared_ptr<fern::DataSync>> const& data_syncs) const\n{\n" ++
   "    check_sources_and_syncs(data_sources, data_syncs);\n    ").toList

/-- The C++ module (`language/compiler/compile_visitor.cc:211-248`). -/
def compileModule (known : Str → Bool) (header className : Str) (m : Module) : Option Str :=
  (ioModule m).bind fun io =>
  (compileBody known m).map fun body =>
    moduleBegin header className io.inputs (io.outputs.map (·.n)) ++ joinBody body ++ "\n}\n".toList

end Fern
