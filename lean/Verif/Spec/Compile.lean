import Verif.Spec.Identify

/-!
# C++ code, as far as needed

Brackets, declarations, and what the generated functions do when they are executed.
-/

namespace Fern.Spec

/-! ### Brackets -/

/-- Is this a bracket? -/
def isBracket (c : Char) : Bool := c ∈ ['(', ')', '[', ']', '{', '}']

/-- The next character, given the brackets that are open, the last one first. -/
def bracketStep (s : List Char) (c : Char) : Option (List Char) :=
  if c ∈ ['(', '[', '{'] then some (c :: s)
  else if isBracket c then
    match s with
    | o :: s => if (o, c) ∈ [('(', ')'), ('[', ']'), ('{', '}')] then some s else none
    | [] => none
  else some s

/-- The brackets that are open after a text. `none`: a bracket does not match. -/
def bracketScan (s : List Char) (t : Str) : Option (List Char) := t.foldlM bracketStep s

/-- All brackets of a text match. -/
def BracketsMatch (t : Str) : Prop := bracketScan [] t = some []

instance (t : Str) : Decidable (BracketsMatch t) := inferInstanceAs (Decidable (_ = _))

/-- A text without brackets. -/
def NoBrackets (t : Str) : Prop := ∀ c ∈ t, isBracket c = false

/-! ### Declarations -/

/-- What remains of a text that begins with another. -/
def afterPrefix : Str → Str → Option Str
  | [], t => some t
  | _ :: _, [] => none
  | a :: p, b :: t => if a = b then afterPrefix p t else none

/-- The name that a line of code declares: it has the form `type name(...`, with one of two types. -/
def declaredName (line : Str) : Option Str :=
  ((afterPrefix "std::shared_ptr<fern::Argument> ".toList line).orElse fun _ =>
    afterPrefix "std::vector<std::shared_ptr<fern::Argument>> ".toList line).map (·.takeWhile (· ≠ '('))

/-! ### What is in a module -/

mutual

/-- The number of operations in an expression, not counting those in subscripts. -/
def operationCount : Expr → Nat
  | .name _ _ | .number _ _ | .string _ _ | .subscript _ _ _ => 0
  | .call _ _ args => 1 + operationCounts args
  | .operator _ _ args => 1 + operationCounts args
  | .attribute _ e _ => operationCount e

/-- The number of operations in expressions. -/
def operationCounts : List Expr → Nat
  | [] => 0
  | e :: es => operationCount e + operationCounts es

end

mutual

/-- There are no attributes, except in subscripts. -/
def withoutAttributes : Expr → Bool
  | .name _ _ | .number _ _ | .string _ _ | .subscript _ _ _ => true
  | .call _ _ args => allWithoutAttributes args
  | .operator _ _ args => allWithoutAttributes args
  | .attribute _ _ _ => false

/-- There are no attributes, except in subscripts. -/
def allWithoutAttributes : List Expr → Bool
  | [] => true
  | e :: es => withoutAttributes e && allWithoutAttributes es

end

/-- A single operation: its arguments are no operations. -/
def SingleOperation (e : Expr) : Prop := ∃ v n args, (e = .call v n args ∨ e = .operator v n args) ∧
  operationCounts args = 0

mutual

/-- The targets and expressions of the assignments of a statement, except those in if and while statements. -/
def compiledAssignments : Stmt → List (Str × Expr)
  | .assign _ _ n e => [(n, e)]
  | .function _ _ _ _ _ body => allCompiledAssignments body
  | .expr _ | .ifElse _ _ _ _ _ _ _ _ _ | .while _ _ _ _ _ _ _ _ _ | .ret _ _ => []

/-- The targets and expressions of the assignments of statements. -/
def allCompiledAssignments : List Stmt → List (Str × Expr)
  | [] => []
  | s :: ss => compiledAssignments s ++ allCompiledAssignments ss

end

/-- The names in an argument list, one directly after the other. -/
def gluedNames : List Expr → Str
  | [] => []
  | .name _ n :: es => n ++ gluedNames es
  | _ :: es => gluedNames es

/-! ### Execution -/

/-- The statements of a generated function. -/
inductive CppLine
  /-- `std::shared_ptr<fern::Argument> n(data_sources[i]->read())` -/
  | read (n : Str) (i : Nat)
  /-- `std::vector<std::shared_ptr<fern::Argument>> results(_operations->operation("f")->execute({a}))` -/
  | execute (f a : Str)
  /-- `std::shared_ptr<fern::Argument> n(results[0])` -/
  | first (n : Str)
  /-- `if(i < data_syncs.size()) { data_syncs[i]->write(*n) }` -/
  | write (n : Str) (i : Nat)

/-- The statement, as it is written. The digits of numbers are given. -/
def CppLine.texts (digits : Nat → Str) : CppLine → List Str
  | .read n i => ["std::shared_ptr<fern::Argument> ".toList ++ n ++ "(data_sources[".toList ++ digits i ++
      "]->read());".toList]
  | .execute f a => ["std::vector<std::shared_ptr<fern::Argument>> results(".toList ++
      ("_operations->operation(\"".toList ++ f ++
       "\")->execute(std::vector<std::shared_ptr<fern::Argument>>{".toList) ++ a ++ "}))".toList]
  | .first n => ["std::shared_ptr<fern::Argument> ".toList ++ n ++ "(results[0])".toList]
  | .write n i => ["if(".toList ++ digits i ++ " < data_syncs.size()) {".toList,
      "    data_syncs[".toList ++ digits i ++ "]->write(*".toList ++ n ++ ");".toList, "}".toList]

/-- Values of variables, the results, and what has been written to the data syncs. -/
structure CppState (V : Type) where
  vars : List (Str × V)
  results : List V
  written : List (Nat × V)

/-- A statement is executed. `none`: a variable does not exist, or the execution fails. `execute`: what the
operations do. -/
def CppLine.run {V : Type} (execute : Str → List V → Option (List V)) (sources : List V) (syncs : Nat)
    (s : CppState V) : CppLine → Option (CppState V)
  | .read n i => (sources[i]?).map fun v => { s with vars := (n, v) :: s.vars }
  | .execute f a =>
    if a = [] then (execute f []).map fun r => { s with results := r }
    else ((s.vars.lookup a).bind fun v => execute f [v]).map fun r => { s with results := r }
  | .first n => (s.results.head?).map fun v => { s with vars := (n, v) :: s.vars }
  | .write n i =>
    if i < syncs then (s.vars.lookup n).map fun v => { s with written := s.written ++ [(i, v)] } else some s

end Fern.Spec
