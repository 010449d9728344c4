import Verif.Model.Syntax

/-!
# Printing of modules

Model of `ModuleVisitor` (`language/ast/visitor/module_visitor.cc`). The visitor only appends to its
member `_module`; the visits of expressions are modelled by the text they append. `none`: an assertion
fails. Formatting of floating point numbers is done by the standard library and not modelled: it is a
parameter.
-/

namespace Fern

/-- How `boost::format("%1%")` formats values of type `float` and `double`. -/
structure FloatFormat where
  float32 : Rat → Str
  float64 : Rat → Str

/-- `unary_operator_symbols` (`language/ast/core/operator_vertex.cc:17-22`). -/
def unarySymbols : List (Str × Str) :=
  [("Invert".toList, "~".toList), ("Not".toList, "!".toList), ("UnaryAdd".toList, "+".toList),
    ("UnarySub".toList, "-".toList)]

/-- `binary_operator_symbols` (`language/ast/core/operator_vertex.cc:25-51`). -/
def binarySymbols : List (Str × Str) :=
  [("add".toList, "+".toList), ("Sub".toList, "-".toList), ("Mult".toList, "*".toList),
    ("Div".toList, "/".toList), ("Mod".toList, "%".toList), ("Pow".toList, "**".toList),
    ("LShift".toList, "<<".toList), ("RShift".toList, ">>".toList), ("BitOr".toList, "|".toList),
    ("BitXor".toList, "^".toList), ("BitAnd".toList, "&".toList), ("FloorDiv".toList, "//".toList),
    ("And".toList, "and".toList), ("Or".toList, "or".toList), ("Eq".toList, "==".toList),
    ("NotEq".toList, "!=".toList), ("Lt".toList, "<".toList), ("LtE".toList, "<=".toList),
    ("Gt".toList, ">".toList), ("GtE".toList, ">=".toList)]

/-- `name_to_symbol` (`language/ast/core/operator_vertex.cc:60-69`), called by the constructor of
`OperatorVertex` (`:72-81`). -/
def nameToSymbol (name : Str) : Nat → Option Str
  | 1 => unarySymbols.lookup name
  | 2 => binarySymbols.lookup name
  | _ => none

/-- How an integer is written by an output stream. -/
def formatInt (v : Int) : Str :=
  if v < 0 then '-' :: Nat.toDigits 10 v.natAbs else Nat.toDigits 10 v.natAbs

/-- How a value of a character type is written by an output stream: as that character. -/
def formatByte (v : Int) : Str := [Char.ofNat (v % 256).toNat]

/-- `Visit(NumberVertex<T>&)` (`language/ast/visitor/module_visitor.cc:182-260`), `long` having 64
bits. `int8_t` and `uint8_t` are character types. -/
def printNumber (fmt : FloatFormat) : Number → Str
  | .int .i8 v => formatByte v
  | .int .i16 v | .int .i32 v | .int .i64 v => formatInt v
  | .int .u8 v => formatByte v ++ ['U']
  | .int .u16 v | .int .u32 v | .int .u64 v => formatInt v ++ ['U']
  | .float32 v => fmt.float32 v
  | .float64 v => fmt.float64 v

mutual

/-- What the visit of an expression appends (`language/ast/visitor/module_visitor.cc:89-121`,
`:141-180`). -/
def printExpr (fmt : FloatFormat) : Expr → Option Str
  | .name _ n => some n
  | .number _ n => some (printNumber fmt n)
  | .string _ s => some (['"'] ++ s ++ ['"'])
  | .call _ n es => (printExprs fmt es).map fun a => n ++ ['('] ++ a ++ [')']
  | .operator _ n [x] =>
    (nameToSymbol n 1).bind fun sym =>
    (printExpr fmt x).map fun a => sym ++ ['('] ++ a ++ [')']
  | .operator _ n [x, y] =>
    (nameToSymbol n 2).bind fun sym =>
    (printExpr fmt x).bind fun a =>
    (printExpr fmt y).map fun b => ['('] ++ a ++ [')', ' '] ++ sym ++ [' ', '('] ++ b ++ [')']
  | .operator _ _ _ => none
  | .subscript _ e s =>
    (printExpr fmt e).bind fun a =>
    (printExpr fmt s).map fun b => ['('] ++ a ++ [')'] ++ ['['] ++ b ++ [']']
  | .attribute _ e m => (printExpr fmt e).map fun a => ['('] ++ a ++ [')'] ++ ['.'] ++ m

/-- What the loop in `visit_expressions` appends (`language/ast/visitor/module_visitor.cc:64-80`). -/
def printExprs (fmt : FloatFormat) : List Expr → Option Str
  | [] => some []
  | [x] => printExpr fmt x
  | x :: y :: l =>
    (printExpr fmt x).bind fun a => (printExprs fmt (y :: l)).map fun b => a ++ [',', ' '] ++ b

end

/-- `indentation` (`language/ast/visitor/module_visitor.cc:46-49`). -/
def indentation (tab level : Nat) : Str := List.replicate (level * tab) ' '

mutual

/-- The visit of a statement (`language/ast/visitor/module_visitor.cc:83-89`, `:263-308`); `s` is the
text before it. The visitor inherits the visits of function definitions and return statements, which
end in `Visit(AstVertex&)` (`language/ast/visitor/ast_visitor.cc:90-99`, `:203-212`), an assertion that
fails (`language/ast/visitor/module_visitor.cc:124-128`). -/
def printStmt (fmt : FloatFormat) (tab level : Nat) (s : Str) : Stmt → Option Str
  | .expr e => (printExpr fmt e).map fun a => s ++ a
  | .assign _ _ n e => (printExpr fmt e).map fun a => s ++ n ++ [' ', '=', ' '] ++ a
  | .ifElse _ _ c _ _ t _ _ f =>
    (printExpr fmt c).bind fun a =>
    (printStmts fmt tab (level + 1) (s ++ ['i', 'f', ' '] ++ a ++ [':', '\n']) t).bind fun s =>
    if f.isEmpty then some s
    else
      printStmts fmt tab (level + 1)
        (s ++ indentation tab level ++ ['e', 'l', 's', 'e', ':', '\n']) f
  | .while _ _ c _ _ t _ _ f =>
    (printExpr fmt c).bind fun a =>
    (printStmts fmt tab (level + 1)
      (s ++ ['w', 'h', 'i', 'l', 'e', ' '] ++ a ++ [':', '\n']) t).bind fun s =>
    if f.isEmpty then some s
    else
      printStmts fmt tab (level + 1)
        (s ++ indentation tab level ++ ['e', 'l', 's', 'e', ':', '\n']) f
  | .function _ _ _ _ _ _ => none
  | .ret _ _ => none

/-- `visit_statements` (`language/ast/visitor/module_visitor.cc:52-63`). -/
def printStmts (fmt : FloatFormat) (tab level : Nat) (s : Str) : List Stmt → Option Str
  | [] => some s
  | t :: l =>
    (printStmt fmt tab level (s ++ indentation tab level) t).bind fun s =>
    printStmts fmt tab level (if endsWith s ['\n'] then s else s ++ ['\n']) l

end

/-- `Visit(ModuleVertex&)` (`language/ast/visitor/module_visitor.cc:131-138`). -/
def printModule (fmt : FloatFormat) (tab : Nat) (m : Module) : Option Str :=
  printStmts fmt tab 0 [] m.statements

end Fern
