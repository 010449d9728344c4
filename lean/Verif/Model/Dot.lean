import Verif.Model.Print
import Verif.Model.Types
import Verif.Model.Interpreter

/-!
# Graphs of modules

Model of `language/ast/visitor/dot_visitor.cc`, `language/ast/visitor/ast_dot_visitor.cc` and
`language/ast/visitor/flowgraph_dot_visitor.cc`: the graphs that `fern compile dot` writes. The visitors
only append to the member `_script`; a visit is modelled by the items it appends, and `Item.text` is their
text. `none`: an assertion fails.
-/

namespace Fern.Dot

/-- What is appended by one call of `add_script` (the first and the last line of a graph are not
items). -/
inductive Item
  /-- A vertex, its label and its other attributes. -/
  | node (v : Vid) (label rest : Str)
  /-- An edge and its attributes. -/
  | edge (a b : Vid) (attributes : Str)
  /-- The beginning of the box of a scope: `subgraph cluster_... {`. -/
  | cluster (v : Vid) (label : Str)
  /-- The beginning of a numbered box: `subgraph cluster... {`. -/
  | box (k : Nat)
  /-- The end of a box. -/
  | close
  deriving DecidableEq

/-- The text appended. `addr` is how the address of a vertex is written
(`language/ast/visitor/ast_dot_visitor.cc:69-74, 112-121, 151-161, 640-644, 674`,
`language/ast/visitor/flowgraph_dot_visitor.cc:40-56, 179-183`). -/
def Item.text (addr : Vid → Str) : Item → Str
  | .node v label rest =>
    "\"".toList ++ addr v ++ "\" [label=\"".toList ++ label ++ "\"".toList ++ rest ++ "];\n".toList
  | .edge a b attributes =>
    "\"".toList ++ addr a ++ "\" -> \"".toList ++ addr b ++ "\" [".toList ++ attributes ++ "];\n".toList
  | .cluster v label =>
    "subgraph cluster_".toList ++ addr v ++ " {\nlabel=\"".toList ++ label ++ "\";\n".toList
  | .box k => "subgraph cluster".toList ++ Nat.toDigits 10 k ++ " {\nordering=out;\nrankdir=TB;\n".toList
  | .close => "}\n".toList

/-- The text of items one after the other. -/
def textOf (addr : Vid → Str) (items : List Item) : Str := items.flatMap (Item.text addr)

/-- How `boost::format("%1%")` writes the value of a `NumberVertex<T>`
(`language/ast/visitor/ast_dot_visitor.cc:158-160`): values of the character types `int8_t` and `uint8_t`
as characters. -/
def numberText (fmt : FloatFormat) : Number → Str
  | .int .i8 v | .int .u8 v => formatByte v
  | .int .i16 v | .int .i32 v | .int .i64 v | .int .u16 v | .int .u32 v | .int .u64 v => formatInt v
  | .float32 v => fmt.float32 v
  | .float64 v => fmt.float64 v

/-- What the visitors read of the vertices besides the tree: `expression_types()`, `successors()`, `uses()`
and `definitions()`. -/
structure Links where
  types : Vid → ExpressionTypes
  succ : Vid → List Vid
  uses : Vid → List Vid
  definitions : Vid → List Vid

/-! ### The syntax tree -/

/-- `annotate_expression_label` (`language/ast/visitor/ast_dot_visitor.cc:18-42`). -/
def typedLabel (name : Str) : ExpressionTypes → Option Str
  | [] => some (name ++ "\\n".toList ++ "dt: -\\nvt: -".toList)
  | [t] => some (name ++ "\\n".toList ++
      ("dt: ".toList ++ t.data.toString ++ "\\n".toList ++ "vt: ".toList ++ t.value.toString))
  | _ => none

/-- `AstDotVisitor::Mode` (`language/ast/visitor/ast_dot_visitor.h:31-36`). -/
inductive Mode
  | declaring | connectingAst | connectingCfg | connectingUses
  deriving DecidableEq

/-- The colour of an expression (`language/ast/visitor/ast_dot_visitor.cc:234-235`). -/
def colour (types : ExpressionTypes) : Str :=
  if types.fixed then "/spectral11/9".toList else "/spectral11/2".toList

/-- `add_ast_vertex` (`language/ast/visitor/ast_dot_visitor.cc:65-75`). -/
def astEdge (a b : Vid) : Item := .edge a b []

/-- The attributes of the edges of the control flow (`language/ast/visitor/ast_dot_visitor.cc:114-119`). -/
def cfgAttributes : Str :=
  "color=\"/spectral11/3\", constraint=false, style=dashed, penwidth=2.0".toList

/-- The attributes of the edges to uses (`language/ast/visitor/ast_dot_visitor.cc:133-138`). -/
def useAttributes : Str :=
  "color=\"/spectral11/8\", constraint=false, style=dashed, penwidth=2.0".toList

/-- `add_cfg_vertices` (`language/ast/visitor/ast_dot_visitor.cc:106-122`). -/
def cfgEdges (t : Links) (v : Vid) : List Item := (t.succ v).map fun w => .edge v w cfgAttributes

/-- `add_use_vertices` (`language/ast/visitor/ast_dot_visitor.cc:125-141`). -/
def useEdges (t : Links) (v : Vid) : List Item := (t.uses v).map fun w => .edge v w useAttributes

/-- The declaration of an operation or a subscript (`language/ast/visitor/ast_dot_visitor.cc:225-237,
264-276, 479-491`). -/
def operationNode (t : Links) (v : Vid) (name : Str) : Option (List Item) :=
  (typedLabel name (t.types v)).map fun label =>
    [.node v label ("style=filled, fillcolor=\"".toList ++ colour (t.types v) ++ "\"".toList)]

/-- `Visit(NameVertex&)` (`language/ast/visitor/ast_dot_visitor.cc:440-471`). -/
def astName (t : Links) (v : Vid) (n : Str) : Mode → Option (List Item)
  | .declaring => (typedLabel n (t.types v)).map fun label =>
      [.node v label (" style=filled fillcolor=\"".toList ++ colour (t.types v) ++ "\"".toList)]
  | .connectingAst => some []
  | .connectingCfg => some (cfgEdges t v)
  | .connectingUses => some (useEdges t v)

/-- `Visit(NumberVertex<T>&)` (`language/ast/visitor/ast_dot_visitor.cc:144-175`). -/
def astNumber (fmt : FloatFormat) (t : Links) (v : Vid) (n : Number) : Mode → Option (List Item)
  | .declaring => (typedLabel (numberText fmt n) (t.types v)).map fun label =>
      [.node v label ", shape=box, style=filled, fillcolor=\"/spectral11/9\"".toList]
  | .connectingAst => some []
  | .connectingCfg => some (cfgEdges t v)
  | .connectingUses => some []

/-- `Visit(StringVertex&)` (`language/ast/visitor/ast_dot_visitor.cc:554-577`). -/
def astString (t : Links) (v : Vid) (s : Str) : Mode → Option (List Item)
  | .declaring => some [.node v ("\\\"".toList ++ s ++ "\\\"".toList) ", fontname=courier, shape=box".toList]
  | .connectingAst => some []
  | .connectingCfg => some (cfgEdges t v)
  | .connectingUses => some []

/-- The first part of the visits of operators, function calls and subscripts, before their operands are
visited (`language/ast/visitor/ast_dot_visitor.cc:220-252, 259-291, 474-504`). -/
def astOperation (t : Links) (v : Vid) (name : Option Str) (operands : List Vid) : Mode → Option (List Item)
  | .declaring => name.bind (operationNode t v)
  | .connectingAst => some (operands.map (astEdge v))
  | .connectingCfg => some (cfgEdges t v)
  | .connectingUses => some []

mutual

/-- The visits of expressions. Attributes have the default visit
(`language/ast/visitor/ast_visitor.cc:66-71`). -/
def astExpr (fmt : FloatFormat) (t : Links) (mode : Mode) : Expr → Option (List Item)
  | .name v n => astName t v n mode
  | .number v n => astNumber fmt t v n mode
  | .string v s => astString t v s mode
  | .call v n args =>
    (astOperation t v (some n) (args.map Expr.vid) mode).bind fun i =>
    (astExprs fmt t mode args).map (i ++ ·)
  | .operator v n args =>
    (astOperation t v (nameToSymbol n args.length) (args.map Expr.vid) mode).bind fun i =>
    (astExprs fmt t mode args).map (i ++ ·)
  | .subscript v e s =>
    (astOperation t v (some "[]".toList) [e.vid, s.vid] mode).bind fun i =>
    (astExpr fmt t mode e).bind fun x =>
    (astExpr fmt t mode s).map fun y => i ++ (x ++ y)
  | .attribute _ e _ => astExpr fmt t mode e

/-- The loops over operands (`language/ast/visitor/ast_dot_visitor.cc:254-256, 293-295`). -/
def astExprs (fmt : FloatFormat) (t : Links) (mode : Mode) : List Expr → Option (List Item)
  | [] => some []
  | e :: es => (astExpr fmt t mode e).bind fun i => (astExprs fmt t mode es).map (i ++ ·)

end

/-- The first part of `Visit(ScopeVertex&)` (`language/ast/visitor/ast_dot_visitor.cc:622-657`); `name` is
`_scope_names.top()`. -/
def astScope (name : Str) (v : Vid) (statements : List Vid) : Mode → List Item
  | .declaring => [.node v "scope".toList " ".toList]
  | .connectingAst => .cluster v name :: statements.map (astEdge v)
  | .connectingCfg => []
  | .connectingUses => []

/-- `Visit(SentinelVertex&)` (`language/ast/visitor/ast_dot_visitor.cc:662-685`). -/
def astSentinel (v : Vid) : Mode → List Item
  | .declaring => [.node v "sentinel".toList " ".toList]
  | .connectingAst => [.close]
  | .connectingCfg => []
  | .connectingUses => []

/-- The first part of the visit of an assignment (`language/ast/visitor/ast_dot_visitor.cc:191-213`). -/
def astAssign (t : Links) (v target e : Vid) : Mode → List Item
  | .declaring => [.node v "=".toList []]
  | .connectingAst => [astEdge v target, astEdge v e]
  | .connectingCfg => cfgEdges t v
  | .connectingUses => []

/-- The first part of the visits of `if` and `while` (`language/ast/visitor/ast_dot_visitor.cc:398-427,
580-609`). -/
def astBranch (label : Str) (v c : Vid) : Mode → List Item
  | .declaring => [.node v label ", shape=diamond".toList]
  | .connectingAst => [astEdge v c]
  | .connectingCfg => []
  | .connectingUses => []

/-- The first part of the visit of a function definition (`language/ast/visitor/ast_dot_visitor.cc:298-345`). -/
def astFunction (v : Vid) (n : Str) : Mode → List Item
  | .declaring => [.node v n " ".toList]
  | .connectingAst => []
  | .connectingCfg => []
  | .connectingUses => []

/-- The first part of the visit of a return statement (`language/ast/visitor/ast_dot_visitor.cc:366-390`). -/
def astReturn (v : Vid) (e : Option Vid) : Mode → List Item
  | .declaring => [.node v "return".toList " ".toList]
  | .connectingAst => e.toList.map (astEdge v)
  | .connectingCfg => []
  | .connectingUses => []

mutual

/-- The visits of statements (`language/ast/visitor/ast_dot_visitor.cc:191-217, 298-437, 580-619`). `name`
is `_scope_names.top()`; the parameters of a function are not visited. -/
def astStmt (fmt : FloatFormat) (t : Links) (mode : Mode) (name : Str) : Stmt → Option (List Item)
  | .expr e => astExpr fmt t mode e
  | .assign v target n e =>
    (astExpr fmt t mode e).bind fun x =>
    (astName t target n mode).map fun y => astAssign t v target e.vid mode ++ (x ++ y)
  | .ifElse v _ c tv ts th fv fs el =>
    (astExpr fmt t mode c).bind fun x =>
    (astStmts fmt t mode name th).bind fun y =>
    (astStmts fmt t mode name el).map fun z =>
      astBranch "If".toList v c.vid mode ++ (x ++
        ((astScope name tv (th.map Stmt.vid) mode ++ (y ++ astSentinel ts mode)) ++
          (astScope name fv (el.map Stmt.vid) mode ++ (z ++ astSentinel fs mode))))
  | .while v _ c tv ts th fv fs el =>
    (astExpr fmt t mode c).bind fun x =>
    (astStmts fmt t mode name th).bind fun y =>
    (astStmts fmt t mode name el).map fun z =>
      astBranch "While".toList v c.vid mode ++ (x ++
        ((astScope name tv (th.map Stmt.vid) mode ++ (y ++ astSentinel ts mode)) ++
          (astScope name fv (el.map Stmt.vid) mode ++ (z ++ astSentinel fs mode))))
  | .function v n _ bv bs body =>
    (astStmts fmt t mode n body).map fun y =>
      astFunction v n mode ++ (astScope n bv (body.map Stmt.vid) mode ++ (y ++ astSentinel bs mode))
  | .ret v none => some (astReturn v none mode)
  | .ret v (some e) => (astExpr fmt t mode e).map fun x => astReturn v (some e.vid) mode ++ x

/-- The loop over the statements of a scope (`language/ast/visitor/ast_dot_visitor.cc:655-657`). -/
def astStmts (fmt : FloatFormat) (t : Links) (mode : Mode) (name : Str) : List Stmt → Option (List Item)
  | [] => some []
  | s :: ss => (astStmt fmt t mode name s).bind fun i => (astStmts fmt t mode name ss).map (i ++ ·)

end

/-- One visit of the scope of the module (`language/ast/visitor/ast_dot_visitor.cc:525, 528, 533, 543`). -/
def astPass (fmt : FloatFormat) (t : Links) (source : Str) (m : Module) (mode : Mode) :
    Option (List Item) :=
  (astStmts fmt t mode source m.statements).map fun y =>
    astScope source m.scope (m.statements.map Stmt.vid) mode ++ (y ++ astSentinel m.sentinel mode)

/-- The items that `Visit(ModuleVertex&)` appends (`language/ast/visitor/ast_dot_visitor.cc:511-551`).
`cfg`, `uses`: whether the modes passed to the constructor have these bits. -/
def astItems (fmt : FloatFormat) (t : Links) (source : Str) (cfg uses : Bool) (m : Module) :
    Option (List Item) :=
  (astPass fmt t source m .declaring).bind fun a =>
  (astPass fmt t source m .connectingAst).bind fun b =>
  (if cfg then astPass fmt t source m .connectingCfg else some []).bind fun c =>
  (if uses then astPass fmt t source m .connectingUses else some []).map fun d => a ++ (b ++ (c ++ d))

/-- The script (`language/ast/visitor/ast_dot_visitor.cc:518-522, 549`). -/
def astScript (fmt : FloatFormat) (t : Links) (addr : Vid → Str) (source : Str) (cfg uses : Bool)
    (m : Module) : Option Str :=
  (astItems fmt t source cfg uses m).map fun i =>
    "digraph G {\nordering=out;\nrankdir=TB;\n".toList ++ (textOf addr i ++ "}\n".toList)

/-! ### The flow of data -/

/-- `add_flowgraph_vertex` (`language/ast/visitor/flowgraph_dot_visitor.cc:34-98`). -/
def flowEdges (t : Links) (source : Expr) (target : Vid) : List Item :=
  match source with
  | .name v _ =>
    if t.definitions v = [] then [.edge v target []]
    else (t.definitions v).map fun d => .edge d target []
  | e => [.edge e.vid target []]

/-- `Visit(NameVertex&)`, `Declaring` (`language/ast/visitor/flowgraph_dot_visitor.cc:214-237`). -/
def flowName (t : Links) (v : Vid) (n : Str) : List Item :=
  if t.definitions v = [] ∨ v ∈ t.definitions v then [.node v n []] else []

/-- The declaration of an operation (`language/ast/visitor/flowgraph_dot_visitor.cc:139-146, 244-251,
359-367`). -/
def flowOperation (v : Vid) (name : Str) : List Item := [.node v name ", shape=triangle".toList]

mutual

/-- The visits of expressions, `Declaring` (`language/ast/visitor/flowgraph_dot_visitor.cc:135-158,
214-398`; attributes `language/ast/visitor/ast_visitor.cc:66-71`). -/
def flowDeclareExpr (fmt : FloatFormat) (t : Links) : Expr → Option (List Item)
  | .name v n => some (flowName t v n)
  | .number v n => some [.node v (numberText fmt n) ", fontname=courier, shape=box".toList]
  | .string v s =>
    some [.node v ("\\\"".toList ++ s ++ "\\\"".toList) ", fontname=courier, shape=box".toList]
  | .call v n args => (flowDeclareExprs fmt t args).map (flowOperation v n ++ ·)
  | .operator v n args =>
    (nameToSymbol n args.length).bind fun symbol =>
    (flowDeclareExprs fmt t args).map (flowOperation v symbol ++ ·)
  | .subscript v e s =>
    (flowDeclareExpr fmt t e).bind fun x =>
    (flowDeclareExpr fmt t s).map fun y => flowOperation v "[]".toList ++ (x ++ y)
  | .attribute _ e _ => flowDeclareExpr fmt t e

@[inherit_doc flowDeclareExpr]
def flowDeclareExprs (fmt : FloatFormat) (t : Links) : List Expr → Option (List Item)
  | [] => some []
  | e :: es => (flowDeclareExpr fmt t e).bind fun i => (flowDeclareExprs fmt t es).map (i ++ ·)

end

mutual

/-- The visits of statements, `Declaring` (`language/ast/visitor/flowgraph_dot_visitor.cc:114-211, 401-404`;
function definitions and return statements `language/ast/visitor/ast_visitor.cc:95-101, 204-211`). The visit
of `while` does nothing. -/
def flowDeclareStmt (fmt : FloatFormat) (t : Links) : Stmt → Option (List Item)
  | .expr e => flowDeclareExpr fmt t e
  | .assign _ target n e => (flowDeclareExpr fmt t e).map (· ++ flowName t target n)
  | .ifElse v _ c _ _ th _ _ el =>
    (flowDeclareExpr fmt t c).bind fun x =>
    (flowDeclareStmts fmt t th).bind fun y =>
    (flowDeclareStmts fmt t el).map fun z => .node v "If".toList ", shape=diamond".toList :: (x ++ (y ++ z))
  | .while _ _ _ _ _ _ _ _ _ => some []
  | .function _ _ args _ _ body =>
    (flowDeclareExprs fmt t args).bind fun x => (flowDeclareStmts fmt t body).map (x ++ ·)
  | .ret _ none => some []
  | .ret _ (some e) => flowDeclareExpr fmt t e

@[inherit_doc flowDeclareStmt]
def flowDeclareStmts (fmt : FloatFormat) (t : Links) : List Stmt → Option (List Item)
  | [] => some []
  | s :: ss => (flowDeclareStmt fmt t s).bind fun i => (flowDeclareStmts fmt t ss).map (i ++ ·)

end

mutual

/-- The visits of expressions, `ConnectingFlowgraph` (`language/ast/visitor/flowgraph_dot_visitor.cc:135-158,
240-261, 355-379`). -/
def flowConnectExpr (t : Links) : Expr → List Item
  | .name _ _ | .number _ _ | .string _ _ => []
  | .call v _ args | .operator v _ args => args.flatMap (flowEdges t · v) ++ flowConnectExprs t args
  | .subscript v e s =>
    flowEdges t e v ++ (flowEdges t s v ++ (flowConnectExpr t e ++ flowConnectExpr t s))
  | .attribute _ e _ => flowConnectExpr t e

@[inherit_doc flowConnectExpr]
def flowConnectExprs (t : Links) : List Expr → List Item
  | [] => []
  | e :: es => flowConnectExpr t e ++ flowConnectExprs t es

end

mutual

/-- The visits of statements, `ConnectingFlowgraph` (`language/ast/visitor/flowgraph_dot_visitor.cc:114-211`).
`k` is the static variable `if_cluster_id`, which is returned as well. -/
def flowConnectStmt (t : Links) (k : Nat) : Stmt → List Item × Nat
  | .expr e => (flowConnectExpr t e, k)
  | .assign _ target _ e => (flowEdges t e target ++ flowConnectExpr t e, k)
  | .ifElse _ _ c _ _ th _ _ el =>
    let a := flowConnectStmts t (k + 1) th
    let x := flowConnectExpr t c ++ (.box k :: (a.1 ++ [.close]))
    if el.isEmpty then (x, a.2)
    else
      let b := flowConnectStmts t (a.2 + 1) el
      (x ++ (.box a.2 :: (b.1 ++ [.close])), b.2)
  | .while _ _ _ _ _ _ _ _ _ => ([], k)
  | .function _ _ args _ _ body =>
    let b := flowConnectStmts t k body
    (flowConnectExprs t args ++ b.1, b.2)
  | .ret _ none => ([], k)
  | .ret _ (some e) => (flowConnectExpr t e, k)

@[inherit_doc flowConnectStmt]
def flowConnectStmts (t : Links) (k : Nat) : List Stmt → List Item × Nat
  | [] => ([], k)
  | s :: ss =>
    let a := flowConnectStmt t k s
    let b := flowConnectStmts t a.2 ss
    (a.1 ++ b.1, b.2)

end

/-- The items that `Visit(ModuleVertex&)` appends (`language/ast/visitor/flowgraph_dot_visitor.cc:407-434`);
`k` is the number of boxes that the process has drawn before. -/
def flowItems (fmt : FloatFormat) (t : Links) (k : Nat) (m : Module) : Option (List Item) :=
  (flowDeclareStmts fmt t m.statements).map (· ++ (flowConnectStmts t k m.statements).1)

/-- The script. -/
def flowScript (fmt : FloatFormat) (t : Links) (addr : Vid → Str) (k : Nat) (m : Module) : Option Str :=
  (flowItems fmt t k m).map fun i =>
    "digraph G {\nordering=out;\nrankdir=LR;\npenwidth=0.25;\n".toList ++ (textOf addr i ++ "}\n".toList)

/-! ### The command -/

/-- What there is at the vertices of a tree after `Interpreter::annotate` (`language/interpreter/interpreter.cc:
232-271`), which both commands call first (`language/command/compile_command.cc:209-219, 278-287`): the
successors of threading, the uses and definitions of identification and the types of annotation. -/
def drawnLinks {V : Type} (c : InterpreterContext V) (i : Interpreter V) (m : Module) : Option Links :=
  (threadModule m).bind fun threaded =>
  (identifyModule m).bind fun identified =>
  (i.annotate c m .none []).map fun r =>
    ⟨r.2.types, threaded.succ, identified.uses, identified.definitions⟩

/-- `compile_to_dot_ast(tree, modes)` (`language/command/compile_command.cc:209-219`). -/
def compileAst {V : Type} (c : InterpreterContext V) (i : Interpreter V) (fmt : FloatFormat)
    (addr : Vid → Str) (source : Str) (cfg uses : Bool) (m : Module) : Option Str :=
  (drawnLinks c i m).bind fun t => astScript fmt t addr source cfg uses m

/-- `compile_to_dot_flowgraph(tree)` (`language/command/compile_command.cc:278-287`). -/
def compileFlowgraph {V : Type} (c : InterpreterContext V) (i : Interpreter V) (fmt : FloatFormat)
    (addr : Vid → Str) (k : Nat) (m : Module) : Option Str :=
  (drawnLinks c i m).bind fun t => flowScript fmt t addr k m

end Fern.Dot
