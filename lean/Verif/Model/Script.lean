import Verif.Model.Print
import Verif.Model.Compile

/-!
# From a script to a syntax tree

Model of `language/script/algebra_parser.cc` (the abstract syntax tree of Python is written as XML) and
`language/ast/xml/xml_parser.cc` with its schema `language/ast/xml/syntax_tree.xsd` (the XML is read
into the syntax tree of Fern).

Simplified:
* The parser of Python is not modelled: the model starts with Python's syntax tree (`Python-ast.h`).
* Strings hold characters, not bytes; a string that isn't UTF-8 is not modelled.
* The parser for XML is a library. The model has the part of XML that matters for the documents the
  first half writes and for what a string constant can turn them into: elements, attributes between
  double quotes, character data, the five predefined entities, the characters XML allows, the
  treatment of line ends. Comments, CDATA sections, processing instructions, character references and
  white space between elements are refused by the model.
* If a document is wrong in more than one way, then the model reports the error of the XML before
  the failing assertion.
* Line and column numbers have no bound (`int` in `xml_parser.cc:486-487`).
* How a `double` is written and read is a parameter.
-/

namespace Fern.Script

open Fern

/-- The line and column of a construct. -/
structure Pos where
  line : Nat
  col : Nat
  deriving DecidableEq

/-- What parsing a script can end in. -/
inductive Outcome (α : Type)
  | ok (a : α)
  /-- `UnsupportedLanguageConstruct` (`language/script/algebra_parser.cc:37-47`). -/
  | unsupported (construct : Str) (p : Pos)
  /-- A failing `assert`. -/
  | assertion
  /-- `ParseError` because of the XML (`language/ast/xml/xml_parser.cc:1208-1217`). -/
  | parseError
  deriving DecidableEq

def Outcome.bind {α β : Type} (r : Outcome α) (f : α → Outcome β) : Outcome β :=
  match r with
  | .ok a => f a
  | .unsupported c p => .unsupported c p
  | .assertion => .assertion
  | .parseError => .parseError

/-! ## Python's syntax tree (`Python-ast.h` of Python 2.7) -/

inductive UnaryOp | invert | not | uadd | usub
  deriving DecidableEq

inductive BinaryOp
  | add | sub | mult | div | mod | pow | lshift | rshift | bitOr | bitXor | bitAnd | floorDiv
  deriving DecidableEq

inductive BoolOp | and | or
  deriving DecidableEq

inductive CompareOp | eq | notEq | lt | ltE | gt | gtE | is | isNot | in | notIn
  deriving DecidableEq

/-- A number: a C `long`, an integer of any size, a `double` or a complex number. -/
inductive PyNumber
  | int (v : Int)
  | long (v : Int)
  | float (v : Rat)
  | complex

/-- The kinds of expressions that are refused. -/
inductive OtherExpr
  | ifExp | lambda | dict | dictComp | generatorExp | yield | repr | list | listComp | set | setComp
  | tuple
  deriving DecidableEq

/-- The kinds of statements that are refused. -/
inductive OtherStmt
  | print | break | continue | assert | augAssign | global | pass | classDef | delete | for | with
  | raise | tryExcept | tryFinally | import | importFrom | exec
  deriving DecidableEq

/-- `expr_ty`. A call has `more` if it has keywords, `*` or `**` arguments; a comparison has `more` if
it compares more than twice; `slice` is a subscription by anything but an index. -/
inductive PyExpr
  | name (p : Pos) (n : Str)
  | num (p : Pos) (v : PyNumber)
  | str (p : Pos) (s : Str)
  | unicode (p : Pos) (s : Str)
  | call (p : Pos) (f : PyExpr) (args : List PyExpr) (more : Bool)
  | unary (p : Pos) (op : UnaryOp) (e : PyExpr)
  | binary (p : Pos) (l : PyExpr) (op : BinaryOp) (r : PyExpr)
  | bool (p : Pos) (op : BoolOp) (es : List PyExpr)
  | compare (p : Pos) (l : PyExpr) (op : CompareOp) (r : PyExpr) (more : Bool)
  | subscript (p : Pos) (e i : PyExpr)
  | slice (p : Pos) (e : PyExpr)
  | attr (p : Pos) (e : PyExpr) (n : Str)
  | other (p : Pos) (k : OtherExpr)

/-- `stmt_ty`. An assignment has `more` if it has more than one target. -/
inductive PyStmt
  | expr (p : Pos) (e : PyExpr)
  | assign (p : Pos) (target : PyExpr) (more : Bool) (value : PyExpr)
  | ifElse (p : Pos) (c : PyExpr) (t f : List PyStmt)
  | while (p : Pos) (c : PyExpr) (t f : List PyStmt)
  | function (p : Pos) (n : Str) (args defaults decorators : List PyExpr) (rest : Option Str)
      (body : List PyStmt)
  | retNone (p : Pos)
  | ret (p : Pos) (e : PyExpr)
  | other (p : Pos) (k : OtherStmt)

/-! ## The elements of the document -/

/-- The elements of `language/ast/xml/syntax_tree.xsd:13-236`. -/
inductive Tag
  | fern | statements | statement | «if» | «while» | functionDefinition | «return» | assignment
  | expressions | expression | name | subscript | «attribute» | string | number | integer
  | unsignedInteger | float | size | value | functionCall | operator
  deriving DecidableEq

/-- The names of the elements. -/
def Tag.text : Tag → Str
  | .fern => "Fern".toList
  | .statements => "Statements".toList
  | .statement => "Statement".toList
  | .if => "If".toList
  | .while => "While".toList
  | .functionDefinition => "FunctionDefinition".toList
  | .return => "Return".toList
  | .assignment => "Assignment".toList
  | .expressions => "Expressions".toList
  | .expression => "Expression".toList
  | .name => "Name".toList
  | .subscript => "Subscript".toList
  | .attribute => "Attribute".toList
  | .string => "String".toList
  | .number => "Number".toList
  | .integer => "Integer".toList
  | .unsignedInteger => "UnsignedInteger".toList
  | .float => "Float".toList
  | .size => "Size".toList
  | .value => "Value".toList
  | .functionCall => "FunctionCall".toList
  | .operator => "Operator".toList

def allTags : List Tag :=
  [.fern, .statements, .statement, .if, .while, .functionDefinition, .return, .assignment,
   .expressions, .expression, .name, .subscript, .attribute, .string, .number, .integer,
   .unsignedInteger, .float, .size, .value, .functionCall, .operator]

/-- `<Tag>` -/
def startTag (t : Tag) : Str := '<' :: (t.text ++ ['>'])

/-- `</Tag>` -/
def endTag (t : Tag) : Str := '<' :: '/' :: (t.text ++ ['>'])

/-- `<Tag/>` -/
def emptyTag (t : Tag) : Str := '<' :: (t.text ++ ['/', '>'])

/-- `<Tag line="1" col="2">` (`language/script/algebra_parser.cc:449-451`, `730-732`). -/
def positionTag (t : Tag) (p : Pos) : Str :=
  '<' :: (t.text ++ (" line=\"".toList ++ (natText p.line ++ ("\" col=\"".toList ++
    (natText p.col ++ "\">".toList)))))

/-! ## Writing -/

/-- `PyString_AsString`, used as a C string: the characters before the first null character
(`language/script/algebra_parser.cc:58, 146`). -/
def cString (s : Str) : Str := s.takeWhile (· ≠ Char.ofNat 0)

/-- `write_identifier_node`, `write_name_node` (`language/script/algebra_parser.cc:50-73`). -/
def writeIdentifier (n : Str) : Str := startTag .name ++ (cString n ++ endTag .name)

/-- `PyLong_AsLongLong`: -1 if the value does not fit (and an error indicator nobody looks at;
`language/script/algebra_parser.cc:109`). -/
def asLongLong (v : Int) : Int := if -2 ^ 63 ≤ v ∧ v < 2 ^ 63 then v else -1

/-- The elements for the size and the value of a number (`language/script/algebra_parser.cc:93, 105, 116`). -/
def writeSized (t : Tag) (size value : Str) : Str :=
  startTag t ++ (startTag .size ++ (size ++ (endTag .size ++ (startTag .value ++
    (value ++ (endTag .value ++ endTag t))))))

/-- `write_number_node` (`language/script/algebra_parser.cc:76-130`). -/
def writeNumber (showFloat : Rat → Str) : PyNumber → Outcome Str
  | .int v => .ok (startTag .number ++ (writeSized .integer (natText 64) (formatInt v) ++
      endTag .number))
  | .long v => .ok (startTag .number ++ (writeSized .integer (natText 64) (formatInt (asLongLong v)) ++
      endTag .number))
  | .float v => .ok (startTag .number ++ (writeSized .float (natText 64) (showFloat v) ++
      endTag .number))
  | .complex => .assertion

/-- `write_string_node` (`language/script/algebra_parser.cc:133-149`). -/
def writeString (s : Str) : Str :=
  if s = [] then emptyTag .string else startTag .string ++ (cString s ++ endTag .string)

/-- The names in `write_unary_operator_node` (`language/script/algebra_parser.cc:207-226`). -/
def UnaryOp.text : UnaryOp → Str
  | .invert => "Invert".toList
  | .not => "Not".toList
  | .uadd => "UnaryAdd".toList
  | .usub => "UnarySub".toList

/-- The names in `write_binary_operator_node` (`language/script/algebra_parser.cc:244-295`). -/
def BinaryOp.text : BinaryOp → Str
  | .add => "add".toList
  | .sub => "Sub".toList
  | .mult => "Mult".toList
  | .div => "Div".toList
  | .mod => "Mod".toList
  | .pow => "Pow".toList
  | .lshift => "LShift".toList
  | .rshift => "RShift".toList
  | .bitOr => "BitOr".toList
  | .bitXor => "BitXor".toList
  | .bitAnd => "BitAnd".toList
  | .floorDiv => "FloorDiv".toList

/-- The names in `write_boolean_operator_node` (`language/script/algebra_parser.cc:313-324`). -/
def BoolOp.text : BoolOp → Str
  | .and => "And".toList
  | .or => "Or".toList

/-- The names in `write_comparison_operator_node` (`language/script/algebra_parser.cc:346-377`); the
other operators fail an assertion. -/
def CompareOp.text : CompareOp → Option Str
  | .eq => some "Eq".toList
  | .notEq => some "NotEq".toList
  | .lt => some "Lt".toList
  | .ltE => some "LtE".toList
  | .gt => some "Gt".toList
  | .gtE => some "GtE".toList
  | .is | .isNot | .in | .notIn => none

/-- The names in `write_expression_node` (`language/script/algebra_parser.cc:499-559`). -/
def OtherExpr.text : OtherExpr → Str
  | .ifExp => "if".toList
  | .lambda => "lambda".toList
  | .dict => "dictionary".toList
  | .dictComp => "dictionary comprehension".toList
  | .generatorExp => "generator".toList
  | .yield => "yield".toList
  | .repr => "repr".toList
  | .list => "list".toList
  | .listComp => "list comprehension".toList
  | .set => "set".toList
  | .setComp => "set comprehension".toList
  | .tuple => "tuple".toList

/-- The names in `write_statement_nodes` (`language/script/algebra_parser.cc:768-856`). -/
def OtherStmt.text : OtherStmt → Str
  | .print => "print".toList
  | .break => "break".toList
  | .continue => "continue".toList
  | .assert => "assert".toList
  | .augAssign => "augmented assign".toList
  | .global => "global".toList
  | .pass => "pass".toList
  | .classDef => "define class".toList
  | .delete => "delete".toList
  | .for => "for".toList
  | .with => "with".toList
  | .raise => "raise".toList
  | .tryExcept => "try/except".toList
  | .tryFinally => "try/finally".toList
  | .import => "import".toList
  | .importFrom => "import from".toList
  | .exec => "exec".toList

/-- The start, the contents and the end of an element with a position
(`language/script/algebra_parser.cc:445-451`, `561`; `725-732`, `858`). -/
def positioned (t : Tag) (p : Pos) (r : Outcome Str) : Outcome Str :=
  r.bind fun b => .ok (positionTag t p ++ (b ++ endTag t))

/-- `<Operator><Name>...</Name>...</Operator>` (`language/script/algebra_parser.cc:205, 242, 311, 344`) -/
def writeOperator (n : Str) (r : Outcome Str) : Outcome Str :=
  r.bind fun b => .ok (startTag .operator ++ (startTag .name ++ (n ++ (endTag .name ++
    (b ++ endTag .operator)))))

/-- `write_expressions_node` (`language/script/algebra_parser.cc:152-171`): a null pointer stands for no
expressions. `write_expression_nodes` (`681-702`) does the same. -/
def writeExpressions (es : List PyExpr) (r : Outcome Str) : Outcome Str :=
  if es.isEmpty then .ok (emptyTag .expressions)
  else r.bind fun b => .ok (startTag .expressions ++ (b ++ endTag .expressions))

/-- The name in `write_call_node` (`language/script/algebra_parser.cc:192-193`). -/
def writeCallee : PyExpr → Outcome Str
  | .name _ n => .ok (writeIdentifier n)
  | _ => .assertion

mutual

/-- `write_expression_node` (`language/script/algebra_parser.cc:439-562`) with the functions it calls. -/
def writeExpr (sf : Rat → Str) : PyExpr → Outcome Str
  | .name p n => positioned .expression p (.ok (writeIdentifier n))
  | .num p v => positioned .expression p (writeNumber sf v)
  | .str p s => positioned .expression p (.ok (writeString s))
  -- `assert(PyString_Check(string))` (`language/script/algebra_parser.cc:139`)
  | .unicode _ _ => .assertion
  -- `write_call_node` (`language/script/algebra_parser.cc:174-197`)
  | .call p f args more => positioned .expression p <|
      if more then .assertion
      else (writeCallee f).bind fun n => (writeExpressions args (writeExprs sf args)).bind fun b =>
        .ok (startTag .functionCall ++ (n ++ (b ++ endTag .functionCall)))
  -- `write_unary_operator_node` (`language/script/algebra_parser.cc:200-233`)
  | .unary p op e => positioned .expression p <| writeOperator op.text <|
      (writeExpr sf e).bind fun b => .ok (startTag .expressions ++ (b ++ endTag .expressions))
  -- `write_binary_operator_node` (`language/script/algebra_parser.cc:236-303`)
  | .binary p l op r => positioned .expression p <| writeOperator op.text <|
      (writeExpr sf l).bind fun a => (writeExpr sf r).bind fun b =>
        .ok (startTag .expressions ++ (a ++ (b ++ endTag .expressions)))
  -- `write_boolean_operator_node` (`language/script/algebra_parser.cc:306-329`)
  | .bool p op es => positioned .expression p <| writeOperator op.text <|
      writeExpressions es (writeExprs sf es)
  -- `write_comparison_operator_node` (`language/script/algebra_parser.cc:332-384`)
  | .compare p l op r more => positioned .expression p <|
      if more then .assertion
      else match op.text with
        | none => .assertion
        | some n => writeOperator n <|
            (writeExpr sf l).bind fun a => (writeExpr sf r).bind fun b =>
              .ok (startTag .expressions ++ (a ++ (b ++ endTag .expressions)))
  -- `write_subscript_node`, `write_slice_node` (`language/script/algebra_parser.cc:387-423`)
  | .subscript p e i => positioned .expression p <|
      (writeExpr sf e).bind fun a => (writeExpr sf i).bind fun b =>
        .ok (startTag .subscript ++ (a ++ (b ++ endTag .subscript)))
  | .slice p e => positioned .expression p <| (writeExpr sf e).bind fun _ => .assertion
  -- `write_attribute_node` (`language/script/algebra_parser.cc:426-436`)
  | .attr p e n => positioned .expression p <| (writeExpr sf e).bind fun a =>
      .ok (startTag .attribute ++ (a ++ (writeIdentifier n ++ endTag .attribute)))
  | .other p k => .unsupported k.text p

def writeExprs (sf : Rat → Str) : List PyExpr → Outcome Str
  | [] => .ok []
  | e :: es => (writeExpr sf e).bind fun a => (writeExprs sf es).bind fun b => .ok (a ++ b)

end

/-- `<Statements>...</Statements>` or `<Statements/>` (`language/script/algebra_parser.cc:709-713`,
`861`). -/
def writeStatements (es : List PyStmt) (r : Outcome Str) : Outcome Str :=
  if es.isEmpty then .ok (emptyTag .statements)
  else r.bind fun b => .ok (startTag .statements ++ (b ++ endTag .statements))

/-- The target in `write_assignment_node` (`language/script/algebra_parser.cc:579-582`): one name. -/
def assignable (target : PyExpr) (more : Bool) : Bool :=
  match target with
  | .name _ _ => !more
  | _ => false

mutual

/-- The body of the loop in `write_statement_nodes` (`language/script/algebra_parser.cc:717-859`) with the
functions it calls. -/
def writeStmt (sf : Rat → Str) : PyStmt → Outcome Str
  | .expr p e => positioned .statement p (writeExpr sf e)
  -- `write_assignment_node` (`language/script/algebra_parser.cc:570-588`)
  | .assign p target more value => positioned .statement p <|
      if assignable target more then
        (writeExpr sf target).bind fun a => (writeExpr sf value).bind fun b =>
          .ok (startTag .assignment ++ (a ++ (b ++ endTag .assignment)))
      else .assertion
  -- `write_if_node` (`language/script/algebra_parser.cc:591-602`)
  | .ifElse p c t f => positioned .statement p <|
      (writeExpr sf c).bind fun a => (writeStatements t (writeStmts sf t)).bind fun b =>
        (writeStatements f (writeStmts sf f)).bind fun d =>
          .ok (startTag .if ++ (a ++ (b ++ (d ++ endTag .if))))
  -- `write_while_node` (`language/script/algebra_parser.cc:605-616`)
  | .while p c t f => positioned .statement p <|
      (writeExpr sf c).bind fun a => (writeStatements t (writeStmts sf t)).bind fun b =>
        (writeStatements f (writeStmts sf f)).bind fun d =>
          .ok (startTag .while ++ (a ++ (b ++ (d ++ endTag .while))))
  -- `write_function_definition_node`, `write_arguments_node` (`language/script/algebra_parser.cc:619-641`)
  | .function p n args _ _ _ body => positioned .statement p <|
      (writeExpressions args (writeExprs sf args)).bind fun a =>
        (writeStatements body (writeStmts sf body)).bind fun b =>
          .ok (startTag .functionDefinition ++ (writeIdentifier n ++ (a ++ (b ++
            endTag .functionDefinition))))
  -- `write_return_node` (`language/script/algebra_parser.cc:644-656`)
  | .retNone p => positioned .statement p (.ok (emptyTag .return))
  | .ret p e => positioned .statement p <| (writeExpr sf e).bind fun a =>
      .ok (startTag .return ++ (a ++ endTag .return))
  | .other p k => .unsupported k.text p

def writeStmts (sf : Rat → Str) : List PyStmt → Outcome Str
  | [] => .ok []
  | s :: ss => (writeStmt sf s).bind fun a => (writeStmts sf ss).bind fun b => .ok (a ++ b)

end

/-- `escape` (`language/script/algebra_parser.cc:869-881`). -/
def escape (s : Str) : Str :=
  replaceAll (replaceAll (replaceAll (replaceAll (replaceAll s
    "&".toList "&amp;".toList)
    "<".toList "&lt;".toList)
    ">".toList "&gt;".toList)
    "\"".toList "&quot;".toList)
    "'".toList "&apos;".toList

/-- `<?xml version="1.0"?>` (`language/script/algebra_parser.cc:1004, 1036`) -/
def declaration : Str := "<?xml version=\"1.0\"?>".toList

/-- `python_ast_to_xml` and the end of `AlgebraParser::parse_string` and `parse_file`
(`language/script/algebra_parser.cc:884-927`, `1005`, `1037`). -/
def writeModule (sf : Rat → Str) (source : Str) (body : List PyStmt) : Outcome Str :=
  (writeStatements body (writeStmts sf body)).bind fun b =>
    .ok (declaration ++ ('<' :: (Tag.fern.text ++ (" source=\"".toList ++ (cString (escape source) ++
      ("\">".toList ++ (b ++ endTag .fern)))))))

/-! ## Reading XML -/

/-- The characters XML allows (XML 1.0, section 2.2). -/
def xmlChar (c : Char) : Bool :=
  c = '\t' || c = '\n' || c = '\r' || (32 ≤ c.toNat && c.toNat ≠ 0xFFFE && c.toNat ≠ 0xFFFF)

/-- The predefined entities (XML 1.0, section 4.6). -/
def entity (n : Str) : Option Char :=
  if n = "amp".toList then some '&'
  else if n = "lt".toList then some '<'
  else if n = "gt".toList then some '>'
  else if n = "quot".toList then some '"'
  else if n = "apos".toList then some '\''
  else none

/-- Replace the references to entities; the state holds the name of the reference being read, last
character first. -/
def decode : Option Str → Str → Option Str
  | none, [] => some []
  | some _, [] => none
  | none, c :: cs =>
    if c = '&' then decode (some []) cs
    else if c = '<' then none
    else (decode none cs).map (c :: ·)
  | some n, c :: cs =>
    if c = ';' then (entity n.reverse).bind fun e => (decode none cs).map (e :: ·)
    else decode (some (c :: n)) cs

/-- The treatment of line ends (XML 1.0, section 2.11). -/
def lineEnds : Str → Str
  | [] => []
  | c :: cs =>
    if c = '\r' then (if cs.head? = some '\n' then lineEnds cs else '\n' :: lineEnds cs)
    else c :: lineEnds cs

/-- Character data (XML 1.0, section 2.4). -/
def textValue (s : Str) : Option Str :=
  if s.all xmlChar && !containsSub s "]]>".toList then decode none (lineEnds s) else none

/-- The value of an attribute (XML 1.0, section 3.3.3): white space becomes spaces. -/
def attributeValue (s : Str) : Option Str :=
  if s.all xmlChar then
    decode none ((lineEnds s).map fun c => if c = '\t' ∨ c = '\n' then ' ' else c)
  else none

inductive AttributeState
  | between
  | name (acc : Str)
  | equals (n : Str)
  | value (n acc : Str)

/-- The attributes in a tag. -/
def readAttributes : AttributeState → Str → Option (List (Str × Str))
  | .between, [] => some []
  | .name _, [] | .equals _, [] | .value _ _, [] => none
  | .between, c :: cs =>
    if c = ' ' then readAttributes .between cs
    else if c = '=' ∨ c = '"' then none
    else readAttributes (.name [c]) cs
  | .name acc, c :: cs =>
    if c = '=' then readAttributes (.equals acc.reverse) cs
    else if c = ' ' ∨ c = '"' then none
    else readAttributes (.name (c :: acc)) cs
  | .equals n, c :: cs => if c = '"' then readAttributes (.value n []) cs else none
  | .value n acc, c :: cs =>
    if c = '"' then (attributeValue acc.reverse).bind fun v =>
      (readAttributes .between cs).map ((n, v) :: ·)
    else readAttributes (.value n (c :: acc)) cs

inductive XmlToken
  | start (t : Tag) (as : List (Str × Str))
  | stop (t : Tag)
  | empty (t : Tag) (as : List (Str × Str))
  | text (s : Str)

def tagOf (n : Str) : Option Tag := allTags.find? fun t => t.text = n

/-- The name and the attributes of a tag. -/
def openTag (s : Str) : Option (Tag × List (Str × Str)) :=
  (tagOf (s.takeWhile (· ≠ ' '))).bind fun t =>
    (readAttributes .between (s.dropWhile (· ≠ ' '))).map fun as => (t, as)

/-- What is between `<` and `>`. -/
def tagToken (s : Str) : Option XmlToken :=
  if s.head? = some '/' then (tagOf s.tail).map .stop
  else if s.getLast? = some '/' then (openTag s.dropLast).map fun x => .empty x.1 x.2
  else (openTag s).map fun x => .start x.1 x.2

def textTokens (s : Str) : Option (List XmlToken) :=
  if s = [] then some [] else (textValue s).map fun v => [.text v]

inductive LexState
  | text (acc : Str)
  | tag (acc : Str)
  | quoted (acc : Str)

/-- The tags and the texts of a document. -/
def lex : LexState → Str → Option (List XmlToken)
  | .text acc, [] => if acc = [] then some [] else none
  | .tag _, [] | .quoted _, [] => none
  | .text acc, c :: cs =>
    if c = '<' then (textTokens acc.reverse).bind fun ts => (lex (.tag []) cs).map (ts ++ ·)
    else lex (.text (c :: acc)) cs
  | .tag acc, c :: cs =>
    if c = '>' then (tagToken acc.reverse).bind fun t => (lex (.text []) cs).map (t :: ·)
    else if c = '"' then lex (.quoted (c :: acc)) cs
    else lex (.tag (c :: acc)) cs
  | .quoted acc, c :: cs => lex (if c = '"' then .tag (c :: acc) else .quoted (c :: acc)) cs

/-- An element or a text. -/
inductive Xml
  | elem (t : Tag) (as : List (Str × Str)) (children : List Xml)
  | text (s : Str)

/-- An element of which the end was not read yet, with its children so far, last one first. -/
structure XmlFrame where
  t : Tag
  as : List (Str × Str)
  children : List Xml

def XmlFrame.close (f : XmlFrame) : Xml := .elem f.t f.as f.children.reverse

def XmlFrame.push (f : XmlFrame) (x : Xml) : XmlFrame := ⟨f.t, f.as, x :: f.children⟩

/-- The root element of a document. -/
def buildXml : List XmlFrame → List XmlToken → Option Xml
  | _, [] => none
  | [], .start t as :: ts => buildXml [⟨t, as, []⟩] ts
  | [], .empty t as :: ts => if ts.isEmpty then some (.elem t as []) else none
  | [], .stop _ :: _ | [], .text _ :: _ => none
  | f :: fs, .start t as :: ts => buildXml (⟨t, as, []⟩ :: f :: fs) ts
  | f :: fs, .empty t as :: ts => buildXml (f.push (.elem t as []) :: fs) ts
  | f :: fs, .text s :: ts => buildXml (f.push (.text s) :: fs) ts
  | [f], .stop t :: ts => if t = f.t ∧ ts.isEmpty then some f.close else none
  | f :: g :: fs, .stop t :: ts => if t = f.t then buildXml (g.push f.close :: fs) ts else none

/-- An XML document. -/
def readXml (s : Str) : Option Xml :=
  (lex (.text []) (if startsWith s declaration then s.drop declaration.length else s)).bind
    (buildXml [])

/-! ## The syntax tree of Fern, with positions -/

/-- `ExpressionVertex` and the classes derived from it; an operator has its name and its symbol. -/
inductive TreeExpr
  | name (p : Pos) (n : Str)
  | number (p : Pos) (n : Number)
  | string (p : Pos) (s : Str)
  | call (p : Pos) (n : Str) (args : List TreeExpr)
  | operator (p : Pos) (n symbol : Str) (args : List TreeExpr)
  | subscript (p : Pos) (e s : TreeExpr)
  | attr (p : Pos) (e : TreeExpr) (n : Str)

/-- `set_position` (`language/ast/core/ast_vertex.cc`). -/
def TreeExpr.setPos (p : Pos) : TreeExpr → TreeExpr
  | .name _ n => .name p n
  | .number _ n => .number p n
  | .string _ s => .string p s
  | .call _ n args => .call p n args
  | .operator _ n s args => .operator p n s args
  | .subscript _ e s => .subscript p e s
  | .attr _ e n => .attr p e n

/-- `StatementVertex` and the classes derived from it. -/
inductive TreeStmt
  | expr (e : TreeExpr)
  | assign (p : Pos) (target e : TreeExpr)
  | ifElse (p : Pos) (c : TreeExpr) (t f : List TreeStmt)
  | while (p : Pos) (c : TreeExpr) (t f : List TreeStmt)
  | function (p : Pos) (n : Str) (args : List TreeExpr) (body : List TreeStmt)
  | retNone (p : Pos)
  | ret (p : Pos) (e : TreeExpr)

/-- `ModuleVertex` (`language/ast/core/module_vertex.cc:16-25`). -/
structure TreeModule where
  source : Str
  body : List TreeStmt

/-! ## Reading the syntax tree -/

/-- A sequence of digits. -/
def readNat (s : Str) : Option Nat :=
  if s ≠ [] ∧ s.all Char.isDigit then some (Nat.ofDigitChars 10 s 0) else none

/-- `xs:integer`. -/
def readInteger : Str → Option Int
  | [] => none
  | c :: cs =>
    if c = '-' then (readNat cs).map fun v : Nat => -(v : Int)
    else if c = '+' then (readNat cs).map fun v : Nat => (v : Int)
    else (readNat (c :: cs)).map fun v : Nat => (v : Int)

/-- `xs:int` (`syntax_tree.xsd:193`, read by an `int_pimpl`). -/
def readInt32 (s : Str) : Option Int :=
  (readInteger s).bind fun v => if -2 ^ 31 ≤ v ∧ v < 2 ^ 31 then some v else none

/-- `xs:nonNegativeInteger`, read as an `unsigned long long`. -/
def readUnsigned (s : Str) : Option Nat :=
  (readNat s).bind fun v => if v < 2 ^ 64 then some v else none

/-- `xs:positiveInteger`, read as an `unsigned long long` (`syntax_tree.xsd:208`, `219`, `230`). -/
def readPositive (s : Str) : Option Nat :=
  (readUnsigned s).bind fun v => if 0 < v then some v else none

def Outcome.ofOption {α : Type} : Option α → Outcome α
  | some a => .ok a
  | none => .parseError

/-- `xs:string` -/
def readText : List Xml → Outcome Str
  | [] => .ok []
  | [.text s] => .ok s
  | _ => .parseError

/-- The text of an element without attributes. -/
def readTextOf (t : Tag) : Xml → Outcome Str
  | .elem t' [] c => if t' = t then readText c else .parseError
  | _ => .parseError

/-- The attributes `line` and `col` (`syntax_tree.xsd:62-63`, `163-164`). -/
def readPos : List (Str × Str) → Outcome Pos
  | [(a, x), (b, y)] =>
    if a = "line".toList ∧ b = "col".toList then
      (Outcome.ofOption (readNat x)).bind fun l => (Outcome.ofOption (readNat y)).bind fun c => .ok ⟨l, c⟩
    else if a = "col".toList ∧ b = "line".toList then
      (Outcome.ofOption (readNat x)).bind fun c => (Outcome.ofOption (readNat y)).bind fun l => .ok ⟨l, c⟩
    else .parseError
  | _ => .parseError

/-- `Integer_pimpl::post_Integer` (`language/ast/xml/xml_parser.cc:558-591`). -/
def integerVertex (size : Nat) (v : Int) : Outcome Number :=
  if size = 8 then .ok (.int .i8 (IntTy.wrap .i8 v))
  else if size = 16 then .ok (.int .i16 (IntTy.wrap .i16 v))
  else if size = 32 then .ok (.int .i32 (IntTy.wrap .i32 v))
  else if size = 64 then .ok (.int .i64 (IntTy.wrap .i64 v))
  else .assertion

/-- `UnsignedInteger_pimpl::post_UnsignedInteger` (`language/ast/xml/xml_parser.cc:625-659`). -/
def unsignedVertex (size : Nat) (v : Int) : Outcome Number :=
  if size = 8 then .ok (.int .u8 (IntTy.wrap .u8 v))
  else if size = 16 then .ok (.int .u16 (IntTy.wrap .u16 v))
  else if size = 32 then .ok (.int .u32 (IntTy.wrap .u32 v))
  else if size = 64 then .ok (.int .u64 (IntTy.wrap .u64 v))
  else .assertion

/-- `Float_pimpl::post_Float` (`language/ast/xml/xml_parser.cc:694-719`); rounding to `float` is not
modelled. -/
def floatVertex (size : Nat) (v : Rat) : Outcome Number :=
  if size = 32 then .ok (.float32 v)
  else if size = 64 then .ok (.float64 v)
  else .assertion

/-- `Number_pimpl`, `Integer_pimpl`, `UnsignedInteger_pimpl`, `Float_pimpl`
(`language/ast/xml/xml_parser.cc:534-772`). -/
def readNumber (rf : Str → Option Rat) : Xml → Outcome Number
  | .elem .integer [] [s, v] =>
    (readTextOf .size s).bind fun s => (Outcome.ofOption (readPositive s)).bind fun s =>
      (readTextOf .value v).bind fun v => (Outcome.ofOption (readInt32 v)).bind fun v => integerVertex s v
  | .elem .unsignedInteger [] [s, v] =>
    (readTextOf .size s).bind fun s => (Outcome.ofOption (readPositive s)).bind fun s =>
      (readTextOf .value v).bind fun v => (Outcome.ofOption (readUnsigned v)).bind fun v =>
        unsignedVertex s (v : Int)
  | .elem .float [] [s, v] =>
    (readTextOf .size s).bind fun s => (Outcome.ofOption (readPositive s)).bind fun s =>
      (readTextOf .value v).bind fun v => (Outcome.ofOption (rf v)).bind fun v => floatVertex s v
  | _ => .parseError

/-- `Operator_pimpl::post_Operator` (`language/ast/xml/xml_parser.cc:854-863`) and the constructor of
`OperatorVertex` (`language/ast/core/operator_vertex.cc:60-81`). -/
def operatorVertex (p : Pos) (n : Str) (args : List TreeExpr) : Outcome TreeExpr :=
  match nameToSymbol n args.length with
  | some s => .ok (.operator p n s args)
  | none => .assertion

mutual

/-- `Expression_pimpl` (`language/ast/xml/xml_parser.cc:978-1090`). `sub` and `att` tell whether a subscript or
an attribute is being read around the expression: `Subscript_pimpl` and `Attribute_pimpl` keep a stack
of them, but assert that it has one element. -/
def readExpr (rf : Str → Option Rat) (sub att : Bool) : Xml → Outcome TreeExpr
  | .elem .expression as [b] => (readPos as).bind fun p => readBody rf sub att p b
  | _ => .parseError

def readBody (rf : Str → Option Rat) (sub att : Bool) (p : Pos) : Xml → Outcome TreeExpr
  | .elem .name [] c => (readText c).bind fun n => .ok (.name p n)
  | .elem .string [] c => (readText c).bind fun s => .ok (.string p s)
  | .elem .number [] [n] => (readNumber rf n).bind fun n => .ok (.number p n)
  -- `FunctionCall_pimpl` (`language/ast/xml/xml_parser.cc:775-825`)
  | .elem .functionCall [] [n, .elem .expressions [] es] =>
    (readTextOf .name n).bind fun n => (readExprs rf sub att es).bind fun args => .ok (.call p n args)
  -- `Operator_pimpl` (`language/ast/xml/xml_parser.cc:828-878`)
  | .elem .operator [] [n, .elem .expressions [] es] =>
    (readTextOf .name n).bind fun n => (readExprs rf sub att es).bind fun args => operatorVertex p n args
  -- `Subscript_pimpl` (`language/ast/xml/xml_parser.cc:881-925`)
  | .elem .subscript [] [e, s] =>
    (readExpr rf true att e).bind fun e => if sub then .assertion else
      (readExpr rf true att s).bind fun s => .ok (.subscript p e s)
  -- `Attribute_pimpl` (`language/ast/xml/xml_parser.cc:928-975`)
  | .elem .attribute [] [e, n] =>
    (readExpr rf sub true e).bind fun e => if att then .assertion else
      (readTextOf .name n).bind fun n => .ok (.attr p e n)
  | _ => .parseError

/-- `Expressions_pimpl` (`language/ast/xml/xml_parser.cc:497-531`). -/
def readExprs (rf : Str → Option Rat) (sub att : Bool) : List Xml → Outcome (List TreeExpr)
  | [] => .ok []
  | x :: xs => (readExpr rf sub att x).bind fun e => (readExprs rf sub att xs).bind fun es => .ok (e :: es)

end

mutual

/-- `Statement_pimpl` (`language/ast/xml/xml_parser.cc:390-494`). -/
def readStmt (rf : Str → Option Rat) : Xml → Outcome TreeStmt
  | .elem .statement as [b] => (readPos as).bind fun p => readStmtBody rf p b
  | _ => .parseError

def readStmtBody (rf : Str → Option Rat) (p : Pos) : Xml → Outcome TreeStmt
  | .elem .expression as c =>
    (readExpr rf false false (.elem .expression as c)).bind fun e => .ok (.expr (e.setPos p))
  -- `Assignment_pimpl` (`language/ast/xml/xml_parser.cc:60-101`)
  | .elem .assignment [] [a, b] =>
    (readExpr rf false false a).bind fun a => (readExpr rf false false b).bind fun b => .ok (.assign p a b)
  -- `If_pimpl` (`language/ast/xml/xml_parser.cc:130-186`)
  | .elem .if [] [c, .elem .statements [] t, .elem .statements [] f] =>
    (readExpr rf false false c).bind fun c => (readStmts rf t).bind fun t => if t.isEmpty then .assertion
      else (readStmts rf f).bind fun f => .ok (.ifElse p c t f)
  -- `While_pimpl` (`language/ast/xml/xml_parser.cc:189-246`)
  | .elem .while [] [c, .elem .statements [] t, .elem .statements [] f] =>
    (readExpr rf false false c).bind fun c => (readStmts rf t).bind fun t => if t.isEmpty then .assertion
      else (readStmts rf f).bind fun f => .ok (.while p c t f)
  -- `FunctionDefinition_pimpl` (`language/ast/xml/xml_parser.cc:249-308`)
  | .elem .functionDefinition [] [n, .elem .expressions [] es, .elem .statements [] b] =>
    (readTextOf .name n).bind fun n => (readExprs rf false false es).bind fun args =>
      (readStmts rf b).bind fun b => if b.isEmpty then .assertion else .ok (.function p n args b)
  -- `Return_pimpl` (`language/ast/xml/xml_parser.cc:311-351`)
  | .elem .return [] [] => .ok (.retNone p)
  | .elem .return [] [e] => (readExpr rf false false e).bind fun e => .ok (.ret p e)
  | _ => .parseError

/-- `Statements_pimpl` (`language/ast/xml/xml_parser.cc:354-387`). -/
def readStmts (rf : Str → Option Rat) : List Xml → Outcome (List TreeStmt)
  | [] => .ok []
  | x :: xs => (readStmt rf x).bind fun e => (readStmts rf xs).bind fun es => .ok (e :: es)

end

/-- `Fern_pimpl` (`language/ast/xml/xml_parser.cc:20-57`). -/
def readFern (rf : Str → Option Rat) : Xml → Outcome TreeModule
  | .elem .fern [(a, s)] [.elem .statements [] b] =>
    if a = "source".toList then (readStmts rf b).bind fun b => .ok ⟨s, b⟩ else .parseError
  | _ => .parseError

/-- `XmlParser::parse_string` (`language/ast/xml/xml_parser.cc:1195-1222`). -/
def readModule (rf : Str → Option Rat) (s : Str) : Outcome TreeModule :=
  (Outcome.ofOption (readXml s)).bind (readFern rf)

/-- `Interpreter::parse_string` (`language/interpreter/interpreter.cc:77-136`), once Python has parsed
the script. -/
def parseScript (sf : Rat → Str) (rf : Str → Option Rat) (source : Str) (body : List PyStmt) :
    Outcome TreeModule :=
  (writeModule sf source body).bind (readModule rf)

end Fern.Script
