import Verif.Lemmas.ScriptSource

/-!
# C84: from a script to a syntax tree

A script is written as XML and the XML is read again. `Spec.stmtsIssues` lists what is wrong with a
script and `Spec.stmtsTree` is the syntax tree that the script should have; neither knows about XML.
-/

namespace Fern.Script

open Fern Fern.Script.Spec

/-- A script with a construct Fern doesn't have is refused: the first such construct decides, and is
reported with its position. No requirement on names, strings or the source. -/
theorem C84_refused (sf : Rat → Str) (rf : Str → Option Rat) (source : Str) (body : List PyStmt)
    (i : Issue) (is : List Issue) (h : stmtsIssues body = i :: is) :
    parseScript sf rf source body = i.outcome := by
  have hf := firsts_statements (writeStmts_firsts sf body)
  rw [h] at hf
  have hf' : writeStatements body (writeStmts sf body) = i.outcome := hf
  rw [parseScript, writeModule, hf']
  cases i <;> rfl

/-- A script without such constructs, of which the names and strings can be part of an XML document as
they are, gives the syntax tree it should have, with the name of its source and all positions. -/
theorem C84_tree (sf : Rat → Str) (rf : Str → Option Rat) (source : Str) (body : List PyStmt)
    (h : stmtsIssues body = []) (hs : StmtsSafe sf body) (hsource : SafeSource source) :
    parseScript sf rf source body = (stmtsTree sf rf body).bind fun b => .ok ⟨source, b⟩ := by
  have hf := firsts_statements (writeStmts_firsts sf body)
  rw [h] at hf
  obtain ⟨b, hb⟩ := hf
  obtain ⟨xs, hx, hr⟩ := statements_read (fun b hb => writeStmts_reads sf rf body b hb hs)
    (by rintro rfl; rfl) hb
  rw [parseScript, writeModule, hb, ok_bind, ok_bind, readModule, readXml_fern hsource hx]
  rw [Outcome.ofOption, ok_bind, readFern, if_pos rfl, hr]

/-- Whatever the names and strings: nothing but the document decides, and it exists exactly if the
script has no issues. -/
theorem C84_written (sf : Rat → Str) (source : Str) (body : List PyStmt) :
    (∃ s, writeModule sf source body = .ok s) ↔ stmtsIssues body = [] := by
  have hf := firsts_statements (writeStmts_firsts sf body)
  cases h : stmtsIssues body with
  | nil =>
    rw [h] at hf
    obtain ⟨b, hb⟩ := hf
    exact ⟨fun _ => rfl, fun _ => ⟨_, by rw [writeModule, hb]; rfl⟩⟩
  | cons i is =>
    rw [h] at hf
    have hf' : writeStatements body (writeStmts sf body) = i.outcome := hf
    refine ⟨?_, fun h => absurd h (by simp)⟩
    rintro ⟨s, hs⟩
    rw [writeModule, hf'] at hs
    cases i <;> exact absurd hs (by simp [Issue.outcome, Outcome.bind])

/-- The default values, the decorators and the `*` and `**` arguments of a function definition are
dropped without a message. -/
theorem C84_dropped (sf : Rat → Str) (rf : Str → Option Rat) (source : Str) (p : Pos) (n : Str)
    (args defaults defaults' decorators decorators' : List PyExpr) (rest rest' : Option Str)
    (body pre post : List PyStmt) :
    parseScript sf rf source (pre ++ .function p n args defaults decorators rest body :: post) =
      parseScript sf rf source (pre ++ .function p n args defaults' decorators' rest' body :: post) := by
  have h : ∀ d e r, writeStmts sf (pre ++ .function p n args d e r body :: post) =
      writeStmts sf (pre ++ .function p n args defaults decorators rest body :: post) := by
    intro d e r
    induction pre with
    | nil => rw [List.nil_append, List.nil_append, writeStmts, writeStmts, writeStmt, writeStmt]
    | cons s ss ih => rw [List.cons_append, List.cons_append, writeStmts, writeStmts, ih]
  rw [parseScript, parseScript, writeModule, writeModule, h defaults' decorators' rest']
  unfold writeStatements
  simp

/-- An integer constant is kept if it fits in 32 bits and makes parsing fail if it fits in 64 bits
only, although it is given as an integer of 64 bits. -/
theorem C84_integer (sf : Rat → Str) (rf : Str → Option Rat) (source : Str) (hsource : SafeSource source)
    (p q : Pos) (v : Int) :
    parseScript sf rf source [.expr p (.num q (.int v))] =
      if -2147483648 ≤ v ∧ v ≤ 2147483647 then .ok ⟨source, [.expr (.number p (.int .i64 v))]⟩
      else .parseError := by
  rw [C84_tree sf rf source _ rfl (by simp [StmtsSafe, StmtSafe, ExprSafe]) hsource, stmtsTree, stmtTree,
    exprTree, integerTree]
  split <;> rfl

/-- An integer constant that doesn't even fit in 64 bits becomes -1. -/
theorem C84_long (sf : Rat → Str) (rf : Str → Option Rat) (source : Str) (hsource : SafeSource source)
    (p q : Pos) (v : Int) (h : 2 ^ 63 ≤ v) :
    parseScript sf rf source [.expr p (.num q (.long v))] =
      .ok ⟨source, [.expr (.number p (.int .i64 (-1)))]⟩ := by
  rw [C84_tree sf rf source _ rfl (by simp [StmtsSafe, StmtSafe, ExprSafe]) hsource, stmtsTree, stmtTree,
    exprTree, longValue, if_neg (by omega)]
  rfl

/-- A floating point constant becomes what the text written for it is read as. -/
theorem C84_float (sf : Rat → Str) (rf : Str → Option Rat) (source : Str) (hsource : SafeSource source)
    (p q : Pos) (v w : Rat) (hs : Safe (sf v)) (h : rf (sf v) = some w) :
    parseScript sf rf source [.expr p (.num q (.float v))] =
      .ok ⟨source, [.expr (.number p (.float64 w))]⟩ := by
  rw [C84_tree sf rf source _ rfl (by simpa [StmtsSafe, StmtSafe, ExprSafe] using hs) hsource, stmtsTree,
    stmtTree, exprTree, h]
  rfl

/-- `and` and `or` with more than two operands, which Python has as one operation, fail an assertion,
whatever the operands are. -/
theorem C84_operands (sf : Rat → Str) (rf : Str → Option Rat) (source : Str) (hsource : SafeSource source)
    (p q : Pos) (op : BoolOp) (ns : List (Pos × Str)) (hn : ∀ x ∈ ns, Safe x.2) :
    parseScript sf rf source [.expr p (.bool q op (ns.map fun x => .name x.1 x.2))] =
      if ns.length = 2 then
        .ok ⟨source, [.expr (operatorTree p (boolNames op) (ns.map fun x => .name x.1 x.2))]⟩
      else .assertion := by
  have h1 : exprsIssues (ns.map fun x => .name x.1 x.2) = [] := by
    induction ns with
    | nil => rfl
    | cons x xs ih =>
      rw [List.map_cons, exprsIssues, ih fun y hy => hn y (by simp [hy])]
      rfl
  have h2 : ExprsSafe sf (ns.map fun x => .name x.1 x.2) := by
    clear h1
    induction ns with
    | nil => rw [List.map_nil, ExprsSafe]; trivial
    | cons x xs ih =>
      rw [List.map_cons, ExprsSafe, ExprSafe]
      exact ⟨hn x (by simp), ih fun y hy => hn y (by simp [hy])⟩
  have h3 : exprsTree sf rf false false (ns.map fun x => .name x.1 x.2) =
      .ok (ns.map fun x => .name x.1 x.2) := by
    clear h1 h2 hn
    induction ns with
    | nil => rfl
    | cons x xs ih =>
      rw [List.map_cons, exprsTree, ih]
      rfl
  rw [C84_tree sf rf source _ (by rw [stmtsIssues, stmtIssues, exprIssues, h1]; rfl)
    (by rw [StmtsSafe, StmtSafe, ExprSafe]; exact ⟨h2, by rw [StmtsSafe]; trivial⟩) hsource, stmtsTree,
    stmtTree, exprTree, h3, ok_bind, List.length_map]
  split <;> rfl

/-- An attribute of an attribute, as in `a.b.c`, fails an assertion. -/
theorem C84_attributes (sf : Rat → Str) (rf : Str → Option Rat) (source : Str)
    (hsource : SafeSource source) (p q q' q'' : Pos) (a b c : Str) (ha : Safe a) (hb : Safe b) (hc : Safe c) :
    parseScript sf rf source [.expr p (.attr q (.attr q' (.name q'' a) b) c)] = .assertion := by
  rw [C84_tree sf rf source _ rfl (by simp [StmtsSafe, StmtSafe, ExprSafe, ha, hb, hc]) hsource, stmtsTree,
    stmtTree]
  rfl

/-- So does a subscription in a subscription, as in `a[b[c]]`. -/
theorem C84_subscripts (sf : Rat → Str) (rf : Str → Option Rat) (source : Str)
    (hsource : SafeSource source) (p q q' q1 q2 q3 : Pos) (a b c : Str) (ha : Safe a) (hb : Safe b)
    (hc : Safe c) :
    parseScript sf rf source [.expr p (.subscript q (.name q1 a) (.subscript q' (.name q2 b) (.name q3 c)))] =
      .assertion := by
  rw [C84_tree sf rf source _ rfl (by simp [StmtsSafe, StmtSafe, ExprSafe, ha, hb, hc]) hsource, stmtsTree,
    stmtTree]
  rfl

/-! ## String constants that are not text of an XML document -/

/-- A script with one string. -/
def stringScript (s : String) : List PyStmt := [.expr ⟨1, 0⟩ (.str ⟨1, 0⟩ s.toList)]

/-- A string constant with a `<` makes parsing the script fail. -/
theorem C84_less (sf : Rat → Str) (rf : Str → Option Rat) :
    parseScript sf rf "<string>".toList (stringScript "a<b") = .parseError := by
  rw [parseScript, writeModule, escape_eq]
  rfl

/-- A string constant that looks like a reference is changed into the character it refers to. -/
theorem C84_reference (sf : Rat → Str) (rf : Str → Option Rat) :
    parseScript sf rf "<string>".toList (stringScript "a&lt;b") =
      .ok ⟨"<string>".toList, [.expr (.string ⟨1, 0⟩ "a<b".toList)]⟩ :=
  parseScript_string sf rf (by unfold SafeSource; decide) _ _ (by decide) (by decide) (by decide)

/-- A line end is changed. -/
theorem C84_line_end (sf : Rat → Str) (rf : Str → Option Rat) :
    parseScript sf rf "<string>".toList (stringScript "a\r\nb") =
      .ok ⟨"<string>".toList, [.expr (.string ⟨1, 0⟩ "a\nb".toList)]⟩ :=
  parseScript_string sf rf (by unfold SafeSource; decide) _ _ (by decide) (by decide) (by decide)

/-- A string ends at the first null character. -/
theorem C84_null (sf : Rat → Str) (rf : Str → Option Rat) :
    parseScript sf rf "<string>".toList (stringScript "a\x00b") =
      .ok ⟨"<string>".toList, [.expr (.string ⟨1, 0⟩ "a".toList)]⟩ :=
  parseScript_string sf rf (by unfold SafeSource; decide) _ _ (by decide) (by decide) (by decide)

/-- A string with markup in it. -/
def markup : String :=
  "a</String></Expression></Statement><Statement line=\"1\" col=\"0\"><Expression line=\"1\" col=\"0\">" ++
  "<FunctionCall><Name>f</Name><Expressions/></FunctionCall></Expression></Statement>" ++
  "<Statement line=\"1\" col=\"0\"><Expression line=\"1\" col=\"0\"><String>b"

/-- A script with three statements, the second of which is a call. -/
def threeStatements : List PyStmt :=
  [.expr ⟨1, 0⟩ (.str ⟨1, 0⟩ "a".toList), .expr ⟨1, 0⟩ (.call ⟨1, 0⟩ (.name ⟨1, 0⟩ "f".toList) [] false),
   .expr ⟨1, 0⟩ (.str ⟨1, 0⟩ "b".toList)]

/-- The text of a string constant can become part of the program: a script with only a string is parsed
like one with three statements, the second of which is a call. -/
theorem C84_markup (sf : Rat → Str) (rf : Str → Option Rat) (source : Str) (hs : SafeSource source) :
    parseScript sf rf source (stringScript markup) = parseScript sf rf source threeStatements ∧
    parseScript sf rf source threeStatements =
      .ok ⟨source, [.expr (.string ⟨1, 0⟩ "a".toList), .expr (.call ⟨1, 0⟩ "f".toList []),
        .expr (.string ⟨1, 0⟩ "b".toList)]⟩ := by
  constructor
  · have h : ∀ g : Rat → Str, writeStmts g (stringScript markup) = writeStmts g threeStatements := by
      intro g
      have e : positionTag .statement ⟨1, 0⟩ ++ ((positionTag .expression ⟨1, 0⟩ ++ (writeString markup.toList ++
          endTag .expression)) ++ endTag .statement) =
        (positionTag .statement ⟨1, 0⟩ ++ ((positionTag .expression ⟨1, 0⟩ ++ (writeString "a".toList ++
          endTag .expression)) ++ endTag .statement)) ++
        ((positionTag .statement ⟨1, 0⟩ ++ ((positionTag .expression ⟨1, 0⟩ ++ ((startTag .functionCall ++
          (writeIdentifier "f".toList ++ (emptyTag .expressions ++ endTag .functionCall))) ++
          endTag .expression)) ++ endTag .statement)) ++
        (positionTag .statement ⟨1, 0⟩ ++ ((positionTag .expression ⟨1, 0⟩ ++ (writeString "b".toList ++
          endTag .expression)) ++ endTag .statement))) := by decide +kernel
      simp only [stringScript, threeStatements, writeStmts, writeStmt, writeExpr, writeCallee, writeExpressions,
        positioned, ok_bind, List.append_nil, List.isEmpty_nil, if_true, Bool.false_eq_true, if_false]
      rw [e]
    have hw : ∀ r, writeStatements (stringScript markup) r = writeStatements threeStatements r := by
      intro r
      rw [writeStatements, writeStatements, stringScript, threeStatements, List.isEmpty_cons, List.isEmpty_cons]
    rw [parseScript, parseScript, writeModule, writeModule, h, hw]
  · rw [C84_tree sf rf source _ rfl ?_ hs]
    · rfl
    · have h : ∀ s ∈ ["a".toList, "b".toList, "f".toList], Safe s := by
        intro s hs
        have hb : ']' ∉ s := by
          revert s
          decide
        refine ⟨?_, fun a b e => hb (by rw [e]; simp)⟩
        clear hb
        revert s
        decide
      simp only [threeStatements, StmtsSafe, StmtSafe, ExprSafe, ExprsSafe]
      exact ⟨h _ (by decide), ⟨h _ (by decide), trivial⟩, h _ (by decide), trivial⟩

/-! ## Numbers in documents that were not written for a script -/

/-- The text of a document with one number. -/
def numberDocument (source : Str) (p q : Pos) (t : Tag) (size : Nat) (value : Str) : Str :=
  declaration ++ ('<' :: (Tag.fern.text ++ (" source=\"".toList ++ (cString (escape source) ++ ("\">".toList ++
    ((startTag .statements ++ ((positionTag .statement p ++ ((positionTag .expression q ++ ((startTag .number ++
      (writeSized t (natText size) value ++ endTag .number)) ++ endTag .expression)) ++ endTag .statement)) ++
        endTag .statements)) ++ endTag .fern))))))

theorem numberDocument_read (rf : Str → Option Rat) {source : Str} (hs : SafeSource source) (p q : Pos) (t : Tag)
    (size : Nat) {value : Str} (hv : Safe value) :
    readModule rf (numberDocument source p q t size value) =
      (readNumber rf (.elem t [] [.elem .size [] (textXml (natText size)), .elem .value [] (textXml value)])).bind
        fun n => .ok ⟨source, [.expr (.number p n)]⟩ := by
  have hw := ((((writes_sized t (natText_safe size) hv).elem .number).position .expression q).position
    .statement p).elem .statements
  rw [numberDocument, readModule, readXml_fern hs hw, Outcome.ofOption, ok_bind, readFern, if_pos rfl, readStmts,
    readStmts, readStmt, readPos_posAttributes, ok_bind, readStmtBody, readExpr, readPos_posAttributes, ok_bind,
    readBody]
  cases readNumber rf (.elem t [] [.elem .size [] (textXml (natText size)), .elem .value [] (textXml value)]) <;> rfl

/-- An unsigned integer is reduced to the number of bits that is given as its size; sizes other than 8, 16, 32
and 64 fail an assertion. -/
theorem C84_unsigned (rf : Str → Option Rat) (source : Str) (hs : SafeSource source) (p q : Pos) (size v : Nat)
    (h0 : 0 < size) (h1 : size < 2 ^ 64) :
    readModule rf (numberDocument source p q .unsignedInteger size (natText v)) =
      if 2 ^ 64 ≤ v then .parseError
      else if size = 8 then .ok ⟨source, [.expr (.number p (.int .u8 (v % 2 ^ 8 : Nat)))]⟩
      else if size = 16 then .ok ⟨source, [.expr (.number p (.int .u16 (v % 2 ^ 16 : Nat)))]⟩
      else if size = 32 then .ok ⟨source, [.expr (.number p (.int .u32 (v % 2 ^ 32 : Nat)))]⟩
      else if size = 64 then .ok ⟨source, [.expr (.number p (.int .u64 v))]⟩
      else .assertion := by
  rw [numberDocument_read rf hs p q .unsignedInteger size (natText_safe v), readNumber, readTextOf_textXml, ok_bind,
    readPositive_natText size h0 h1, readTextOf_textXml]
  show ((Outcome.ofOption (readUnsigned (natText v))).bind fun v => unsignedVertex size (v : Int)).bind _ = _
  rw [readUnsigned_natText]
  by_cases hv : v < 2 ^ 64
  · rw [if_pos hv, if_neg (by omega)]
    show (unsignedVertex size (v : Int)).bind _ = _
    unfold unsignedVertex
    have hw : IntTy.wrap .u64 (v : Int) = v := by
      simp only [IntTy.wrap, IntTy.signed, IntTy.bits, Bool.false_eq_true, if_false]
      omega
    rw [hw]
    split_ifs <;> rfl
  · rw [if_neg hv, if_pos (by omega)]
    rfl

/-- A signed integer is reduced likewise; whatever its size it must fit in 32 bits. -/
theorem C84_signed (rf : Str → Option Rat) (source : Str) (hs : SafeSource source) (p q : Pos) (size : Nat) (v : Int)
    (h0 : 0 < size) (h1 : size < 2 ^ 64) :
    readModule rf (numberDocument source p q .integer size (formatInt v)) =
      if v < -2 ^ 31 ∨ 2 ^ 31 ≤ v then .parseError
      else if size = 8 then .ok ⟨source, [.expr (.number p (.int .i8 (v.bmod (2 ^ 8))))]⟩
      else if size = 16 then .ok ⟨source, [.expr (.number p (.int .i16 (v.bmod (2 ^ 16))))]⟩
      else if size = 32 then .ok ⟨source, [.expr (.number p (.int .i32 v))]⟩
      else if size = 64 then .ok ⟨source, [.expr (.number p (.int .i64 v))]⟩
      else .assertion := by
  rw [numberDocument_read rf hs p q .integer size (formatInt_safe v), readNumber, readTextOf_textXml, ok_bind,
    readPositive_natText size h0 h1, readTextOf_textXml]
  show ((Outcome.ofOption (readInt32 (formatInt v))).bind fun v => integerVertex size v).bind _ = _
  rw [readInt32_formatInt]
  by_cases hv : -2147483648 ≤ v ∧ v ≤ 2147483647
  · rw [if_pos hv, if_neg (by omega)]
    show (integerVertex size (v : Int)).bind _ = _
    unfold integerVertex
    have h8 : IntTy.wrap .i8 v = v.bmod (2 ^ 8) := by
      simp only [IntTy.wrap, IntTy.signed, IntTy.bits, if_true, Int.bmod_def]
      omega
    have h16 : IntTy.wrap .i16 v = v.bmod (2 ^ 16) := by
      simp only [IntTy.wrap, IntTy.signed, IntTy.bits, if_true, Int.bmod_def]
      omega
    have h32 : IntTy.wrap .i32 v = v := by
      simp only [IntTy.wrap, IntTy.signed, IntTy.bits, if_true]
      omega
    rw [wrap_i64 hv, h8, h16, h32]
    split_ifs <;> rfl
  · rw [if_neg hv, if_pos (by omega)]
    rfl

/-- A floating point number has 32 or 64 bits. -/
theorem C84_sized_float (rf : Str → Option Rat) (source : Str) (hs : SafeSource source) (p q : Pos) (size : Nat)
    (value : Str) (hv : Safe value) (h0 : 0 < size) (h1 : size < 2 ^ 64) :
    readModule rf (numberDocument source p q .float size value) =
      match rf value with
      | none => .parseError
      | some v =>
        if size = 32 then .ok ⟨source, [.expr (.number p (.float32 v))]⟩
        else if size = 64 then .ok ⟨source, [.expr (.number p (.float64 v))]⟩
        else .assertion := by
  rw [numberDocument_read rf hs p q .float size hv, readNumber, readTextOf_textXml, ok_bind,
    readPositive_natText size h0 h1, readTextOf_textXml]
  show ((Outcome.ofOption (rf value)).bind fun v => floatVertex size v).bind _ = _
  cases rf value with
  | none => rfl
  | some v =>
    show (floatVertex size v).bind _ = _
    unfold floatVertex
    split_ifs <;> rfl

example (rf : Str → Option Rat) :
    readModule rf (numberDocument "x".toList ⟨1, 0⟩ ⟨1, 0⟩ .unsignedInteger 8 (natText 300)) =
      .ok ⟨"x".toList, [.expr (.number ⟨1, 0⟩ (.int .u8 44))]⟩ :=
  C84_unsigned rf _ (by unfold SafeSource; decide) _ _ 8 300 (by decide) (by decide)

/-- An expression that is a statement is at the line and the column of the statement, whatever kind of
expression it is, and is otherwise the expression itself: moved to where it was it is the same again. -/
theorem C84_position (sf : Rat → Str) (rf : Str → Option Rat) (p : Pos) (e : PyExpr) (t : TreeExpr)
    (h : exprTree sf rf false false e = .ok t) :
    ∃ u, stmtTree sf rf (.expr p e) = .ok (.expr u) ∧ positionOf u = p ∧ u.setPos (positionOf t) = t := by
  refine ⟨t.setPos p, ?_, ?_, ?_⟩
  · rw [stmtTree, h]
    rfl
  · cases t <;> rfl
  · cases t <;> rfl

example (sf : Rat → Str) (rf : Str → Option Rat) :
    ∃ u, stmtTree sf rf (.expr ⟨3, 0⟩ (.name ⟨3, 7⟩ "a".toList)) = .ok (.expr u) ∧ positionOf u = ⟨3, 0⟩ ∧
      u.setPos ⟨3, 7⟩ = .name ⟨3, 7⟩ "a".toList :=
  C84_position sf rf _ _ (.name ⟨3, 7⟩ "a".toList) (by rw [exprTree])

/-! ## Examples -/

/-- `if a + 1 == "x y": return b[2]`, and a function. -/
def exampleScript : List PyStmt :=
  [.ifElse ⟨1, 0⟩ (.compare ⟨1, 3⟩ (.binary ⟨1, 3⟩ (.name ⟨1, 3⟩ "a".toList) .add (.num ⟨1, 7⟩ (.int 1))) .eq
      (.str ⟨1, 12⟩ "x y".toList) false)
    [.ret ⟨2, 4⟩ (.subscript ⟨2, 11⟩ (.name ⟨2, 11⟩ "b".toList) (.num ⟨2, 13⟩ (.int 2)))] [],
   .function ⟨3, 0⟩ "f".toList [.name ⟨3, 6⟩ "x".toList] [] [] none [.retNone ⟨4, 4⟩]]

theorem exampleScript_safe : StmtsSafe (fun _ => []) exampleScript := by
  have h : ∀ s ∈ ["a".toList, "b".toList, "x y".toList, "f".toList, "x".toList], Safe s := by
    intro s hs
    have hb : ']' ∉ s := by
      revert s
      decide
    refine ⟨?_, fun a b e => hb (by rw [e]; simp)⟩
    clear hb
    revert s
    decide
  simp only [exampleScript, StmtsSafe, StmtSafe, ExprSafe, ExprsSafe]
  refine ⟨⟨⟨⟨h _ ?_, trivial⟩, h _ ?_⟩, ⟨⟨h _ ?_, trivial⟩, trivial⟩, trivial⟩, ⟨h _ ?_, ⟨h _ ?_, trivial⟩,
    ⟨trivial, trivial⟩⟩, trivial⟩ <;> decide

example (rf : Str → Option Rat) : parseScript (fun _ => []) rf "a<b>&c".toList exampleScript =
    .ok ⟨"a<b>&c".toList,
      [.ifElse ⟨1, 0⟩ (.operator ⟨1, 3⟩ "Eq".toList "==".toList
          [.operator ⟨1, 3⟩ "add".toList "+".toList
            [.name ⟨1, 3⟩ "a".toList, .number ⟨1, 7⟩ (.int .i64 1)], .string ⟨1, 12⟩ "x y".toList])
        [.ret ⟨2, 4⟩ (.subscript ⟨2, 11⟩ (.name ⟨2, 11⟩ "b".toList) (.number ⟨2, 13⟩ (.int .i64 2)))] [],
       .function ⟨3, 0⟩ "f".toList [.name ⟨3, 6⟩ "x".toList] [.retNone ⟨4, 4⟩]]⟩ := by
  rw [C84_tree _ rf _ _ rfl exampleScript_safe (by unfold SafeSource; decide)]
  rfl

/-- `pass` after a list: the list is reported. -/
example (sf : Rat → Str) (rf : Str → Option Rat) :
    parseScript sf rf [] [.expr ⟨1, 0⟩ (.unary ⟨1, 0⟩ .usub (.other ⟨1, 1⟩ .list)), .other ⟨2, 0⟩ .pass] =
      .unsupported "list".toList ⟨1, 1⟩ :=
  C84_refused sf rf [] _ (.unsupported "list".toList ⟨1, 1⟩) _ rfl

end Fern.Script
