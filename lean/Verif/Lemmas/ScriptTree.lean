import Verif.Lemmas.Script

/-!
# Lemmas about the syntax tree read from the XML of a script
-/

namespace Fern.Script

open Fern Fern.Script.Spec

theorem bind_ok {α β : Type} {r : Outcome α} {f : α → Outcome β} {b : β} (h : r.bind f = .ok b) :
    ∃ a, r = .ok a ∧ f a = .ok b := by
  cases r with
  | ok a => exact ⟨a, rfl, h⟩
  | _ => exact absurd h (by simp [Outcome.bind])

@[simp] theorem ok_bind {α β : Type} (a : α) (f : α → Outcome β) : (Outcome.ok a).bind f = f a := rfl

theorem bind_assoc' {α β γ : Type} (r : Outcome α) (f : α → Outcome β) (g : β → Outcome γ) :
    (r.bind f).bind g = r.bind fun a => (f a).bind g := by cases r <;> rfl

theorem bind_congr' {α β : Type} {r : Outcome α} {f g : α → Outcome β} (h : ∀ a, r = .ok a → f a = g a) :
    r.bind f = r.bind g := by
  cases r with
  | ok a => exact h a rfl
  | _ => rfl

theorem Outcome.ok_inj {α : Type} {a b : α} (h : Outcome.ok a = .ok b) : a = b := by
  injection h

/-- The text is one expression, which is read as the tree. -/
def ReadsAs (rf : Str → Option Rat) (s : Str) (tree : Bool → Bool → Outcome TreeExpr) : Prop :=
  ∃ x, Writes s [x] ∧ (∀ sub att, readExpr rf sub att x = tree sub att) ∧
    ∃ as c, x = .elem .expression as c

/-- The body of an expression. -/
def BodyReadsAs (rf : Str → Option Rat) (p : Pos) (s : Str) (tree : Bool → Bool → Outcome TreeExpr) : Prop :=
  ∃ x, Writes s [x] ∧ ∀ sub att, readBody rf sub att p x = tree sub att

def ListReadsAs (rf : Str → Option Rat) (s : Str) (trees : Bool → Bool → Outcome (List TreeExpr)) : Prop :=
  ∃ xs, Writes s xs ∧ ∀ sub att, readExprs rf sub att xs = trees sub att

theorem BodyReadsAs.positioned {rf : Str → Option Rat} {p : Pos} {s b : Str}
    {tree : Bool → Bool → Outcome TreeExpr} (h : BodyReadsAs rf p b tree)
    (e : positioned .expression p (.ok b) = .ok s) : ReadsAs rf s tree := by
  obtain ⟨x, hx, hr⟩ := h
  obtain rfl := Outcome.ok_inj e
  refine ⟨_, hx.position .expression p, fun sub att => ?_, _, _, rfl⟩
  rw [readExpr, readPos_posAttributes, ok_bind, hr]

/-- The element for expressions. -/
theorem expressions_read {rf : Str → Option Rat} {es : List PyExpr} {r : Outcome Str} {s : Str}
    {trees : Bool → Bool → Outcome (List TreeExpr)}
    (h : ∀ b, r = .ok b → ListReadsAs rf b trees) (hn : es = [] → ∀ sub att, trees sub att = .ok [])
    (e : writeExpressions es r = .ok s) :
    ∃ xs, Writes s [.elem .expressions [] xs] ∧ ∀ sub att, readExprs rf sub att xs = trees sub att := by
  cases es with
  | nil =>
    obtain rfl := Outcome.ok_inj e
    exact ⟨[], Writes.empty .expressions, fun sub att => by rw [hn rfl]; rfl⟩
  | cons a as =>
    obtain ⟨b, rfl, hb⟩ := bind_ok e
    obtain rfl := Outcome.ok_inj hb
    obtain ⟨xs, hx, hr⟩ := h b rfl
    exact ⟨xs, hx.elem .expressions, hr⟩

theorem operator_read {rf : Str → Option Rat} {p : Pos} {n b s : Str} {xs : List Xml}
    {trees : Bool → Bool → Outcome (List TreeExpr)} (hn : Safe n)
    (hw : Writes b [.elem .expressions [] xs])
    (hr : ∀ sub att, readExprs rf sub att xs = trees sub att) (e : writeOperator n (.ok b) = .ok s) :
    BodyReadsAs rf p s fun sub att => (trees sub att).bind fun ts => operatorVertex p n ts := by
  obtain rfl := Outcome.ok_inj e
  refine ⟨.elem .operator [] [.elem .name [] (textXml n), .elem .expressions [] xs], ?_, fun sub att => ?_⟩
  · have := (((Writes.leaf .name hn).append hw)).elem .operator
    simp only [List.append_assoc, List.cons_append, List.nil_append] at this ⊢
    exact this
  · rw [readBody, readTextOf_textXml, ok_bind, hr]

theorem unary_safe (op : UnaryOp) : Safe op.text := by
  refine ⟨by cases op <;> decide, fun a b e => ?_⟩
  have : ']' ∈ op.text := by rw [e]; simp
  cases op <;> exact absurd this (by decide)

theorem binary_safe (op : BinaryOp) : Safe op.text := by
  refine ⟨by cases op <;> decide, fun a b e => ?_⟩
  have : ']' ∈ op.text := by rw [e]; simp
  cases op <;> exact absurd this (by decide)

theorem bool_safe (op : BoolOp) : Safe op.text := by
  refine ⟨by cases op <;> decide, fun a b e => ?_⟩
  have : ']' ∈ op.text := by rw [e]; simp
  cases op <;> exact absurd this (by decide)

theorem compare_safe {op : CompareOp} {n : Str} (h : op.text = some n) : Safe n := by
  refine ⟨by cases op <;> cases h <;> decide, fun a b e => ?_⟩
  have : ']' ∈ n := by rw [e]; simp
  cases op <;> cases h <;> exact absurd this (by decide)

theorem unary_vertex (p : Pos) (op : UnaryOp) (t : TreeExpr) :
    operatorVertex p op.text [t] = .ok (operatorTree p (unaryNames op) [t]) := by cases op <;> rfl

theorem binary_vertex (p : Pos) (op : BinaryOp) (a b : TreeExpr) :
    operatorVertex p op.text [a, b] = .ok (operatorTree p (binaryNames op) [a, b]) := by cases op <;> rfl

theorem compare_vertex (p : Pos) {op : CompareOp} {n : Str} (h : op.text = some n) (a b : TreeExpr) :
    operatorVertex p n [a, b] = .ok (operatorTree p (compareNames op) [a, b]) := by
  cases op <;> cases h <;> rfl

theorem bool_vertex (p : Pos) (op : BoolOp) (ts : List TreeExpr) :
    operatorVertex p op.text ts =
      if ts.length = 2 then .ok (operatorTree p (boolNames op) ts) else .assertion := by
  match ts with
  | [] => rfl
  | [a] => cases op <;> rfl
  | [a, b] => cases op <;> rfl
  | _ :: _ :: _ :: _ => rfl

theorem wrap_i64 {v : Int} (h : -2147483648 ≤ v ∧ v ≤ 2147483647) : IntTy.wrap .i64 v = v := by
  simp only [IntTy.wrap, IntTy.signed, IntTy.bits, if_true]
  omega

theorem readInt32_formatInt (v : Int) :
    readInt32 (formatInt v) = if -2147483648 ≤ v ∧ v ≤ 2147483647 then some v else none := by
  rw [readInt32, readInteger_formatInt, Option.bind_some]
  split <;> split <;> first | rfl | omega

theorem readUnsigned_natText (n : Nat) :
    readUnsigned (natText n) = if n < 2 ^ 64 then some n else none := by
  rw [readUnsigned, readNat_natText, Option.bind_some]

theorem readPositive_natText (n : Nat) (h : 0 < n) (h' : n < 2 ^ 64) : readPositive (natText n) = some n := by
  rw [readPositive, readUnsigned_natText, if_pos h', Option.bind_some, if_pos h]

theorem writes_sized (t : Tag) {s v : Str} (hs : Safe s) (hv : Safe v) :
    Writes (writeSized t s v) [.elem t [] [.elem .size [] (textXml s), .elem .value [] (textXml v)]] := by
  have := ((Writes.leaf .size hs).append (Writes.leaf .value hv)).elem t
  unfold writeSized
  simp only [List.append_assoc, List.cons_append, List.nil_append] at this ⊢
  exact this

theorem integer_read (rf : Str → Option Rat) (p : Pos) (v : Int) :
    BodyReadsAs rf p (startTag .number ++ (writeSized .integer (natText 64) (formatInt v) ++ endTag .number))
      fun _ _ => integerTree p v := by
  refine ⟨_, (writes_sized .integer (natText_safe 64) (formatInt_safe v)).elem .number, fun sub att => ?_⟩
  rw [readBody, readNumber, readTextOf_textXml, ok_bind, readPositive_natText 64 (by decide) (by decide), readTextOf_textXml]
  show (((Outcome.ofOption (readInt32 (formatInt v))).bind fun v => integerVertex 64 v).bind _) = _
  rw [readInt32_formatInt]
  show _ = integerTree p v
  unfold integerTree
  split
  · rename_i h
    show (integerVertex 64 v).bind _ = _
    rw [integerVertex, if_neg (by decide), if_neg (by decide), if_neg (by decide), if_pos rfl, wrap_i64 h]
    rfl
  · rfl

mutual

theorem writeExpr_reads (sf : Rat → Str) (rf : Str → Option Rat) : ∀ (e : PyExpr) (s : Str),
    writeExpr sf e = .ok s → ExprSafe sf e → ReadsAs rf s fun sub att => exprTree sf rf sub att e
  | .name p n, s, h, hs => by
    refine BodyReadsAs.positioned ⟨_, writes_identifier hs, fun sub att => ?_⟩ h
    rw [readBody, readText_textXml]
    rfl
  | .num p v, s, h, hs => by
    rw [writeExpr] at h
    cases v with
    | int v => exact (integer_read rf p v).positioned h
    | long v =>
      have e : asLongLong v = longValue v := by
        unfold asLongLong longValue
        split <;> split <;> first | rfl | omega
      have := integer_read rf p (asLongLong v)
      rw [e] at this
      rw [writeNumber, e] at h
      exact this.positioned h
    | float v =>
      have hs' : Safe (sf v) := hs
      refine BodyReadsAs.positioned
        ⟨_, (writes_sized .float (natText_safe 64) hs').elem .number, fun sub att => ?_⟩ h
      beta_reduce
      rw [readBody, readNumber, readTextOf_textXml, ok_bind, readPositive_natText 64 (by decide) (by decide), readTextOf_textXml, exprTree]
      show (((Outcome.ofOption (rf (sf v))).bind fun w => floatVertex 64 w).bind _) = _
      cases hv : rf (sf v) <;> rfl
    | complex => exact absurd h (by simp [writeNumber, positioned, Outcome.bind])
  | .str p t, s, h, hs => by
    have hs' : Safe t := hs
    rw [writeExpr, writeString] at h
    split at h
    · rename_i ht
      subst ht
      exact BodyReadsAs.positioned ⟨_, Writes.empty .string, fun sub att => rfl⟩ h
    · rw [cString_safe hs'] at h
      refine BodyReadsAs.positioned ⟨_, Writes.leaf .string hs', fun sub att => ?_⟩ h
      rw [readBody, readText_textXml]
      rfl
  | .unicode p t, s, h, hs => by exact absurd h (by simp [writeExpr])
  | .call p f args more, s, h, hs => by
    rw [writeExpr] at h
    obtain ⟨b, hb, e⟩ := bind_ok h
    cases more with
    | true => exact absurd hb (by simp)
    | false =>
      rw [if_neg (by decide)] at hb
      obtain ⟨n', hf, hb⟩ := bind_ok hb
      obtain ⟨a, ha, hb⟩ := bind_ok hb
      obtain rfl := Outcome.ok_inj hb
      cases f with
      | name q n =>
        rw [ExprSafe] at hs
        have hn : Safe n := hs.1
        obtain ⟨xs, hx, hr⟩ := expressions_read (rf := rf)
          (trees := fun sub att => exprsTree sf rf sub att args)
          (fun b hb => writeExprs_reads sf rf args b hb hs.2)
          (by rintro rfl sub att; rfl) ha
        obtain rfl := Outcome.ok_inj hf
        refine BodyReadsAs.positioned
          ⟨.elem .functionCall [] [.elem .name [] (textXml n), .elem .expressions [] xs], ?_,
            fun sub att => ?_⟩ e
        · have := ((writes_identifier hn).append hx).elem .functionCall
          simp only [List.append_assoc, List.cons_append, List.nil_append] at this ⊢
          exact this
        · beta_reduce
          rw [readBody, readTextOf_textXml, ok_bind, hr, exprTree]
      | _ => exact absurd hf (by simp [writeCallee])
  | .unary p op e, s, h, hs => by
    rw [writeExpr] at h
    obtain ⟨b, hb, he⟩ := bind_ok h
    obtain ⟨c, hc, hb⟩ := bind_ok hb
    obtain ⟨d, hd, hc⟩ := bind_ok hc
    obtain rfl := Outcome.ok_inj hc
    obtain ⟨x, hx, hr, -⟩ := writeExpr_reads sf rf e d hd (by rw [ExprSafe] at hs; exact hs)
    obtain ⟨y, hy, hq⟩ := operator_read (rf := rf) (p := p) (xs := [x])
      (trees := fun sub att => (exprTree sf rf sub att e).bind fun t => .ok [t]) (unary_safe op)
      (hx.elem .expressions) (fun sub att => by rw [readExprs, hr]; rfl) hb
    refine BodyReadsAs.positioned ⟨y, hy, fun sub att => ?_⟩ he
    rw [hq]
    beta_reduce
    rw [bind_assoc', exprTree]
    exact bind_congr' fun t _ => unary_vertex p op t
  | .binary p l op r, s, h, hs => by
    rw [writeExpr] at h
    rw [ExprSafe] at hs
    obtain ⟨b, hb, he⟩ := bind_ok h
    obtain ⟨c, hc, hb⟩ := bind_ok hb
    obtain ⟨d, hd, hc⟩ := bind_ok hc
    obtain ⟨d', hd', hc⟩ := bind_ok hc
    obtain rfl := Outcome.ok_inj hc
    obtain ⟨x, hx, hr, -⟩ := writeExpr_reads sf rf l d hd hs.1
    obtain ⟨x', hx', hr', -⟩ := writeExpr_reads sf rf r d' hd' hs.2
    have hw := (hx.append hx').elem .expressions
    rw [List.append_assoc] at hw
    obtain ⟨y, hy, hq⟩ := operator_read (rf := rf) (p := p) (xs := [x, x'])
      (trees := fun sub att => (exprTree sf rf sub att l).bind fun t =>
        (exprTree sf rf sub att r).bind fun t' => .ok [t, t']) (binary_safe op)
      hw (fun sub att => by
        rw [readExprs, readExprs, hr, hr', readExprs]
        exact bind_congr' fun t _ => by rw [bind_assoc']; rfl) hb
    refine BodyReadsAs.positioned ⟨y, hy, fun sub att => ?_⟩ he
    rw [hq]
    beta_reduce
    rw [bind_assoc', exprTree]
    exact bind_congr' fun t _ => by
      rw [bind_assoc']
      exact bind_congr' fun t' _ => binary_vertex p op t t'
  | .bool p op es, s, h, hs => by
    rw [writeExpr] at h
    rw [ExprSafe] at hs
    obtain ⟨b, hb, he⟩ := bind_ok h
    obtain ⟨c, hc, hb⟩ := bind_ok hb
    obtain ⟨xs, hx, hr⟩ := expressions_read (rf := rf)
      (trees := fun sub att => exprsTree sf rf sub att es)
      (fun b hb => writeExprs_reads sf rf es b hb hs)
      (by rintro rfl sub att; rfl) hc
    obtain ⟨y, hy, hq⟩ := operator_read (rf := rf) (p := p) (bool_safe op) hx hr hb
    refine BodyReadsAs.positioned ⟨y, hy, fun sub att => ?_⟩ he
    rw [hq]
    beta_reduce
    rw [exprTree]
    exact bind_congr' fun ts _ => bool_vertex p op ts
  | .compare p l op r more, s, h, hs => by
    rw [writeExpr] at h
    rw [ExprSafe] at hs
    obtain ⟨b, hb, he⟩ := bind_ok h
    cases more with
    | true => exact absurd hb (by simp)
    | false =>
      rw [if_neg (by decide)] at hb
      cases hn : op.text with
      | none => rw [hn] at hb; exact absurd hb (by simp)
      | some n =>
        rw [hn] at hb
        obtain ⟨c, hc, hb⟩ := bind_ok hb
        obtain ⟨d, hd, hc⟩ := bind_ok hc
        obtain ⟨d', hd', hc⟩ := bind_ok hc
        obtain rfl := Outcome.ok_inj hc
        obtain ⟨x, hx, hr, -⟩ := writeExpr_reads sf rf l d hd hs.1
        obtain ⟨x', hx', hr', -⟩ := writeExpr_reads sf rf r d' hd' hs.2
        have hw := (hx.append hx').elem .expressions
        rw [List.append_assoc] at hw
        obtain ⟨y, hy, hq⟩ := operator_read (rf := rf) (p := p) (xs := [x, x'])
          (trees := fun sub att => (exprTree sf rf sub att l).bind fun t =>
            (exprTree sf rf sub att r).bind fun t' => .ok [t, t']) (compare_safe hn)
          hw (fun sub att => by
            rw [readExprs, readExprs, hr, hr', readExprs]
            exact bind_congr' fun t _ => by rw [bind_assoc']; rfl) hb
        refine BodyReadsAs.positioned ⟨y, hy, fun sub att => ?_⟩ he
        rw [hq]
        beta_reduce
        rw [bind_assoc', exprTree]
        exact bind_congr' fun t _ => by
          rw [bind_assoc']
          exact bind_congr' fun t' _ => compare_vertex p hn t t'
  | .subscript p e i, s, h, hs => by
    rw [writeExpr] at h
    rw [ExprSafe] at hs
    obtain ⟨b, hb, he⟩ := bind_ok h
    obtain ⟨d, hd, hc⟩ := bind_ok hb
    obtain ⟨d', hd', hc⟩ := bind_ok hc
    obtain rfl := Outcome.ok_inj hc
    obtain ⟨x, hx, hr, -⟩ := writeExpr_reads sf rf e d hd hs.1
    obtain ⟨x', hx', hr', -⟩ := writeExpr_reads sf rf i d' hd' hs.2
    have hw := (hx.append hx').elem .subscript
    rw [List.append_assoc] at hw
    refine BodyReadsAs.positioned ⟨_, hw, fun sub att => ?_⟩ he
    show readBody rf sub att p (.elem .subscript [] [x, x']) = _
    beta_reduce
    rw [readBody, hr, hr', exprTree]
  | .slice p e, s, h, hs => by
    rw [writeExpr] at h
    obtain ⟨b, hb, he⟩ := bind_ok h
    obtain ⟨d, hd, hc⟩ := bind_ok hb
    exact absurd hc (by simp)
  | .attr p e n, s, h, hs => by
    rw [writeExpr] at h
    rw [ExprSafe] at hs
    obtain ⟨b, hb, he⟩ := bind_ok h
    obtain ⟨d, hd, hc⟩ := bind_ok hb
    obtain rfl := Outcome.ok_inj hc
    obtain ⟨x, hx, hr, -⟩ := writeExpr_reads sf rf e d hd hs.1
    have hw := (hx.append (writes_identifier hs.2)).elem .attribute
    rw [List.append_assoc] at hw
    refine BodyReadsAs.positioned ⟨_, hw, fun sub att => ?_⟩ he
    show readBody rf sub att p (.elem .attribute [] [x, .elem .name [] (textXml n)]) = _
    beta_reduce
    rw [readBody, hr, readTextOf_textXml, exprTree]
    rfl
  | .other p k, s, h, hs => by exact absurd h (by simp [writeExpr])

theorem writeExprs_reads (sf : Rat → Str) (rf : Str → Option Rat) : ∀ (es : List PyExpr) (s : Str),
    writeExprs sf es = .ok s → ExprsSafe sf es → ListReadsAs rf s fun sub att => exprsTree sf rf sub att es
  | [], s, h, hs => by
    obtain rfl := Outcome.ok_inj h
    exact ⟨[], Writes.nil, fun sub att => rfl⟩
  | e :: es, s, h, hs => by
    rw [writeExprs] at h
    rw [ExprsSafe] at hs
    obtain ⟨a, ha, h⟩ := bind_ok h
    obtain ⟨b, hb, h⟩ := bind_ok h
    obtain rfl := Outcome.ok_inj h
    obtain ⟨x, hx, hr, -⟩ := writeExpr_reads sf rf e a ha hs.1
    obtain ⟨xs, hxs, hrs⟩ := writeExprs_reads sf rf es b hb hs.2
    refine ⟨_, hx.append hxs, fun sub att => ?_⟩
    beta_reduce
    rw [List.cons_append, List.nil_append, readExprs, hr, hrs, exprsTree]

end

/-! ## Statements -/

def StmtReadsAs (rf : Str → Option Rat) (s : Str) (tree : Outcome TreeStmt) : Prop :=
  ∃ x, Writes s [x] ∧ readStmt rf x = tree

def StmtsReadAs (rf : Str → Option Rat) (s : Str) (trees : Outcome (List TreeStmt)) : Prop :=
  ∃ xs, Writes s xs ∧ readStmts rf xs = trees

theorem stmt_positioned {rf : Str → Option Rat} {p : Pos} {s b : Str} {x : Xml} {tree : Outcome TreeStmt}
    (hx : Writes b [x]) (hr : readStmtBody rf p x = tree)
    (e : positioned .statement p (.ok b) = .ok s) : StmtReadsAs rf s tree := by
  obtain rfl := Outcome.ok_inj e
  refine ⟨_, hx.position .statement p, ?_⟩
  rw [readStmt, readPos_posAttributes, ok_bind, hr]

theorem statements_read {rf : Str → Option Rat} {es : List PyStmt} {r : Outcome Str} {s : Str}
    {trees : Outcome (List TreeStmt)}
    (h : ∀ b, r = .ok b → StmtsReadAs rf b trees) (hn : es = [] → trees = .ok [])
    (e : writeStatements es r = .ok s) :
    ∃ xs, Writes s [.elem .statements [] xs] ∧ readStmts rf xs = trees := by
  cases es with
  | nil =>
    obtain rfl := Outcome.ok_inj e
    exact ⟨[], Writes.empty .statements, by rw [hn rfl]; rfl⟩
  | cons a as =>
    obtain ⟨b, rfl, hb⟩ := bind_ok e
    obtain rfl := Outcome.ok_inj hb
    obtain ⟨xs, hx, hr⟩ := h b rfl
    exact ⟨xs, hx.elem .statements, hr⟩

theorem isEmpty_ite {α β : Type} (l : List α) (a b : β) :
    (if l.isEmpty = true then a else b) = if l = [] then a else b := by
  cases l <;> rfl

/-- Every element read by `readExpr` without an error is an expression. -/
theorem readStmtBody_expr {rf : Str → Option Rat} {p : Pos} {x : Xml}
    (h : ∃ as c, x = .elem .expression as c) :
    readStmtBody rf p x = (readExpr rf false false x).bind fun e => .ok (.expr (e.setPos p)) := by
  obtain ⟨as, c, rfl⟩ := h
  rw [readStmtBody]

mutual

theorem writeStmt_reads (sf : Rat → Str) (rf : Str → Option Rat) : ∀ (e : PyStmt) (s : Str),
    writeStmt sf e = .ok s → StmtSafe sf e → StmtReadsAs rf s (stmtTree sf rf e)
  | .expr p e, s, h, hs => by
    rw [writeStmt] at h
    rw [StmtSafe] at hs
    obtain ⟨b, hb, he⟩ := bind_ok h
    obtain ⟨x, hx, hr, hel⟩ := writeExpr_reads sf rf e b hb hs
    refine stmt_positioned hx ?_ he
    rw [readStmtBody_expr hel, hr, stmtTree]
  | .assign p t more v, s, h, hs => by
    rw [writeStmt] at h
    rw [StmtSafe] at hs
    obtain ⟨b, hb, he⟩ := bind_ok h
    split at hb
    · obtain ⟨d, hd, hc⟩ := bind_ok hb
      obtain ⟨d', hd', hc⟩ := bind_ok hc
      obtain rfl := Outcome.ok_inj hc
      obtain ⟨x, hx, hr, -⟩ := writeExpr_reads sf rf t d hd hs.1
      obtain ⟨x', hx', hr', -⟩ := writeExpr_reads sf rf v d' hd' hs.2
      have hw := (hx.append hx').elem .assignment
      rw [List.append_assoc] at hw
      refine stmt_positioned hw ?_ he
      show readStmtBody rf p (.elem .assignment [] [x, x']) = _
      rw [readStmtBody, hr, hr', stmtTree]
    · exact absurd hb (by simp)
  | .ifElse p c t f, s, h, hs => by
    rw [writeStmt] at h
    rw [StmtSafe] at hs
    obtain ⟨b, hb, he⟩ := bind_ok h
    obtain ⟨a, ha, hb⟩ := bind_ok hb
    obtain ⟨d, hd, hb⟩ := bind_ok hb
    obtain ⟨g, hg, hb⟩ := bind_ok hb
    obtain rfl := Outcome.ok_inj hb
    obtain ⟨x, hx, hr, -⟩ := writeExpr_reads sf rf c a ha hs.1
    obtain ⟨xs, hxs, hrs⟩ := statements_read (fun b hb => writeStmts_reads sf rf t b hb hs.2.1)
      (by rintro rfl; rfl) hd
    obtain ⟨ys, hys, hry⟩ := statements_read (fun b hb => writeStmts_reads sf rf f b hb hs.2.2)
      (by rintro rfl; rfl) hg
    have hw := (hx.append (hxs.append hys)).elem .if
    rw [List.append_assoc, List.append_assoc] at hw
    refine stmt_positioned hw ?_ he
    show readStmtBody rf p (.elem .if [] [x, .elem .statements [] xs, .elem .statements [] ys]) = _
    rw [readStmtBody, hr, hrs, hry, stmtTree]
    exact bind_congr' fun c' _ => bind_congr' fun t' _ => isEmpty_ite _ _ _
  | .while p c t f, s, h, hs => by
    rw [writeStmt] at h
    rw [StmtSafe] at hs
    obtain ⟨b, hb, he⟩ := bind_ok h
    obtain ⟨a, ha, hb⟩ := bind_ok hb
    obtain ⟨d, hd, hb⟩ := bind_ok hb
    obtain ⟨g, hg, hb⟩ := bind_ok hb
    obtain rfl := Outcome.ok_inj hb
    obtain ⟨x, hx, hr, -⟩ := writeExpr_reads sf rf c a ha hs.1
    obtain ⟨xs, hxs, hrs⟩ := statements_read (fun b hb => writeStmts_reads sf rf t b hb hs.2.1)
      (by rintro rfl; rfl) hd
    obtain ⟨ys, hys, hry⟩ := statements_read (fun b hb => writeStmts_reads sf rf f b hb hs.2.2)
      (by rintro rfl; rfl) hg
    have hw := (hx.append (hxs.append hys)).elem .while
    rw [List.append_assoc, List.append_assoc] at hw
    refine stmt_positioned hw ?_ he
    show readStmtBody rf p (.elem .while [] [x, .elem .statements [] xs, .elem .statements [] ys]) = _
    rw [readStmtBody, hr, hrs, hry, stmtTree]
    exact bind_congr' fun c' _ => bind_congr' fun t' _ => isEmpty_ite _ _ _
  | .function p n args ds es r body, s, h, hs => by
    rw [writeStmt] at h
    rw [StmtSafe] at hs
    obtain ⟨b, hb, he⟩ := bind_ok h
    obtain ⟨a, ha, hb⟩ := bind_ok hb
    obtain ⟨d, hd, hb⟩ := bind_ok hb
    obtain rfl := Outcome.ok_inj hb
    obtain ⟨xs, hxs, hrs⟩ := expressions_read (rf := rf)
      (trees := fun sub att => exprsTree sf rf sub att args)
      (fun b hb => writeExprs_reads sf rf args b hb hs.2.1) (by rintro rfl sub att; rfl) ha
    obtain ⟨ys, hys, hry⟩ := statements_read (fun b hb => writeStmts_reads sf rf body b hb hs.2.2)
      (by rintro rfl; rfl) hd
    have hw := ((writes_identifier hs.1).append (hxs.append hys)).elem .functionDefinition
    rw [List.append_assoc, List.append_assoc] at hw
    refine stmt_positioned hw ?_ he
    show readStmtBody rf p (.elem .functionDefinition []
      [.elem .name [] (textXml n), .elem .expressions [] xs, .elem .statements [] ys]) = _
    rw [readStmtBody, readTextOf_textXml, ok_bind, hrs, hry, stmtTree]
    exact bind_congr' fun c' _ => bind_congr' fun t' _ => isEmpty_ite _ _ _
  | .retNone p, s, h, hs => by
    rw [writeStmt] at h
    refine stmt_positioned (Writes.empty .return) ?_ h
    rfl
  | .ret p e, s, h, hs => by
    rw [writeStmt] at h
    rw [StmtSafe] at hs
    obtain ⟨b, hb, he⟩ := bind_ok h
    obtain ⟨a, ha, hb⟩ := bind_ok hb
    obtain rfl := Outcome.ok_inj hb
    obtain ⟨x, hx, hr, -⟩ := writeExpr_reads sf rf e a ha hs
    refine stmt_positioned (hx.elem .return) ?_ he
    rw [readStmtBody, hr, stmtTree]
  | .other p k, s, h, hs => by exact absurd h (by simp [writeStmt])

theorem writeStmts_reads (sf : Rat → Str) (rf : Str → Option Rat) : ∀ (ss : List PyStmt) (s : Str),
    writeStmts sf ss = .ok s → StmtsSafe sf ss → StmtsReadAs rf s (stmtsTree sf rf ss)
  | [], s, h, hs => by
    obtain rfl := Outcome.ok_inj h
    exact ⟨[], Writes.nil, rfl⟩
  | e :: es, s, h, hs => by
    rw [writeStmts] at h
    rw [StmtsSafe] at hs
    obtain ⟨a, ha, h⟩ := bind_ok h
    obtain ⟨b, hb, h⟩ := bind_ok h
    obtain rfl := Outcome.ok_inj h
    obtain ⟨x, hx, hr⟩ := writeStmt_reads sf rf e a ha hs.1
    obtain ⟨xs, hxs, hrs⟩ := writeStmts_reads sf rf es b hb hs.2
    refine ⟨_, hx.append hxs, ?_⟩
    rw [List.cons_append, List.nil_append, readStmts, hr, hrs, stmtsTree]

end

end Fern.Script
