import Verif.Spec.Script
import Verif.Props.Strings

/-!
# Lemmas about scripts written as XML and read again
-/

namespace Fern.Script

open Fern Fern.Script.Spec

/-! ## Issues -/

/-- A result and the things that can go wrong on the way to it. -/
def Firsts {α : Type} (r : Outcome α) : List Issue → Prop
  | [] => ∃ a, r = .ok a
  | i :: _ => r = i.outcome

theorem Firsts.ok {α : Type} (a : α) : Firsts (.ok a) [] := ⟨a, rfl⟩

theorem Firsts.bind {α β : Type} {r : Outcome α} {f : α → Outcome β} {is js : List Issue}
    (h : Firsts r is) (hf : ∀ a, Firsts (f a) js) : Firsts (r.bind f) (is ++ js) := by
  cases is with
  | nil =>
    obtain ⟨a, rfl⟩ := h
    exact hf a
  | cons i is =>
    have h' : r = i.outcome := h
    subst h'
    cases i <;> rfl

theorem Firsts.map {α β : Type} {r : Outcome α} {f : α → β} {is : List Issue}
    (h : Firsts r is) : Firsts (r.bind fun a => .ok (f a)) is := by
  have := Firsts.bind (js := []) h (fun a => Firsts.ok (f a))
  rwa [List.append_nil] at this

theorem Firsts.positioned {t : Tag} {p : Pos} {r : Outcome Str} {is : List Issue} (h : Firsts r is) :
    Firsts (positioned t p r) is := h.map

theorem Firsts.writeOperator {n : Str} {r : Outcome Str} {is : List Issue} (h : Firsts r is) :
    Firsts (writeOperator n r) is := h.map

theorem exprConstruct_eq (k : OtherExpr) : k.text = (exprConstruct k).toList := by cases k <;> rfl

theorem stmtConstruct_eq (k : OtherStmt) : k.text = (stmtConstruct k).toList := by cases k <;> rfl

theorem firsts_expressions {es : List PyExpr} {r : Outcome Str} (h : Firsts r (exprsIssues es)) :
    Firsts (writeExpressions es r) (exprsIssues es) := by
  cases es with
  | nil => exact Firsts.ok _
  | cons e es => exact h.map

theorem firsts_statements {es : List PyStmt} {r : Outcome Str} (h : Firsts r (stmtsIssues es)) :
    Firsts (writeStatements es r) (stmtsIssues es) := by
  cases es with
  | nil => exact Firsts.ok _
  | cons e es => exact h.map

theorem firsts_callee {β : Type} (f : PyExpr) {g : Str → Outcome β} {is : List Issue}
    (h : ∀ a, Firsts (g a) is) : Firsts ((writeCallee f).bind g) (assertUnless (IsName f) ++ is) := by
  cases f <;> first | exact h _ | exact rfl

mutual

theorem writeExpr_firsts (sf : Rat → Str) : ∀ e : PyExpr, Firsts (writeExpr sf e) (exprIssues e)
  | .name p n => Firsts.ok _
  | .num p v => by cases v <;> first | exact Firsts.ok _ | exact rfl
  | .str p s => Firsts.ok _
  | .unicode p s => rfl
  | .call p f args more => by
    rw [writeExpr, exprIssues]
    refine Firsts.positioned ?_
    cases more with
    | true => exact rfl
    | false => exact firsts_callee f fun a => (firsts_expressions (writeExprs_firsts sf args)).map
  | .unary p op e => by
    rw [writeExpr, exprIssues]
    exact ((writeExpr_firsts sf e).map).writeOperator.positioned
  | .binary p l op r => by
    rw [writeExpr, exprIssues]
    exact ((writeExpr_firsts sf l).bind fun a => (writeExpr_firsts sf r).map).writeOperator.positioned
  | .bool p op es => by
    rw [writeExpr, exprIssues]
    exact (firsts_expressions (writeExprs_firsts sf es)).writeOperator.positioned
  | .compare p l op r more => by
    rw [writeExpr, exprIssues]
    refine Firsts.positioned ?_
    have h := (writeExpr_firsts sf l).bind (f := fun a => (writeExpr sf r).bind fun b =>
      .ok (startTag .expressions ++ (a ++ (b ++ endTag .expressions)))) fun a => (writeExpr_firsts sf r).map
    cases more with
    | true => exact rfl
    | false => cases op <;> first | exact rfl | exact h.writeOperator
  | .subscript p e i => by
    rw [writeExpr, exprIssues]
    exact ((writeExpr_firsts sf e).bind fun a => (writeExpr_firsts sf i).map).positioned
  | .slice p e => by
    rw [writeExpr, exprIssues]
    exact ((writeExpr_firsts sf e).bind (js := [.assertion]) (f := fun _ => .assertion) fun a => rfl).positioned
  | .attr p e n => by
    rw [writeExpr, exprIssues]
    exact ((writeExpr_firsts sf e).map).positioned
  | .other p k => by
    rw [writeExpr, exprIssues, exprConstruct_eq]
    rfl

theorem writeExprs_firsts (sf : Rat → Str) :
    ∀ es : List PyExpr, Firsts (writeExprs sf es) (exprsIssues es)
  | [] => Firsts.ok _
  | e :: es => by
    rw [writeExprs, exprsIssues]
    exact (writeExpr_firsts sf e).bind fun a => (writeExprs_firsts sf es).map

end

mutual

theorem writeStmt_firsts (sf : Rat → Str) : ∀ s : PyStmt, Firsts (writeStmt sf s) (stmtIssues s)
  | .expr p e => by
    rw [writeStmt, stmtIssues]
    exact (writeExpr_firsts sf e).positioned
  | .assign p t more v => by
    rw [writeStmt, stmtIssues]
    refine Firsts.positioned ?_
    cases t <;> cases more <;>
      first
      | exact rfl
      | (rw [if_pos (by rfl)]; exact (show Firsts (writeExpr sf (.name _ _)) [] from Firsts.ok _).bind fun a => (writeExpr_firsts sf v).map)
  | .ifElse p c t f => by
    rw [writeStmt, stmtIssues]
    exact ((writeExpr_firsts sf c).bind fun a => (firsts_statements (writeStmts_firsts sf t)).bind
      fun b => (firsts_statements (writeStmts_firsts sf f)).map).positioned
  | .while p c t f => by
    rw [writeStmt, stmtIssues]
    exact ((writeExpr_firsts sf c).bind fun a => (firsts_statements (writeStmts_firsts sf t)).bind
      fun b => (firsts_statements (writeStmts_firsts sf f)).map).positioned
  | .function p n args d e r body => by
    rw [writeStmt, stmtIssues]
    exact ((firsts_expressions (writeExprs_firsts sf args)).bind fun a =>
      (firsts_statements (writeStmts_firsts sf body)).map).positioned
  | .retNone p => Firsts.ok _
  | .ret p e => by
    rw [writeStmt, stmtIssues]
    exact ((writeExpr_firsts sf e).map).positioned
  | .other p k => by
    rw [writeStmt, stmtIssues, stmtConstruct_eq]
    rfl

theorem writeStmts_firsts (sf : Rat → Str) :
    ∀ ss : List PyStmt, Firsts (writeStmts sf ss) (stmtsIssues ss)
  | [] => Firsts.ok _
  | s :: ss => by
    rw [writeStmts, stmtsIssues]
    exact (writeStmt_firsts sf s).bind fun a => (writeStmts_firsts sf ss).map

end

/-! ## Characters -/

theorem safe_xmlChar {s : Str} (h : Safe s) : s.all xmlChar = true := by
  rw [List.all_eq_true]
  intro c hc
  obtain ⟨-, -, -, h⟩ := h.1 c hc
  unfold xmlChar
  rcases h with rfl | rfl | ⟨h1, h2, h3⟩
  · rfl
  · rfl
  · simp [h1, h2, h3]

theorem decode_plain {s : Str} (h : ∀ c ∈ s, c ≠ '<' ∧ c ≠ '&') : decode none s = some s := by
  induction s with
  | nil => rfl
  | cons c cs ih =>
    have hc := h c (by simp)
    rw [decode, if_neg hc.2, if_neg hc.1, ih fun d hd => h d (by simp [hd])]
    rfl

theorem lineEnds_plain {s : Str} (h : ∀ c ∈ s, c ≠ '\r') : lineEnds s = s := by
  induction s with
  | nil => rfl
  | cons c cs ih => rw [lineEnds, if_neg (h c (by simp)), ih fun d hd => h d (by simp [hd])]

theorem containsSub_iff (s sub : Str) : containsSub s sub = true ↔ ∃ a b, s = a ++ sub ++ b := by
  induction s with
  | nil =>
    rw [containsSub, List.isEmpty_iff]
    constructor
    · rintro rfl
      exact ⟨[], [], rfl⟩
    · rintro ⟨a, b, h⟩
      have h' := h.symm
      simp only [List.append_eq_nil_iff] at h'
      exact h'.1.2
  | cons c cs ih =>
    rw [containsSub, Bool.or_eq_true, ih, startsWith, List.isPrefixOf_iff_prefix]
    constructor
    · rintro (⟨b, h⟩ | ⟨a, b, rfl⟩)
      · exact ⟨[], b, by simpa using h.symm⟩
      · exact ⟨c :: a, b, rfl⟩
    · rintro ⟨a, b, h⟩
      cases a with
      | nil => exact Or.inl ⟨b, by simpa using h.symm⟩
      | cons d a =>
        simp only [List.cons_append, List.cons.injEq] at h
        exact Or.inr ⟨a, b, h.2⟩

theorem textValue_safe {s : Str} (h : Safe s) : textValue s = some s := by
  have hc : containsSub s "]]>".toList = false := by
    rw [Bool.eq_false_iff]
    intro hc
    obtain ⟨a, b, e⟩ := (containsSub_iff _ _).1 hc
    exact h.2 a b e
  rw [textValue, safe_xmlChar h, hc, lineEnds_plain fun c hc => (h.1 c hc).2.2.1]
  exact decode_plain fun c hc => ⟨(h.1 c hc).1, (h.1 c hc).2.1⟩

theorem cString_safe {s : Str} (h : Safe s) : cString s = s := by
  unfold cString
  rw [List.takeWhile_eq_self_iff]
  intro c hc
  obtain ⟨-, -, -, h⟩ := h.1 c hc
  rw [decide_eq_true_eq]
  rintro rfl
  revert h
  decide

/-! ## Tags -/

/-- Reading the text leads to the tokens. -/
def Lexes (s : Str) (ts : List XmlToken) : Prop :=
  ∀ rest, lex (.text []) (s ++ rest) = (lex (.text []) rest).map (ts ++ ·)

theorem Lexes.append {s s' : Str} {ts ts' : List XmlToken} (h : Lexes s ts) (h' : Lexes s' ts') :
    Lexes (s ++ s') (ts ++ ts') := by
  intro rest
  rw [List.append_assoc, h, h', Option.map_map]
  congr 1
  funext l
  simp

theorem Lexes.nil : Lexes [] [] := by
  intro rest
  simp

theorem lex_tag {s : Str} (h : ∀ c ∈ s, c ≠ '>' ∧ c ≠ '"') (acc r : Str) :
    lex (.tag acc) (s ++ r) = lex (.tag (s.reverse ++ acc)) r := by
  induction s generalizing acc with
  | nil => rfl
  | cons c cs ih =>
    have hc := h c (by simp)
    rw [List.cons_append, lex, if_neg hc.1, if_neg hc.2, ih fun d hd => h d (by simp [hd])]
    simp

theorem lex_quoted {s : Str} (h : ∀ c ∈ s, c ≠ '"') (acc r : Str) :
    lex (.quoted acc) (s ++ '"' :: r) = lex (.tag ('"' :: (s.reverse ++ acc))) r := by
  induction s generalizing acc with
  | nil => rw [List.nil_append, lex, if_pos rfl]; rfl
  | cons c cs ih =>
    rw [List.cons_append, lex, if_neg (h c (by simp)), ih fun d hd => h d (by simp [hd])]
    simp

theorem lex_quote (acc r : Str) : lex (.tag acc) ('"' :: r) = lex (.quoted ('"' :: acc)) r := by
  rw [lex, if_neg (by decide), if_pos rfl]

theorem lex_close (acc r : Str) :
    lex (.tag acc) ('>' :: r) = (tagToken acc.reverse).bind fun t => (lex (.text []) r).map (t :: ·) := by
  rw [lex, if_pos rfl]

theorem lex_open (acc r : Str) : lex (.text acc) ('<' :: r) =
    (textTokens acc.reverse).bind fun ts => (lex (.tag []) r).map (ts ++ ·) := by
  rw [lex, if_pos rfl]

theorem lex_open_nil (r : Str) : lex (.text []) ('<' :: r) = lex (.tag []) r := by
  rw [lex_open]
  show (lex (.tag []) r).map ([] ++ ·) = _
  simp

theorem lex_text {s : Str} (h : ∀ c ∈ s, c ≠ '<') (acc r : Str) :
    lex (.text acc) (s ++ r) = lex (.text (s.reverse ++ acc)) r := by
  induction s generalizing acc with
  | nil => rfl
  | cons c cs ih =>
    rw [List.cons_append, lex, if_neg (h c (by simp)), ih fun d hd => h d (by simp [hd])]
    simp

theorem tag_chars (t : Tag) : ∀ c ∈ t.text, c ≠ '>' ∧ c ≠ '"' ∧ c ≠ ' ' ∧ c ≠ '/' := by
  cases t <;> decide

theorem tag_ne (t : Tag) : t.text ≠ [] := by cases t <;> decide

theorem tagOf_text (t : Tag) : tagOf t.text = some t := by cases t <;> decide

theorem openTag_attrs (t : Tag) {r : Str} {as : List (Str × Str)}
    (h : readAttributes .between (' ' :: r) = some as) :
    openTag (t.text ++ ' ' :: r) = some (t, as) := by
  have hc := tag_chars t
  have e1 : (t.text ++ ' ' :: r).takeWhile (fun c => decide (c ≠ ' ')) = t.text := by
    rw [List.takeWhile_append_of_pos (fun c hm => decide_eq_true (hc c hm).2.2.1)]
    simp
  have e2 : (t.text ++ ' ' :: r).dropWhile (fun c => decide (c ≠ ' ')) = ' ' :: r := by
    rw [List.dropWhile_append_of_pos (fun c hm => decide_eq_true (hc c hm).2.2.1)]
    simp
  rw [openTag, e1, e2, tagOf_text, h]
  rfl

theorem openTag_plain (t : Tag) : openTag t.text = some (t, []) := by
  have hc := tag_chars t
  have e1 : t.text.takeWhile (fun c => decide (c ≠ ' ')) = t.text := by
    rw [List.takeWhile_eq_self_iff]
    exact fun c hm => decide_eq_true (hc c hm).2.2.1
  have e2 : t.text.dropWhile (fun c => decide (c ≠ ' ')) = [] := by
    rw [List.dropWhile_eq_nil_iff]
    exact fun c hm => decide_eq_true (hc c hm).2.2.1
  rw [openTag, e1, e2, tagOf_text]
  rfl

theorem head_tag (t : Tag) (r : Str) : (t.text ++ r).head? ≠ some '/' := by
  have hc := tag_chars t
  cases e : t.text with
  | nil => exact absurd e (tag_ne t)
  | cons c cs =>
    intro h
    exact (hc c (by rw [e]; simp)).2.2.2 (by simpa using h)

theorem lexes_start (t : Tag) : Lexes (startTag t) [.start t []] := by
  intro rest
  have hc := tag_chars t
  rw [startTag, List.cons_append, lex_open_nil, List.append_assoc,
    lex_tag fun c hm => ⟨(hc c hm).1, (hc c hm).2.1⟩, List.cons_append, lex_close, List.append_nil,
    List.reverse_reverse, tagToken, if_neg (by simpa using head_tag t []), if_neg, openTag_plain]
  · rfl
  · intro e
    exact (hc '/' (List.mem_of_getLast? e)).2.2.2 rfl

theorem lexes_stop (t : Tag) : Lexes (endTag t) [.stop t] := by
  intro rest
  have hc := tag_chars t
  rw [endTag, List.cons_append, lex_open_nil, List.cons_append, List.append_assoc,
    show ('/' :: (t.text ++ (['>'] ++ rest))) = ('/' :: t.text) ++ ('>' :: rest) from rfl,
    lex_tag, lex_close, List.append_nil, List.reverse_reverse, tagToken, if_pos (by rfl), List.tail_cons,
    tagOf_text]
  · rfl
  · intro c hm
    rcases List.mem_cons.1 hm with rfl | hm
    · decide
    · exact ⟨(hc c hm).1, (hc c hm).2.1⟩

theorem lexes_empty (t : Tag) : Lexes (emptyTag t) [.empty t []] := by
  intro rest
  have hc := tag_chars t
  rw [emptyTag, List.cons_append, lex_open_nil,
    show (t.text ++ ['/', '>'] ++ rest) = (t.text ++ ['/']) ++ ('>' :: rest) by simp,
    lex_tag, lex_close, List.append_nil, List.reverse_reverse, tagToken, if_neg (head_tag t _),
    if_pos (by simp), List.dropLast_concat, openTag_plain]
  · rfl
  · intro c hm
    rcases List.mem_append.1 hm with hm | hm
    · exact ⟨(hc c hm).1, (hc c hm).2.1⟩
    · rw [List.mem_singleton] at hm
      subst hm
      decide

/-! ## Numbers -/

theorem digit_mem {n : Nat} {c : Char} (h : c ∈ natText n) : c.isDigit = true :=
  Nat.isDigit_of_mem_toDigits (by decide) (by decide) h

theorem isDigit_range {c : Char} (h : c.isDigit = true) : 48 ≤ c.toNat ∧ c.toNat ≤ 57 := by
  simp only [Char.isDigit, Bool.and_eq_true, decide_eq_true_eq, UInt32.le_iff_toNat_le] at h
  exact h

theorem digit_plain {c : Char} (h : c.isDigit = true) :
    c ≠ '<' ∧ c ≠ '&' ∧ c ≠ '\r' ∧ c ≠ '"' ∧ c ≠ '\t' ∧ c ≠ '\n' ∧ c ≠ ']' ∧ c ≠ '-' ∧ c ≠ '+' := by
  refine ⟨?_, ?_, ?_, ?_, ?_, ?_, ?_, ?_, ?_⟩ <;>
  · rintro rfl
    revert h
    decide

theorem safe_of_chars {s : Str} (h : ∀ c ∈ s, c.isDigit = true ∨ c = '-') : Safe s := by
  refine ⟨fun c hc => ?_, ?_⟩
  · rcases h c hc with hd | rfl
    · have hr := isDigit_range hd
      have hp := digit_plain hd
      exact ⟨hp.1, hp.2.1, hp.2.2.1, Or.inr (Or.inr ⟨by omega, by omega, by omega⟩)⟩
    · decide
  · rintro a b rfl
    rcases h ']' (by simp) with hd | hd
    · revert hd
      decide
    · revert hd
      decide

theorem natText_safe (n : Nat) : Safe (natText n) := safe_of_chars fun _ hc => Or.inl (digit_mem hc)

theorem formatInt_safe (v : Int) : Safe (formatInt v) := by
  refine safe_of_chars fun c hc => ?_
  unfold formatInt at hc
  split at hc
  · rcases List.mem_cons.1 hc with rfl | hc
    · exact Or.inr rfl
    · exact Or.inl (digit_mem hc)
  · exact Or.inl (digit_mem hc)

theorem natText_ne (n : Nat) : natText n ≠ [] := Nat.toDigits_ne_nil

theorem readNat_natText (n : Nat) : readNat (natText n) = some n := by
  rw [readNat, if_pos ⟨natText_ne n, List.all_eq_true.2 fun c hc => digit_mem hc⟩, natText,
    Nat.ofDigitChars_ten_toDigits]

theorem readInteger_formatInt (v : Int) : readInteger (formatInt v) = some v := by
  unfold formatInt
  split
  · rename_i h
    rw [readInteger, if_pos rfl]
    have := readNat_natText v.natAbs
    unfold natText at this
    rw [this, Option.map_some]
    congr 1
    omega
  · rename_i h
    have hn := readNat_natText v.natAbs
    unfold natText at hn
    cases e : Nat.toDigits 10 v.natAbs with
    | nil => exact absurd e Nat.toDigits_ne_nil
    | cons c cs =>
      have hd : c.isDigit = true := digit_mem (n := v.natAbs) (by unfold natText; rw [e]; simp)
      have hp := digit_plain hd
      rw [e] at hn
      rw [readInteger, if_neg hp.2.2.2.2.2.2.2.1, if_neg hp.2.2.2.2.2.2.2.2, hn, Option.map_some]
      congr 1
      omega

theorem attributeValue_digits (n : Nat) : attributeValue (natText n) = some (natText n) := by
  have hs := natText_safe n
  rw [attributeValue, if_pos (safe_xmlChar hs), lineEnds_plain fun c hc => (hs.1 c hc).2.2.1]
  have e : (natText n).map (fun c => if c = '\t' ∨ c = '\n' then ' ' else c) = natText n := by
    conv_rhs => rw [← List.map_id (natText n)]
    refine List.map_congr_left fun c hc => ?_
    have hp := digit_plain (digit_mem hc)
    rw [if_neg (by rintro (h | h); exacts [hp.2.2.2.2.1 h, hp.2.2.2.2.2.1 h])]
    rfl
  rw [e]
  exact decode_plain fun c hc => ⟨(hs.1 c hc).1, (hs.1 c hc).2.1⟩

/-! ## Attributes -/

theorem readAttributes_value {s : Str} (h : ∀ c ∈ s, c ≠ '"') (n acc r : Str) :
    readAttributes (.value n acc) (s ++ '"' :: r) = (attributeValue (acc.reverse ++ s)).bind fun v =>
      (readAttributes .between r).map ((n, v) :: ·) := by
  induction s generalizing acc with
  | nil => rw [List.nil_append, readAttributes, if_pos rfl, List.append_nil]
  | cons c cs ih =>
    rw [List.cons_append, readAttributes, if_neg (h c (by simp)), ih fun d hd => h d (by simp [hd])]
    simp

theorem readAttributes_line (r : Str) :
    readAttributes .between (" line=\"".toList ++ r) = readAttributes (.value "line".toList []) r := rfl

theorem readAttributes_col (r : Str) :
    readAttributes .between (" col=\"".toList ++ r) = readAttributes (.value "col".toList []) r := rfl

theorem readAttributes_source (r : Str) :
    readAttributes .between (" source=\"".toList ++ r) = readAttributes (.value "source".toList []) r :=
  rfl

/-- The attributes for a position. -/
def posAttributes (p : Pos) : List (Str × Str) :=
  [("line".toList, natText p.line), ("col".toList, natText p.col)]

theorem readPos_posAttributes (p : Pos) : readPos (posAttributes p) = .ok p := by
  rw [posAttributes, readPos, if_pos ⟨rfl, rfl⟩, readNat_natText, readNat_natText]
  rfl

theorem natText_noQuote (n : Nat) : ∀ c ∈ natText n, c ≠ '"' :=
  fun _ hc => (digit_plain (digit_mem hc)).2.2.2.1

theorem lexes_position (t : Tag) (p : Pos) : Lexes (positionTag t p) [.start t (posAttributes p)] := by
  intro rest
  have hc := tag_chars t
  have e : positionTag t p ++ rest = '<' :: ((t.text ++ " line=".toList) ++ ('"' :: (natText p.line ++
      ('"' :: (" col=".toList ++ ('"' :: (natText p.col ++ ('"' :: ('>' :: rest))))))))) := by
    unfold positionTag
    have e1 : " line=\"".toList = " line=".toList ++ ['"'] := rfl
    have e2 : "\" col=\"".toList = ['"'] ++ (" col=".toList ++ ['"']) := rfl
    have e3 : "\">".toList = ['"'] ++ ['>'] := rfl
    rw [e1, e2, e3]
    simp only [List.append_assoc, List.cons_append, List.nil_append]
  rw [e, lex_open_nil, lex_tag, lex_quote, lex_quoted (natText_noQuote _), lex_tag, lex_quote,
    lex_quoted (natText_noQuote _), lex_close]
  · have hr : ('"' :: ((natText p.col).reverse ++ '"' :: ((" col=".toList).reverse ++ '"' ::
        ((natText p.line).reverse ++ '"' :: ((t.text ++ " line=".toList).reverse ++ []))))).reverse =
        t.text ++ ' ' :: ("line=\"".toList ++ (natText p.line ++ ('"' :: (" col=\"".toList ++
          (natText p.col ++ ('"' :: [])))))) := by
      have e1 : " line=".toList = ' ' :: "line=".toList := rfl
      have e2 : "line=\"".toList = "line=".toList ++ ['"'] := rfl
      have e3 : " col=\"".toList = " col=".toList ++ ['"'] := rfl
      rw [e1, e2, e3]
      generalize "line=".toList = a
      generalize " col=".toList = b
      simp
    rw [hr, tagToken, if_neg (head_tag t _), if_neg, openTag_attrs t (as := posAttributes p)]
    · rfl
    · show readAttributes .between (" line=\"".toList ++ _) = _
      rw [readAttributes_line, readAttributes_value (natText_noQuote _), readAttributes_col,
        readAttributes_value (natText_noQuote _)]
      show (attributeValue (natText _)).bind _ = _
      rw [attributeValue_digits]
      show Option.map _ ((attributeValue (natText _)).bind _) = _
      rw [attributeValue_digits]
      rfl
    · intro h
      generalize "line=\"".toList = a at h
      generalize " col=\"".toList = b at h
      rw [show t.text ++ ' ' :: (a ++ (natText p.line ++ '"' :: (b ++ (natText p.col ++ ['"'])))) =
        (t.text ++ ' ' :: (a ++ (natText p.line ++ '"' :: (b ++ natText p.col)))) ++ ['"'] by simp,
        List.getLast?_concat] at h
      revert h
      decide
  · decide
  · intro c hm
    rcases List.mem_append.1 hm with hm | hm
    · exact ⟨(hc c hm).1, (hc c hm).2.1⟩
    · have : ∀ c ∈ " line=".toList, c ≠ '>' ∧ c ≠ '"' := by decide
      exact this c hm

/-! ## Elements -/

/-- Put the elements at the end of the children. -/
def XmlFrame.pushAll (f : XmlFrame) (xs : List Xml) : XmlFrame := ⟨f.t, f.as, xs.reverse ++ f.children⟩

/-- Reading the text leads to the elements. -/
def Writes (s : Str) (xs : List Xml) : Prop :=
  ∃ ts, Lexes s ts ∧ ∀ f fs rest, buildXml (f :: fs) (ts ++ rest) = buildXml (f.pushAll xs :: fs) rest

theorem Writes.nil : Writes [] [] := ⟨[], Lexes.nil, fun f fs rest => by simp [XmlFrame.pushAll]⟩

theorem Writes.append {s s' : Str} {xs xs' : List Xml} (h : Writes s xs) (h' : Writes s' xs') :
    Writes (s ++ s') (xs ++ xs') := by
  obtain ⟨ts, h1, h2⟩ := h
  obtain ⟨ts', h1', h2'⟩ := h'
  refine ⟨ts ++ ts', h1.append h1', fun f fs rest => ?_⟩
  rw [List.append_assoc, h2, h2']
  simp [XmlFrame.pushAll]

theorem writes_start {s : Str} {as : List (Str × Str)} {t : Tag} (hs : Lexes s [.start t as]) {b : Str}
    {xs : List Xml} (h : Writes b xs) : Writes (s ++ (b ++ endTag t)) [.elem t as xs] := by
  obtain ⟨ts, h1, h2⟩ := h
  refine ⟨[.start t as] ++ (ts ++ [.stop t]), hs.append (h1.append (lexes_stop t)), fun f fs rest => ?_⟩
  rw [List.append_assoc, List.append_assoc, List.cons_append, List.nil_append, buildXml, h2,
    List.cons_append, List.nil_append]
  show (if t = t then _ else _) = _
  rw [if_pos rfl]
  congr 2
  simp [XmlFrame.pushAll, XmlFrame.push, XmlFrame.close]

theorem Writes.elem {b : Str} {xs : List Xml} (t : Tag) (h : Writes b xs) :
    Writes (startTag t ++ (b ++ endTag t)) [.elem t [] xs] := writes_start (lexes_start t) h

theorem Writes.position {b : Str} {xs : List Xml} (t : Tag) (p : Pos) (h : Writes b xs) :
    Writes (positionTag t p ++ (b ++ endTag t)) [.elem t (posAttributes p) xs] :=
  writes_start (lexes_position t p) h

theorem Writes.empty (t : Tag) : Writes (emptyTag t) [.elem t [] []] :=
  ⟨_, lexes_empty t, fun f fs rest => by
    rw [List.cons_append, List.nil_append, buildXml]
    rfl⟩

/-- The children of an element with only a text. -/
def textXml (s : Str) : List Xml := if s = [] then [] else [.text s]

theorem readText_textXml (s : Str) : readText (textXml s) = .ok s := by
  unfold textXml
  split
  · rename_i h
    rw [h]
    rfl
  · rfl

theorem textTokens_safe {s : Str} (h : Safe s) (hne : s ≠ []) : textTokens s = some [.text s] := by
  rw [textTokens, if_neg hne, textValue_safe h]
  rfl

theorem Writes.leaf (t : Tag) {s : Str} (h : Safe s) :
    Writes (startTag t ++ (s ++ endTag t)) [.elem t [] (textXml s)] := by
  by_cases hne : s = []
  · subst hne
    exact Writes.elem t Writes.nil
  · refine ⟨[.start t []] ++ ([.text s] ++ [.stop t]), (lexes_start t).append ?_, fun f fs rest => ?_⟩
    · intro rest
      have hend := lexes_stop t rest
      rw [List.append_assoc, lex_text fun c hc => (h.1 c hc).1, List.append_nil, endTag]
      rw [endTag] at hend
      rw [List.cons_append, lex_open_nil] at hend
      rw [List.cons_append, lex_open, List.reverse_reverse, textTokens_safe h hne, hend, Option.bind_some,
        Option.map_map]
      rfl
    · rw [textXml, if_neg hne]
      show buildXml (f :: fs) (.start t [] :: .text s :: .stop t :: rest) = _
      rw [buildXml, buildXml, buildXml, if_pos (by rfl)]
      rfl

theorem readTextOf_textXml (t : Tag) (s : Str) : readTextOf t (.elem t [] (textXml s)) = .ok s := by
  rw [readTextOf, if_pos rfl, readText_textXml]

theorem writes_identifier {n : Str} (h : Safe n) : Writes (writeIdentifier n) [.elem .name [] (textXml n)] := by
  rw [writeIdentifier, cString_safe h]
  exact Writes.leaf .name h

end Fern.Script
