import Verif.Lemmas.ScriptTree

/-!
# Lemmas about the name of the source in the XML of a script
-/

namespace Fern.Script

open Fern Fern.Script.Spec

theorem replaceAll_char (c : Char) (w s : Str) :
    replaceAll s [c] w = s.flatMap fun d => if d = c then w else [d] := by
  unfold replaceAll
  induction s with
  | nil => rw [replaceLoop]; rfl
  | cons d ds ih =>
    rw [replaceLoop, List.flatMap_cons]
    by_cases h : d = c
    · subst h
      rw [if_pos (by simp [startsWith, List.isPrefixOf]), if_pos rfl]
      show w ++ replaceLoop [d] w ds = _
      rw [ih]
    · rw [if_neg (by simp [startsWith, List.isPrefixOf, Ne.symm h]), if_neg h, ih]
      rfl

/-- The text for a character. -/
def escapeChar (c : Char) : Str :=
  if c = '&' then "&amp;".toList
  else if c = '<' then "&lt;".toList
  else if c = '>' then "&gt;".toList
  else if c = '"' then "&quot;".toList
  else if c = '\'' then "&apos;".toList
  else [c]

theorem escape_eq (s : Str) : escape s = s.flatMap escapeChar := by
  unfold escape
  rw [show "&".toList = ['&'] from rfl, show "<".toList = ['<'] from rfl, show ">".toList = ['>'] from rfl,
    show "\"".toList = ['"'] from rfl, show "'".toList = ['\''] from rfl,
    replaceAll_char, replaceAll_char, replaceAll_char, replaceAll_char, replaceAll_char,
    List.flatMap_assoc, List.flatMap_assoc, List.flatMap_assoc, List.flatMap_assoc]
  congr 1
  funext c
  unfold escapeChar
  by_cases h1 : c = '&'
  · subst h1; decide
  by_cases h2 : c = '<'
  · subst h2; decide
  by_cases h3 : c = '>'
  · subst h3; decide
  by_cases h4 : c = '"'
  · subst h4; decide
  by_cases h5 : c = '\''
  · subst h5; decide
  simp [h1, h2, h3, h4, h5]

theorem decode_escapeChar (c : Char) (r : Str) :
    decode none (escapeChar c ++ r) = (decode none r).map (c :: ·) := by
  unfold escapeChar
  split
  · rename_i h; subst h; rfl
  split
  · rename_i h; subst h; rfl
  split
  · rename_i h; subst h; rfl
  split
  · rename_i h; subst h; rfl
  split
  · rename_i h; subst h; rfl
  · rename_i h1 h2 h3 h4 h5
    rw [List.cons_append, List.nil_append, decode, if_neg h1, if_neg h2]

theorem decode_escape (s : Str) : decode none (escape s) = some s := by
  rw [escape_eq]
  induction s with
  | nil => rfl
  | cons c cs ih => rw [List.flatMap_cons, decode_escapeChar, ih]; rfl

theorem escape_chars {s : Str} (h : SafeSource s) : ∀ c ∈ escape s,
    c ≠ '"' ∧ 32 ≤ c.toNat ∧ c.toNat ≠ 0xFFFE ∧ c.toNat ≠ 0xFFFF := by
  intro c hc
  rw [escape_eq, List.mem_flatMap] at hc
  obtain ⟨d, hd, hc⟩ := hc
  have hd' := h d hd
  unfold escapeChar at hc
  split at hc
  · revert c; decide
  split at hc
  · revert c; decide
  split at hc
  · revert c; decide
  split at hc
  · revert c; decide
  split at hc
  · revert c; decide
  · rename_i h1 h2 h3 h4 h5
    rw [List.mem_singleton] at hc
    subst hc
    exact ⟨h4, hd'⟩

theorem space_chars {c : Char} (h : 32 ≤ c.toNat) : c ≠ '\t' ∧ c ≠ '\n' ∧ c ≠ '\r' ∧ c ≠ Char.ofNat 0 := by
  refine ⟨?_, ?_, ?_, ?_⟩ <;>
  · rintro rfl
    revert h
    decide

theorem attributeValue_escape {s : Str} (h : SafeSource s) : attributeValue (escape s) = some s := by
  have hc := escape_chars h
  rw [attributeValue, if_pos, lineEnds_plain fun c hm => (space_chars (hc c hm).2.1).2.2.1]
  · have e : (escape s).map (fun c => if c = '\t' ∨ c = '\n' then ' ' else c) = escape s := by
      conv_rhs => rw [← List.map_id (escape s)]
      refine List.map_congr_left fun c hm => ?_
      have hp := space_chars (hc c hm).2.1
      rw [if_neg (by rintro (h | h); exacts [hp.1 h, hp.2.1 h])]
      rfl
    rw [e, decode_escape]
  · rw [List.all_eq_true]
    intro c hm
    obtain ⟨-, h1, h2, h3⟩ := hc c hm
    simp [xmlChar, h1, h2, h3]

theorem cString_escape {s : Str} (h : SafeSource s) : cString (escape s) = escape s := by
  unfold cString
  rw [List.takeWhile_eq_self_iff]
  exact fun c hc => decide_eq_true (space_chars (escape_chars h c hc).2.1).2.2.2

/-- The start of the document. -/
theorem lexes_fern {s : Str} (h : SafeSource s) :
    Lexes ('<' :: (Tag.fern.text ++ (" source=\"".toList ++ (escape s ++ "\">".toList))))
      [.start .fern [("source".toList, s)]] := by
  intro rest
  have hq : ∀ c ∈ escape s, c ≠ '"' := fun c hc => (escape_chars h c hc).1
  have e : '<' :: (Tag.fern.text ++ (" source=\"".toList ++ (escape s ++ "\">".toList))) ++ rest =
      '<' :: ("Fern source=".toList ++ ('"' :: (escape s ++ ('"' :: ('>' :: rest))))) := by
    have e1 : Tag.fern.text ++ " source=\"".toList = "Fern source=".toList ++ ['"'] := rfl
    have e2 : "\">".toList = ['"', '>'] := rfl
    rw [← List.append_assoc, e1, e2]
    simp only [List.append_assoc, List.cons_append, List.nil_append]
  rw [e, lex_open_nil, lex_tag (by decide), lex_quote, lex_quoted hq, lex_close]
  have hr : ('"' :: ((escape s).reverse ++ '"' :: (("Fern source=".toList).reverse ++ []))).reverse =
      Tag.fern.text ++ ' ' :: ("source=\"".toList ++ (escape s ++ ('"' :: []))) := by
    have e1 : "Fern source=".toList = Tag.fern.text ++ ' ' :: "source=".toList := rfl
    have e2 : "source=\"".toList = "source=".toList ++ ['"'] := rfl
    rw [e1, e2]
    generalize "source=".toList = a
    simp
  rw [hr, tagToken, if_neg (head_tag .fern _), if_neg, openTag_attrs .fern (as := [("source".toList, s)])]
  · rfl
  · show readAttributes .between (" source=\"".toList ++ _) = _
    rw [readAttributes_source, readAttributes_value hq]
    show (attributeValue (escape s)).bind _ = _
    rw [attributeValue_escape h]
    rfl
  · intro h
    generalize "source=\"".toList = a at h
    rw [show Tag.fern.text ++ ' ' :: (a ++ (escape s ++ ['"'])) =
      (Tag.fern.text ++ ' ' :: (a ++ escape s)) ++ ['"'] by simp, List.getLast?_concat] at h
    revert h
    decide

theorem lex_nil : lex (.text []) [] = some [] := rfl

/-- The document for statements. -/
theorem readXml_fern {source b : Str} {x : Xml} (h : SafeSource source) (hb : Writes b [x]) :
    readXml (declaration ++ ('<' :: (Tag.fern.text ++ (" source=\"".toList ++ (cString (escape source) ++
      ("\">".toList ++ (b ++ endTag .fern))))))) = some (.elem .fern [("source".toList, source)] [x]) := by
  obtain ⟨ts, hl, ht⟩ := hb
  have hlex := ((lexes_fern h).append (hl.append (lexes_stop .fern))) []
  rw [List.append_nil, lex_nil] at hlex
  have hs : startsWith (declaration ++ ('<' :: (Tag.fern.text ++ (" source=\"".toList ++
      (escape source ++ ("\">".toList ++ (b ++ endTag .fern))))))) declaration = true := by
    rw [startsWith, List.isPrefixOf_iff_prefix]
    exact List.prefix_append _ _
  have e : '<' :: (Tag.fern.text ++ (" source=\"".toList ++ (escape source ++
      ("\">".toList ++ (b ++ endTag .fern))))) = '<' :: (Tag.fern.text ++ (" source=\"".toList ++
      (escape source ++ "\">".toList))) ++ (b ++ endTag .fern) := by
    simp only [List.append_assoc, List.cons_append]
  rw [cString_escape h, readXml, if_pos hs, List.drop_left, e, hlex, Option.map_some, Option.bind_some]
  rw [List.cons_append, List.nil_append, List.cons_append, buildXml, List.append_nil, ht]
  rfl

/-- An element with a text which is not read as it is. -/
theorem Writes.decoded (t : Tag) {s v : Str} (h : ∀ c ∈ s, c ≠ '<') (hne : s ≠ [])
    (hv : textValue s = some v) : Writes (startTag t ++ (s ++ endTag t)) [.elem t [] [.text v]] := by
  refine ⟨[.start t []] ++ ([.text v] ++ [.stop t]), (lexes_start t).append ?_, fun f fs rest => ?_⟩
  · intro rest
    have hend := lexes_stop t rest
    rw [List.append_assoc, lex_text h, List.append_nil, endTag]
    rw [endTag] at hend
    rw [List.cons_append, lex_open_nil] at hend
    rw [List.cons_append, lex_open, List.reverse_reverse, textTokens, if_neg hne, hv, hend, Option.map_some,
      Option.bind_some, Option.map_map]
    rfl
  · show buildXml (f :: fs) (.start t [] :: .text v :: .stop t :: rest) = _
    rw [buildXml, buildXml, buildXml, if_pos (by rfl)]
    rfl

/-- A script with only a string. -/
theorem parseScript_string (sf : Rat → Str) (rf : Str → Option Rat) {source : Str} (hs : SafeSource source)
    (p q : Pos) {s v : Str} (h : ∀ c ∈ cString s, c ≠ '<') (hne : cString s ≠ [])
    (hv : textValue (cString s) = some v) :
    parseScript sf rf source [.expr p (.str q s)] = .ok ⟨source, [.expr (.string p v)]⟩ := by
  have hs' : s ≠ [] := by rintro rfl; exact hne rfl
  have hw := (((Writes.decoded .string h hne hv).position .expression q).position .statement p).elem
    .statements
  have e : writeModule sf source [.expr p (.str q s)] = .ok (declaration ++ ('<' :: (Tag.fern.text ++
      (" source=\"".toList ++ (cString (escape source) ++ ("\">".toList ++ ((startTag .statements ++
        ((positionTag .statement p ++ ((positionTag .expression q ++ ((startTag .string ++ (cString s ++
          endTag .string)) ++ endTag .expression)) ++ endTag .statement)) ++ endTag .statements)) ++
            endTag .fern))))))) := by
    simp only [writeModule, writeStatements, List.isEmpty_cons, Bool.false_eq_true, if_false, writeStmts, writeStmt,
      writeExpr, writeString, if_neg hs', positioned, ok_bind, List.append_nil]
  rw [parseScript, e, ok_bind, readModule, readXml_fern hs hw, Outcome.ofOption, ok_bind, readFern, if_pos rfl,
    readStmts, readStmt, readPos_posAttributes, ok_bind, readStmtBody, readExpr, readPos_posAttributes, ok_bind,
    readBody]
  rfl

end Fern.Script
