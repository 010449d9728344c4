import Verif.Model.Compile
import Verif.Spec.Compile

/-!
# Lemmas about the compiler
-/

namespace Fern

open Spec

/-! ### Brackets -/

theorem bracketScan_nil (s : List Char) : bracketScan s [] = some s := rfl

theorem bracketScan_append (s : List Char) (a b : Str) :
    bracketScan s (a ++ b) = (bracketScan s a).bind fun s => bracketScan s b := by
  rw [bracketScan, List.foldlM_append]; rfl

theorem bracketScan_cons (s : List Char) (c : Char) (t : Str) :
    bracketScan s (c :: t) = (bracketStep s c).bind fun s => bracketScan s t := by
  rw [bracketScan, List.foldlM_cons]; rfl

theorem bracketStep_other {c : Char} (h : isBracket c = false) (s : List Char) : bracketStep s c = some s := by
  rw [bracketStep.eq_def, if_neg, if_neg]
  · rw [h]; decide
  · intro hm
    rw [isBracket, decide_eq_false_iff_not] at h
    apply h
    simp only [List.mem_cons, List.not_mem_nil, or_false] at hm ⊢
    tauto

theorem bracketStep_open {c : Char} (h : c = '(' ∨ c = '[' ∨ c = '{') (s : List Char) :
    bracketStep s c = some (c :: s) := by
  rw [bracketStep.eq_def, if_pos (by simpa using h)]

theorem bracketStep_close {o c : Char} (h : (o, c) ∈ [('(', ')'), ('[', ']'), ('{', '}')]) (s : List Char) :
    bracketStep (o :: s) c = some s := by
  have hc : ¬ c ∈ ['(', '[', '{'] ∧ isBracket c = true := by
    simp only [List.mem_cons, Prod.mk.injEq, List.not_mem_nil, or_false] at h
    rcases h with ⟨_, rfl⟩ | ⟨_, rfl⟩ | ⟨_, rfl⟩ <;> decide
  rw [bracketStep.eq_def, if_neg hc.1, if_pos hc.2]
  dsimp only
  rw [if_pos h]

theorem bracketStep_mismatch {o c : Char} (hc : ¬ c ∈ ['(', '[', '{'] ∧ isBracket c = true)
    (h : (o, c) ∉ [('(', ')'), ('[', ']'), ('{', '}')]) (s : List Char) :
    bracketStep (o :: s) c = none := by
  rw [bracketStep.eq_def, if_neg hc.1, if_pos hc.2]
  dsimp only
  rw [if_neg h]

/-- The texts that are used. -/
theorem scan_paren (s : List Char) (t : Str) : bracketScan s ('(' :: t) = bracketScan ('(' :: s) t := by
  rw [bracketScan_cons, bracketStep_open (by decide), Option.bind_some]

theorem scan_square (s : List Char) (t : Str) : bracketScan s ('[' :: t) = bracketScan ('[' :: s) t := by
  rw [bracketScan_cons, bracketStep_open (by decide), Option.bind_some]

theorem scan_brace (s : List Char) (t : Str) : bracketScan s ('{' :: t) = bracketScan ('{' :: s) t := by
  rw [bracketScan_cons, bracketStep_open (by decide), Option.bind_some]

theorem scan_paren' (s : List Char) (t : Str) : bracketScan ('(' :: s) (')' :: t) = bracketScan s t := by
  rw [bracketScan_cons, bracketStep_close (by decide), Option.bind_some]

theorem scan_square' (s : List Char) (t : Str) : bracketScan ('[' :: s) (']' :: t) = bracketScan s t := by
  rw [bracketScan_cons, bracketStep_close (by decide), Option.bind_some]

theorem scan_brace' (s : List Char) (t : Str) : bracketScan ('{' :: s) ('}' :: t) = bracketScan s t := by
  rw [bracketScan_cons, bracketStep_close (by decide), Option.bind_some]

theorem scan_wrong (s : List Char) (t : Str) : bracketScan ('{' :: s) (')' :: t) = none := by
  rw [bracketScan_cons, bracketStep_mismatch (by decide) (by decide), Option.bind_none]

theorem bracketScan_filter (s : List Char) (t : Str) : bracketScan s t = bracketScan s (t.filter isBracket) := by
  induction t generalizing s with
  | nil => rfl
  | cons c t ih =>
    rw [bracketScan_cons]
    by_cases h : isBracket c
    · rw [List.filter_cons_of_pos h, bracketScan_cons]
      congr 1; funext s; exact ih s
    · rw [List.filter_cons_of_neg h, bracketStep_other (by simpa using h)]
      exact ih s

theorem Spec.NoBrackets.scan {t : Str} (h : NoBrackets t) (s : List Char) : bracketScan s t = some s := by
  rw [bracketScan_filter, List.filter_eq_nil_iff.2 (fun c hc => by rw [h c hc]; decide)]
  rfl

theorem Spec.NoBrackets.append {a b : Str} (ha : NoBrackets a) (hb : NoBrackets b) : NoBrackets (a ++ b) := by
  intro c hc
  rcases List.mem_append.1 hc with h | h
  · exact ha c h
  · exact hb c h

theorem noBrackets_nil : NoBrackets [] := by intro c hc; simp at hc

/-- A text in terms of its brackets. -/
theorem scan_of_filter {t b : Str} (h : t.filter isBracket = b) (s : List Char) : bracketScan s t = bracketScan s b := by
  rw [bracketScan_filter, h]

theorem scan_seq {s s1 : List Char} {a b : Str} {r : Option (List Char)} (ha : bracketScan s a = some s1)
    (hb : bracketScan s1 b = r) : bracketScan s (a ++ b) = r := by
  rw [bracketScan_append, ha, Option.bind_some, hb]

theorem scan_const {t b : Str} (h : t.filter isBracket = b) {s : List Char} {r : Option (List Char)}
    (hb : bracketScan s b = r) : bracketScan s t = r := (scan_of_filter h s).trans hb

macro "scan_brackets" : tactic => `(tactic| simp only [scan_paren, scan_square, scan_brace, scan_paren', scan_square', scan_brace', scan_wrong, bracketScan_nil])

theorem scan_operationText {n : Str} (hn : NoBrackets n) (s : List Char) :
    bracketScan s (operationText n) = some ('{' :: '(' :: s) :=
  scan_seq (scan_seq (s1 := '(' :: s) (scan_const (b := ['(']) (by decide +kernel) (by scan_brackets)) (hn.scan _))
    (scan_const (b := [')', '(', '{']) (by decide +kernel) (by scan_brackets))

theorem scan_close_paren (s : List Char) : bracketScan ('{' :: '(' :: '(' :: s) "}))".toList = some s :=
  scan_const (b := ['}', ')', ')']) (by decide +kernel) (by scan_brackets)

theorem scan_close_brace (s : List Char) : bracketScan ('{' :: '(' :: '{' :: s) "}))".toList = none :=
  scan_const (b := ['}', ')', ')']) (by decide +kernel) (by scan_brackets)

theorem scan_resultsText (s : List Char) : bracketScan s resultsText = some ('(' :: s) :=
  scan_const (b := ['(']) (by decide +kernel) (by scan_brackets)

theorem scan_targetText {n : Str} (hn : NoBrackets n) (s : List Char) : bracketScan s (targetText n) = some s :=
  scan_seq (scan_seq (s1 := s) (scan_const (b := []) (by decide +kernel) (by scan_brackets)) (hn.scan _))
    (scan_const (b := ['(', '[', ']', ')']) (by decide +kernel) (by scan_brackets))

theorem noBrackets_digits (i : Nat) : NoBrackets (natText i) := by
  intro c hc
  have h : c.isDigit = true := Nat.isDigit_of_mem_toDigits (by omega) (by omega) hc
  by_contra hb
  rw [Bool.not_eq_false, isBracket, decide_eq_true_eq] at hb
  simp only [List.mem_cons, List.not_mem_nil, or_false] at hb
  rcases hb with rfl | rfl | rfl | rfl | rfl | rfl <;> revert h <;> decide

theorem scan_readText {n : Str} (hn : NoBrackets n) (i : Nat) (s : List Char) :
    bracketScan s (readText n i) = some s :=
  scan_seq (scan_seq (scan_seq (s1 := s) (scan_seq (s1 := s) (scan_const (b := []) (by decide +kernel)
    (by scan_brackets)) (hn.scan _)) (scan_const (s := s) (b := ['(', '[']) (by decide +kernel)
    (r := some ('[' :: '(' :: s)) (by scan_brackets))) ((noBrackets_digits i).scan _))
    (scan_const (b := [']', '(', ')', ')']) (by decide +kernel) (by scan_brackets))

/-! ### Several lines -/

theorem scan_join {sep : Str} (hs : NoBrackets sep) (body : List Str) (s : List Char) :
    bracketScan s (join body sep) = body.foldlM bracketScan s := by
  induction body generalizing s with
  | nil => rfl
  | cons a body ih =>
    cases body with
    | nil =>
      rw [join, List.foldlM_cons]
      cases bracketScan s a <;> rfl
    | cons b body =>
      rw [join, bracketScan_append, List.foldlM_cons]
      cases bracketScan s a with
      | none => rfl
      | some s1 =>
        simp only [Option.bind_some, Option.bind_eq_bind]
        rw [bracketScan_append, hs.scan, Option.bind_some, ih]

theorem scan_joinBody (body : List Str) (s : List Char) :
    bracketScan s (joinBody body) = body.foldlM bracketScan s := by
  rw [joinBody, bracketScan_append, scan_join (by
    intro c hc
    have : ∀ c ∈ ";\n    ".toList, isBracket c = false := by decide +kernel
    exact this c hc)]
  cases body.foldlM bracketScan s with
  | none => rfl
  | some s1 =>
    rw [Option.bind_some]
    split <;> rfl

theorem foldlM_append' {α β : Type} (f : β → α → Option β) (a b : List α) (s : β) :
    (a ++ b).foldlM f s = (a.foldlM f s).bind fun s => b.foldlM f s := by
  rw [List.foldlM_append]; rfl

theorem scan_reads {names : List Str} (h : ∀ n ∈ names, NoBrackets n) (s : List Char) :
    (names.mapIdx fun i n => readText n i).foldlM bracketScan s = some s := by
  induction names using List.reverseRecOn with
  | nil => rfl
  | append_singleton names n ih =>
    rw [List.mapIdx_append, foldlM_append', ih (fun m hm => h m (List.mem_append_left _ hm)), Option.bind_some]
    rw [List.mapIdx_cons, List.mapIdx_nil, List.foldlM_cons, scan_readText (h n (by simp))]
    rfl

theorem scan_writeTexts {n : Str} (hn : NoBrackets n) (i : Nat) (s : List Char) :
    (writeTexts n i).foldlM bracketScan s = some s := by
  have h1 : bracketScan s ("if(".toList ++ natText i ++ " < data_syncs.size()) {".toList) = some ('{' :: s) :=
    scan_seq (scan_seq (s1 := '(' :: s) (scan_const (b := ['(']) (by decide +kernel) (by scan_brackets))
      ((noBrackets_digits i).scan _)) (scan_const (b := ['(', ')', ')', '{']) (by decide +kernel) (by scan_brackets))
  have h2 : bracketScan ('{' :: s) ("    data_syncs[".toList ++ natText i ++ "]->write(*".toList ++ n ++
      ");".toList) = some ('{' :: s) :=
    scan_seq (scan_seq (scan_seq (scan_seq (s1 := '[' :: '{' :: s) (scan_const (b := ['[']) (by decide +kernel)
      (by scan_brackets)) ((noBrackets_digits i).scan _)) (scan_const (b := [']', '(']) (by decide +kernel)
      (r := some ('(' :: '{' :: s)) (by scan_brackets))) (hn.scan _))
      (scan_const (b := [')']) (by decide +kernel) (by scan_brackets))
  have h3 : bracketScan ('{' :: s) "}".toList = some s :=
    scan_const (b := ['}']) (by decide +kernel) (by scan_brackets)
  rw [writeTexts, List.foldlM_cons, h1, Option.bind_eq_bind, Option.bind_some, List.foldlM_cons, h2,
    Option.bind_eq_bind, Option.bind_some, List.foldlM_cons, h3]
  rfl

theorem scan_writes {names : List NameRef} (h : ∀ r ∈ names, NoBrackets r.n) (s : List Char) :
    (names.mapIdx fun i (r : NameRef) => writeTexts r.n i).flatten.foldlM bracketScan s = some s := by
  induction names using List.reverseRecOn with
  | nil => rfl
  | append_singleton names n ih =>
    rw [List.mapIdx_append, List.flatten_append, foldlM_append',
      ih (fun m hm => h m (List.mem_append_left _ hm)), Option.bind_some]
    rw [List.mapIdx_cons, List.mapIdx_nil, List.flatten_cons, List.flatten_nil, List.append_nil,
      scan_writeTexts (h n (by simp))]

/-! ### Expressions -/

/-- What is added to the text for an expression. -/
structure EmitsExpr (e : Expr) (d : Str) : Prop where
  plain : operationCount e = 0 → NoBrackets d
  single : SingleOperation e → ∀ s, bracketScan ('(' :: s) d = some s
  inBraces : operationCount e ≠ 0 → ∀ s, bracketScan ('{' :: s) d = none
  nested : operationCount e ≠ 0 → ¬ SingleOperation e → ∀ s, bracketScan s d = none

/-- What is added to the text for the arguments of an operation. -/
structure EmitsExprs (es : List Expr) (d : Str) : Prop where
  plain : operationCounts es = 0 → NoBrackets d
  inBraces : operationCounts es ≠ 0 → ∀ s, bracketScan ('{' :: s) d = none

theorem emits_plain {e : Expr} {d : Str} (h0 : operationCount e = 0) (hd : NoBrackets d) (hs : ¬ SingleOperation e) :
    EmitsExpr e d :=
  ⟨fun _ => hd, fun h => absurd h hs, fun h => absurd h0 h, fun h => absurd h0 h⟩

theorem scan_operation {n : Str} (hn : NoBrackets n) (s : List Char) (d : Str) :
    bracketScan s (operationText n ++ d ++ "}))".toList) =
      (bracketScan ('{' :: '(' :: s) d).bind fun s => bracketScan s "}))".toList := by
  rw [bracketScan_append, scan_seq (scan_operationText hn s) rfl]

theorem emits_operation {e : Expr} {n : Str} {args : List Expr} {d : Str} (hn : NoBrackets n)
    (hc : operationCount e = 1 + operationCounts args)
    (hs : SingleOperation e ↔ operationCounts args = 0) (h : EmitsExprs args d) :
    EmitsExpr e (operationText n ++ d ++ "}))".toList) where
  plain h0 := by omega
  single h1 s := by
    rw [scan_operation hn, (h.plain (hs.1 h1)).scan, Option.bind_some, scan_close_paren]
  inBraces _ s := by
    rw [scan_operation hn]
    by_cases h0 : operationCounts args = 0
    · rw [(h.plain h0).scan, Option.bind_some, scan_close_brace]
    · rw [h.inBraces h0, Option.bind_none]
  nested _ h1 s := by
    rw [scan_operation hn, h.inBraces (fun h0 => h1 (hs.2 h0)), Option.bind_none]

variable {known : Str → Bool}

mutual

theorem compileExpr_emits (hk : ∀ n, known n = true → NoBrackets n) {t t' : Str} : (e : Expr) →
    withoutAttributes e = true → (∀ n v, Token.use n v ∈ exprTokens e → NoBrackets n) →
    compileExpr known t e = some t' → ∃ d, t' = t ++ d ∧ EmitsExpr e d
  | .name v n, _, hb, h => by
    rw [compileExpr] at h
    cases h
    exact ⟨n, rfl, emits_plain (by rw [operationCount]) (hb n v (by rw [exprTokens]; simp))
      (by rintro ⟨_, _, _, h | h, _⟩ <;> cases h)⟩
  | .number v n, _, _, h => by
    rw [compileExpr] at h
    cases h
    exact ⟨[], by simp, emits_plain (by rw [operationCount]) noBrackets_nil
      (by rintro ⟨_, _, _, h | h, _⟩ <;> cases h)⟩
  | .string v n, _, _, h => by
    rw [compileExpr] at h
    cases h
    exact ⟨[], by simp, emits_plain (by rw [operationCount]) noBrackets_nil
      (by rintro ⟨_, _, _, h | h, _⟩ <;> cases h)⟩
  | .subscript v e i, _, _, h => by
    rw [compileExpr] at h
    cases h
    exact ⟨[], by simp, emits_plain (by rw [operationCount]) noBrackets_nil
      (by rintro ⟨_, _, _, h | h, _⟩ <;> cases h)⟩
  | .attribute v e m, ha, _, _ => by rw [withoutAttributes] at ha; cases ha
  | .call v n args, ha, hb, h => by
    rw [compileExpr] at h
    rw [withoutAttributes] at ha
    rw [exprTokens] at hb
    split at h
    · next hn =>
      obtain ⟨t1, h1, rfl⟩ := Option.map_eq_some_iff.1 h
      obtain ⟨d, rfl, hd⟩ := compileExprs_emits hk args ha hb h1
      refine ⟨operationText n ++ d ++ "}))".toList, by rw [List.append_assoc, List.append_assoc, List.append_assoc],
        emits_operation (hk n hn) (by rw [operationCount]) ⟨?_, fun h0 => ⟨v, n, args, .inl rfl, h0⟩⟩ hd⟩
      rintro ⟨_, _, _, he | he, h0⟩
      · cases he; exact h0
      · cases he
    · cases h
  | .operator v n args, ha, hb, h => by
    rw [compileExpr] at h
    rw [withoutAttributes] at ha
    rw [exprTokens] at hb
    split at h
    · next hn =>
      obtain ⟨t1, h1, rfl⟩ := Option.map_eq_some_iff.1 h
      obtain ⟨d, rfl, hd⟩ := compileExprs_emits hk args ha hb h1
      refine ⟨operationText n ++ d ++ "}))".toList, by rw [List.append_assoc, List.append_assoc, List.append_assoc],
        emits_operation (hk n hn) (by rw [operationCount]) ⟨?_, fun h0 => ⟨v, n, args, .inr rfl, h0⟩⟩ hd⟩
      rintro ⟨_, _, _, he | he, h0⟩
      · cases he
      · cases he; exact h0
    · cases h

theorem compileExprs_emits (hk : ∀ n, known n = true → NoBrackets n) {t t' : Str} : (es : List Expr) →
    allWithoutAttributes es = true → (∀ n v, Token.use n v ∈ exprsTokens es → NoBrackets n) →
    compileExprs known t es = some t' → ∃ d, t' = t ++ d ∧ EmitsExprs es d
  | [], _, _, h => by
    rw [compileExprs] at h
    cases h
    exact ⟨[], by simp, fun _ => noBrackets_nil, fun h => absurd (by rw [operationCounts]) h⟩
  | e :: es, ha, hb, h => by
    rw [compileExprs] at h
    rw [allWithoutAttributes, Bool.and_eq_true] at ha
    rw [exprsTokens] at hb
    obtain ⟨t1, h1, h⟩ := Option.bind_eq_some_iff.1 h
    obtain ⟨d1, rfl, hd1⟩ := compileExpr_emits hk e ha.1 (fun n v hm => hb n v (List.mem_append_left _ hm)) h1
    obtain ⟨d2, rfl, hd2⟩ := compileExprs_emits hk es ha.2 (fun n v hm => hb n v (List.mem_append_right _ hm)) h
    refine ⟨d1 ++ d2, by rw [List.append_assoc], ?_, ?_⟩
    · intro h0
      rw [operationCounts] at h0
      exact (hd1.plain (by omega)).append (hd2.plain (by omega))
    · intro h0 s
      rw [operationCounts] at h0
      rw [bracketScan_append]
      by_cases h1 : operationCount e = 0
      · rw [(hd1.plain h1).scan, Option.bind_some, hd2.inBraces (by omega)]
      · rw [hd1.inBraces h1, Option.bind_none]

end

/-! ### Statements -/

/-- The two lines of an assignment. -/
def AssignmentLines (known : Str → Bool) (a : Str × Expr) (lines : List Str) : Prop :=
  ∃ t, compileExpr known resultsText a.2 = some t ∧ lines = [t, targetText a.1]

theorem assignmentLines_append {a b : List (Str × Expr)} {l m : List (List Str)}
    (h1 : List.Forall₂ (AssignmentLines known) a l) (h2 : List.Forall₂ (AssignmentLines known) b m) :
    List.Forall₂ (AssignmentLines known) (a ++ b) (l ++ m) := by
  induction h1 with
  | nil => exact h2
  | cons hc _ ih => exact .cons hc ih

mutual

theorem compileStmt_body : (t : Stmt) → {s s' : CompileState} → compileStmt known s t = some s' →
    ∃ ls, List.Forall₂ (AssignmentLines known) (compiledAssignments t) ls ∧ s'.body = s.body ++ ls.flatten
  | .expr e, s, s', h => by
    rw [compileStmt] at h
    obtain ⟨t1, h1, rfl⟩ := Option.map_eq_some_iff.1 h
    exact ⟨[], by rw [compiledAssignments]; exact .nil, by simp⟩
  | .assign v target n e, s, s', h => by
    rw [compileStmt] at h
    obtain ⟨t1, h1, rfl⟩ := Option.map_eq_some_iff.1 h
    exact ⟨[[t1, targetText n]], by rw [compiledAssignments]; exact .cons ⟨t1, h1, rfl⟩ .nil, by simp⟩
  | .ifElse _ _ _ _ _ _ _ _ _, s, s', h => by
    rw [compileStmt] at h
    cases h
    exact ⟨[], by rw [compiledAssignments]; exact .nil, by simp⟩
  | .while _ _ _ _ _ _ _ _ _, s, s', h => by
    rw [compileStmt] at h
    cases h
    exact ⟨[], by rw [compiledAssignments]; exact .nil, by simp⟩
  | .function _ _ args _ _ body, s, s', h => by
    rw [compileStmt] at h
    obtain ⟨t1, h1, h⟩ := Option.bind_eq_some_iff.1 h
    obtain ⟨s1, h2, rfl⟩ := Option.map_eq_some_iff.1 h
    obtain ⟨ls, hf, hb⟩ := compileStmts_body body h2
    exact ⟨ls, by rw [compiledAssignments]; exact hf, hb⟩
  | .ret _ (some e), s, s', h => by
    rw [compileStmt] at h
    obtain ⟨t1, h1, rfl⟩ := Option.map_eq_some_iff.1 h
    exact ⟨[], by rw [compiledAssignments]; exact .nil, by simp⟩
  | .ret _ none, s, s', h => by
    rw [compileStmt] at h
    cases h
    exact ⟨[], by rw [compiledAssignments]; exact .nil, by simp⟩

theorem compileStmts_body : (ts : List Stmt) → {s s' : CompileState} → compileStmts known s ts = some s' →
    ∃ ls, List.Forall₂ (AssignmentLines known) (allCompiledAssignments ts) ls ∧ s'.body = s.body ++ ls.flatten
  | [], s, s', h => by
    rw [compileStmts] at h
    cases h
    exact ⟨[], by rw [allCompiledAssignments]; exact .nil, by simp⟩
  | t :: ts, s, s', h => by
    rw [compileStmts] at h
    obtain ⟨s1, h1, h⟩ := Option.bind_eq_some_iff.1 h
    obtain ⟨l1, hf1, hb1⟩ := compileStmt_body t h1
    obtain ⟨l2, hf2, hb2⟩ := compileStmts_body ts h
    refine ⟨l1 ++ l2, ?_, by rw [hb2, hb1, List.flatten_append, List.append_assoc]⟩
    rw [allCompiledAssignments]
    exact assignmentLines_append hf1 hf2

end

mutual

theorem compiledAssignments_tokens : (t : Stmt) → ∀ a ∈ compiledAssignments t,
    (∀ k ∈ exprTokens a.2, k ∈ stmtTokens t) ∧ ∃ v, Token.define a.1 v ∈ stmtTokens t
  | .assign v target n e, a, ha => by
    rw [compiledAssignments, List.mem_singleton] at ha
    subst ha
    rw [stmtTokens]
    exact ⟨fun k hk => List.mem_append_left _ hk, target, by simp⟩
  | .function _ _ args _ _ body, a, ha => by
    rw [compiledAssignments] at ha
    rw [stmtTokens]
    obtain ⟨h1, v, h2⟩ := allCompiledAssignments_tokens body a ha
    exact ⟨fun k hk => List.mem_append_right _ (h1 k hk), v, List.mem_append_right _ h2⟩
  | .expr _, a, ha => by rw [compiledAssignments] at ha; simp at ha
  | .ifElse _ _ _ _ _ _ _ _ _, a, ha => by rw [compiledAssignments] at ha; simp at ha
  | .while _ _ _ _ _ _ _ _ _, a, ha => by rw [compiledAssignments] at ha; simp at ha
  | .ret _ _, a, ha => by rw [compiledAssignments] at ha; simp at ha

theorem allCompiledAssignments_tokens : (ts : List Stmt) → ∀ a ∈ allCompiledAssignments ts,
    (∀ k ∈ exprTokens a.2, k ∈ stmtsTokens ts) ∧ ∃ v, Token.define a.1 v ∈ stmtsTokens ts
  | [], a, ha => by rw [allCompiledAssignments] at ha; simp at ha
  | t :: ts, a, ha => by
    rw [allCompiledAssignments] at ha
    rw [stmtsTokens]
    rcases List.mem_append.1 ha with ha | ha
    · obtain ⟨h1, v, h2⟩ := compiledAssignments_tokens t a ha
      exact ⟨fun k hk => List.mem_append_left _ (h1 k hk), v, List.mem_append_left _ h2⟩
    · obtain ⟨h1, v, h2⟩ := allCompiledAssignments_tokens ts a ha
      exact ⟨fun k hk => List.mem_append_right _ (h1 k hk), v, List.mem_append_right _ h2⟩

end

/-! ### The lines of the assignments -/

open Classical in
/-- What the lines of the assignments do to the open brackets. -/
theorem scan_assignments (hk : ∀ n, known n = true → NoBrackets n) {as : List (Str × Expr)} {ls : List (List Str)}
    (h : List.Forall₂ (AssignmentLines known) as ls) (ha : ∀ a ∈ as, withoutAttributes a.2 = true)
    (hn : ∀ a ∈ as, NoBrackets a.1 ∧ ∀ n v, Token.use n v ∈ exprTokens a.2 → NoBrackets n) (s : List Char) :
    ((∀ a ∈ as, SingleOperation a.2) ∧ ls.flatten.foldlM bracketScan s = some s) ∨
    (¬ (∀ a ∈ as, SingleOperation a.2) ∧
      (ls.flatten.foldlM bracketScan s = none ∨ ∃ s', ls.flatten.foldlM bracketScan s = some ('(' :: s'))) := by
  induction h using List.Forall₂.rec generalizing s with
  | nil => exact .inl ⟨by simp, rfl⟩
  | @cons a l as ls hl _ ih =>
    obtain ⟨t, ht, rfl⟩ := hl
    have ih' := ih (fun b hb => ha b (List.mem_cons_of_mem _ hb)) (fun b hb => hn b (List.mem_cons_of_mem _ hb))
    have hn1 := hn a List.mem_cons_self
    obtain ⟨d, rfl, hd⟩ := compileExpr_emits hk a.2 (ha a List.mem_cons_self) hn1.2 ht
    have hf : ([resultsText ++ d, targetText a.1] :: ls).flatten.foldlM bracketScan s =
        ((bracketScan ('(' :: s) d).bind fun s => bracketScan s (targetText a.1)).bind
          fun s => ls.flatten.foldlM bracketScan s := by
      rw [List.flatten_cons, foldlM_append', List.foldlM_cons, scan_seq (scan_resultsText s) rfl]
      cases bracketScan ('(' :: s) d with
      | none => rfl
      | some s1 =>
        simp only [Option.bind_eq_bind, Option.bind_some, List.foldlM_cons]
        cases bracketScan s1 (targetText a.1) <;> rfl
    rw [hf]
    by_cases h1 : SingleOperation a.2
    · rw [hd.single h1, Option.bind_some, scan_targetText hn1.1, Option.bind_some]
      have : (∀ b ∈ a :: as, SingleOperation b.2) ↔ ∀ b ∈ as, SingleOperation b.2 := by
        rw [List.forall_mem_cons]; exact and_iff_right h1
      rw [this]
      exact ih' s
    · right
      refine ⟨fun h => h1 (h a List.mem_cons_self), ?_⟩
      by_cases h0 : operationCount a.2 = 0
      · rw [(hd.plain h0).scan, Option.bind_some, scan_targetText hn1.1, Option.bind_some]
        rcases ih' ('(' :: s) with ⟨_, h⟩ | ⟨_, h⟩
        · exact .inr ⟨s, h⟩
        · exact h
      · rw [hd.nested h0 h1]
        exact .inl rfl

/-! ### Declarations -/

theorem afterPrefix_append (p t : Str) : afterPrefix p (p ++ t) = some t := by
  induction p with
  | nil => rw [List.nil_append, afterPrefix]
  | cons a p ih => rw [List.cons_append, afterPrefix, if_pos rfl, ih]

theorem afterPrefix_none {p c : Str} (h : afterPrefix p c = none) (hl : p.length ≤ c.length) (d : Str) :
    afterPrefix p (c ++ d) = none := by
  induction p generalizing c with
  | nil => rw [afterPrefix] at h; cases h
  | cons a p ih =>
    cases c with
    | nil => simp at hl
    | cons b c =>
      rw [List.cons_append, afterPrefix]
      rw [afterPrefix] at h
      split
      · next hab => rw [if_pos hab] at h; exact ih h (by simpa using hl)
      · rfl

theorem afterPrefix_head {p t : Str} {a b : Char} (hp : p.head? = some a) (ht : t.head? = some b) (h : a ≠ b) :
    afterPrefix p t = none := by
  cases p with
  | nil => cases hp
  | cons a' p =>
    cases t with
    | nil => cases ht
    | cons b' t =>
      cases hp; cases ht
      rw [afterPrefix, if_neg h]

theorem takeWhile_name {n : Str} (hn : NoBrackets n) {t : Str} (ht : t.head? = some '(') :
    (n ++ t).takeWhile (· ≠ '(') = n := by
  cases t with
  | nil => cases ht
  | cons c t =>
    cases ht
    rw [List.takeWhile_append_of_pos]
    · rw [List.takeWhile_cons, if_neg (by decide), List.append_nil]
    · intro c hc
      have h1 := hn c hc
      rw [decide_eq_true_eq]
      rintro rfl
      revert h1; decide

/-- A line that declares an argument. -/
theorem declaredName_pointer {n t : Str} (hn : NoBrackets n) (ht : t.head? = some '(') :
    declaredName ("std::shared_ptr<fern::Argument> ".toList ++ (n ++ t)) = some n := by
  unfold declaredName
  have h := afterPrefix_append "std::shared_ptr<fern::Argument> ".toList (n ++ t)
  generalize afterPrefix "std::shared_ptr<fern::Argument> ".toList
    ("std::shared_ptr<fern::Argument> ".toList ++ (n ++ t)) = x at h
  subst h
  exact congrArg some (takeWhile_name hn ht)

theorem head?_text {a t : Str} {c : Char} (h : a.head? = some c) : (a ++ t).head? = some c := by
  rw [List.head?_append, h]; rfl

theorem declaredName_target {n : Str} (hn : NoBrackets n) : declaredName (targetText n) = some n := by
  unfold targetText
  rw [List.append_assoc]
  exact declaredName_pointer hn (by decide +kernel)

theorem declaredName_read {n : Str} (hn : NoBrackets n) (i : Nat) : declaredName (readText n i) = some n := by
  unfold readText
  rw [List.append_assoc, List.append_assoc, List.append_assoc]
  exact declaredName_pointer hn (head?_text (by decide +kernel))

theorem declaredName_results (d : Str) : declaredName (resultsText ++ d) = some "results".toList := by
  unfold declaredName
  have h1 : afterPrefix "std::shared_ptr<fern::Argument> ".toList (resultsText ++ d) = none :=
    afterPrefix_none (by decide +kernel) (by decide +kernel) d
  have h2 : afterPrefix "std::vector<std::shared_ptr<fern::Argument>> ".toList (resultsText ++ d) =
      some ("results(".toList ++ d) := by
    have h := afterPrefix_append "std::vector<std::shared_ptr<fern::Argument>> ".toList ("results(".toList ++ d)
    rw [← List.append_assoc] at h
    have hr : "std::vector<std::shared_ptr<fern::Argument>> ".toList ++ "results(".toList = resultsText := by
      decide +kernel
    rw [hr] at h
    exact h
  generalize afterPrefix "std::shared_ptr<fern::Argument> ".toList (resultsText ++ d) = x at h1
  generalize afterPrefix "std::vector<std::shared_ptr<fern::Argument>> ".toList (resultsText ++ d) = y at h2
  subst h1 h2
  have h3 : "results(".toList = "results".toList ++ ['('] := by decide +kernel
  have h4 : NoBrackets "results".toList := by
    intro c hc
    have : ∀ c ∈ "results".toList, isBracket c = false := by decide +kernel
    exact this c hc
  rw [h3, List.append_assoc]
  exact congrArg some (takeWhile_name h4 rfl)

theorem declaredName_none {t : Str} {c : Char} (h : t.head? = some c) (hc : 's' ≠ c) : declaredName t = none := by
  unfold declaredName
  have h1 : afterPrefix "std::shared_ptr<fern::Argument> ".toList t = none :=
    afterPrefix_head (a := 's') (by decide +kernel) h hc
  have h2 : afterPrefix "std::vector<std::shared_ptr<fern::Argument>> ".toList t = none :=
    afterPrefix_head (a := 's') (by decide +kernel) h hc
  generalize afterPrefix "std::shared_ptr<fern::Argument> ".toList t = x at h1
  generalize afterPrefix "std::vector<std::shared_ptr<fern::Argument>> ".toList t = y at h2
  subst h1 h2
  rfl

theorem declared_writes (names : List NameRef) :
    (names.mapIdx fun i (r : NameRef) => writeTexts r.n i).flatten.filterMap declaredName = [] := by
  rw [List.filterMap_eq_nil_iff]
  intro t ht
  obtain ⟨l, hl, ht⟩ := List.mem_flatten.1 ht
  obtain ⟨i, hi, rfl⟩ := List.mem_mapIdx.1 hl
  unfold writeTexts at ht
  rw [List.mem_cons, List.mem_cons, List.mem_singleton] at ht
  rcases ht with rfl | rfl | rfl
  · exact declaredName_none (c := 'i') (head?_text (head?_text (by decide +kernel))) (by decide)
  · exact declaredName_none (c := ' ') (head?_text (head?_text (head?_text (head?_text (by decide +kernel)))))
      (by decide)
  · exact declaredName_none (c := '}') (by decide +kernel) (by decide)

theorem declared_reads {names : List Str} (h : ∀ n ∈ names, NoBrackets n) :
    (names.mapIdx fun i n => readText n i).filterMap declaredName = names := by
  induction names using List.reverseRecOn with
  | nil => rfl
  | append_singleton names n ih =>
    rw [List.mapIdx_append, List.filterMap_append, ih (fun m hm => h m (List.mem_append_left _ hm)),
      List.mapIdx_cons, List.mapIdx_nil, List.filterMap_cons_some (declaredName_read (h n (by simp)) _)]
    rfl

theorem declared_assignments (hk : ∀ n, known n = true → NoBrackets n) {as : List (Str × Expr)}
    {ls : List (List Str)} (h : List.Forall₂ (AssignmentLines known) as ls)
    (ha : ∀ a ∈ as, withoutAttributes a.2 = true)
    (hn : ∀ a ∈ as, NoBrackets a.1 ∧ ∀ n v, Token.use n v ∈ exprTokens a.2 → NoBrackets n) :
    ls.flatten.filterMap declaredName = as.flatMap fun a => ["results".toList, a.1] := by
  induction h using List.Forall₂.rec with
  | nil => rfl
  | @cons a l as ls hl _ ih =>
    obtain ⟨t, ht, rfl⟩ := hl
    have hn1 := hn a List.mem_cons_self
    obtain ⟨d, rfl, -⟩ := compileExpr_emits hk a.2 (ha a List.mem_cons_self) hn1.2 ht
    rw [List.flatten_cons, List.filterMap_append, List.flatMap_cons,
      ih (fun b hb => ha b (List.mem_cons_of_mem _ hb)) (fun b hb => hn b (List.mem_cons_of_mem _ hb)),
      List.filterMap_cons_some (declaredName_results d), List.filterMap_cons_some (declaredName_target hn1.1)]
    rfl

end Fern
