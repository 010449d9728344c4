import Verif.Lemmas.Print

/-!
# Printing of statements: unique readability
-/

namespace Fern

open Spec

/-! ## The text of statements, without what comes before -/

mutual

/-- The text of a statement up to and including the last line's end. -/
def stmtText (fmt : FloatFormat) (tab k : Nat) : Stmt → Option Str
  | .expr e => (printExpr fmt e).map fun a => a ++ ['\n']
  | .assign _ _ n e => (printExpr fmt e).map fun a => n ++ ([' ', '=', ' '] ++ (a ++ ['\n']))
  | .ifElse _ _ c _ _ t _ _ f =>
    (printExpr fmt c).bind fun a => (stmtsText fmt tab (k + 1) t).bind fun b =>
    if f.isEmpty then some (['i', 'f'] ++ (' ' :: (a ++ ([':', '\n'] ++ b))))
    else (stmtsText fmt tab (k + 1) f).map fun d =>
      ['i', 'f'] ++ (' ' :: (a ++ ([':', '\n'] ++ (b ++ (indentation tab k ++
        (['e', 'l', 's', 'e', ':', '\n'] ++ d))))))
  | .while _ _ c _ _ t _ _ f =>
    (printExpr fmt c).bind fun a => (stmtsText fmt tab (k + 1) t).bind fun b =>
    if f.isEmpty then some (['w', 'h', 'i', 'l', 'e'] ++ (' ' :: (a ++ ([':', '\n'] ++ b))))
    else (stmtsText fmt tab (k + 1) f).map fun d =>
      ['w', 'h', 'i', 'l', 'e'] ++ (' ' :: (a ++ ([':', '\n'] ++ (b ++ (indentation tab k ++
        (['e', 'l', 's', 'e', ':', '\n'] ++ d))))))
  | .function _ _ _ _ _ _ => none
  | .ret _ _ => none

/-- The text of statements. -/
def stmtsText (fmt : FloatFormat) (tab k : Nat) : List Stmt → Option Str
  | [] => some []
  | t :: l => (stmtText fmt tab k t).bind fun a => (stmtsText fmt tab k l).map fun b =>
    indentation tab k ++ (a ++ b)

end

/-- The last step of the loop in `visit_statements`. -/
def endLine (s : Str) : Str := if endsWith s ['\n'] then s else s ++ ['\n']

theorem endLine_ended (s : Str) : endLine (s ++ ['\n']) = s ++ ['\n'] := by
  simp [endLine, endsWith, List.isPrefixOf]

theorem endLine_other (s : Str) {c : Char} (h : c ≠ '\n') : endLine (s ++ [c]) = s ++ [c] ++ ['\n'] := by
  have : ('\n' == c) = false := by simp [Ne.symm h]
  simp [endLine, endsWith, List.isPrefixOf, this]

theorem identifier_last {n : Str} (h : Identifier n) : ∃ b c, n = b ++ [c] ∧ c ≠ '\n' := by
  obtain ⟨b, c, rfl⟩ := (List.eq_nil_or_concat' n).resolve_left h.1
  refine ⟨b, c, rfl, ?_⟩
  rintro rfl
  exact absurd (h.2.1 '\n' (by simp)) (by decide)

theorem formatInt_last (v : Int) : ∃ b c, formatInt v = b ++ [c] ∧ c ≠ '\n' := by
  have key : ∀ n : Nat, ∃ b c, Nat.toDigits 10 n = b ++ [c] ∧ c ≠ '\n' := by
    intro n
    rcases List.eq_nil_or_concat' (Nat.toDigits 10 n) with h | ⟨b, c, h⟩
    · exact absurd h Nat.toDigits_ne_nil
    · refine ⟨b, c, h, ?_⟩
      rintro rfl
      have : ('\n').isDigit = true :=
        Nat.isDigit_of_mem_toDigits (b := 10) (n := n) (by decide) (by decide) (by rw [h]; simp)
      exact absurd this (by decide)
  unfold formatInt
  obtain ⟨b, c, h, hc⟩ := key v.natAbs
  split
  · exact ⟨'-' :: b, c, by rw [h]; rfl, hc⟩
  · exact ⟨b, c, h, hc⟩

/-- The text of an expression ends with something else than a line end. -/
theorem printExpr_last {fmt : FloatFormat} {e : Expr} {a : Str} (hp : PlainExpr e)
    (h : printExpr fmt e = some a) : ∃ b c, a = b ++ [c] ∧ c ≠ '\n' := by
  match e with
  | .name _ n =>
    simp only [printExpr, Option.some.injEq] at h
    subst h
    exact identifier_last hp
  | .number _ n =>
    simp only [printExpr, Option.some.injEq] at h
    subst h
    match n, hp with
    | .int t v, hp =>
      rw [printNumber_int hp.1 hp.2.1]
      split
      · simpa using formatInt_last v
      · exact ⟨formatInt v, 'U', rfl, by decide⟩
  | .string _ s =>
    simp only [printExpr, Option.some.injEq] at h
    exact ⟨_, '"', h.symm, by decide⟩
  | .call _ n es =>
    simp only [printExpr, Option.map_eq_some_iff] at h
    obtain ⟨b, _, rfl⟩ := h
    exact ⟨_, ')', rfl, by decide⟩
  | .operator _ n [x] =>
    simp only [printExpr, Option.map_eq_some_iff, Option.bind_eq_some_iff] at h
    obtain ⟨sym, hs, b, _, rfl⟩ := h
    exact ⟨_, ')', rfl, by decide⟩
  | .operator _ n [x, y] =>
    simp only [printExpr, Option.map_eq_some_iff, Option.bind_eq_some_iff] at h
    obtain ⟨sym, hs, b, _, b', _, rfl⟩ := h
    exact ⟨_, ')', rfl, by decide⟩
  | .operator _ n [] => simp [printExpr] at h
  | .operator _ n (x :: y :: z :: l) => simp [printExpr] at h
  | .subscript _ e s =>
    simp only [printExpr, Option.map_eq_some_iff, Option.bind_eq_some_iff] at h
    obtain ⟨b, _, b', _, rfl⟩ := h
    exact ⟨_, ']', rfl, by decide⟩
  | .attribute _ e m =>
    simp only [printExpr, Option.map_eq_some_iff] at h
    obtain ⟨b, _, rfl⟩ := h
    obtain ⟨b', c, hm, hc⟩ := identifier_last hp.2
    exact ⟨_, c, by rw [hm, ← List.append_assoc], hc⟩

mutual

theorem stmtText_ends {fmt : FloatFormat} {tab k : Nat} : ∀ (t : Stmt) {a : Str}, PlainStmt t →
    stmtText fmt tab k t = some a → ∃ b, a = b ++ ['\n']
  | .expr e, a, _, h => by
    simp only [stmtText, Option.map_eq_some_iff] at h
    obtain ⟨b, _, rfl⟩ := h
    exact ⟨b, rfl⟩
  | .assign _ _ n e, a, _, h => by
    simp only [stmtText, Option.map_eq_some_iff] at h
    obtain ⟨b, _, rfl⟩ := h
    exact ⟨n ++ ([' ', '=', ' '] ++ b), by simp⟩
  | .ifElse _ _ c _ _ t _ _ f, a, hp, h => by
    simp only [stmtText, Option.bind_eq_some_iff] at h
    obtain ⟨b, _, d, hd, h⟩ := h
    split at h
    · simp only [Option.some.injEq] at h
      obtain ⟨x, rfl⟩ := stmtsText_ends t hp.2.2.1 hp.2.1 hd
      exact ⟨['i', 'f'] ++ (' ' :: (b ++ ([':', '\n'] ++ x))), by simp [← h]⟩
    · rename_i hf
      simp only [Option.map_eq_some_iff] at h
      obtain ⟨g, hg, rfl⟩ := h
      obtain ⟨x, rfl⟩ := stmtsText_ends f hp.2.2.2 (by simpa using hf) hg
      exact ⟨['i', 'f'] ++ (' ' :: (b ++ ([':', '\n'] ++ (d ++ (indentation tab k ++
        (['e', 'l', 's', 'e', ':', '\n'] ++ x)))))), by simp⟩
  | .while _ _ c _ _ t _ _ f, a, hp, h => by
    simp only [stmtText, Option.bind_eq_some_iff] at h
    obtain ⟨b, _, d, hd, h⟩ := h
    split at h
    · simp only [Option.some.injEq] at h
      obtain ⟨x, rfl⟩ := stmtsText_ends t hp.2.2.1 hp.2.1 hd
      exact ⟨['w', 'h', 'i', 'l', 'e'] ++ (' ' :: (b ++ ([':', '\n'] ++ x))), by simp [← h]⟩
    · rename_i hf
      simp only [Option.map_eq_some_iff] at h
      obtain ⟨g, hg, rfl⟩ := h
      obtain ⟨x, rfl⟩ := stmtsText_ends f hp.2.2.2 (by simpa using hf) hg
      exact ⟨['w', 'h', 'i', 'l', 'e'] ++ (' ' :: (b ++ ([':', '\n'] ++ (d ++ (indentation tab k ++
        (['e', 'l', 's', 'e', ':', '\n'] ++ x)))))), by simp⟩
  | .function _ _ _ _ _ _, a, hp, _ => absurd hp (by simp [PlainStmt])
  | .ret _ _, a, hp, _ => absurd hp (by simp [PlainStmt])

theorem stmtsText_ends {fmt : FloatFormat} {tab k : Nat} : ∀ (l : List Stmt) {a : Str},
    PlainStmts l → l ≠ [] → stmtsText fmt tab k l = some a → ∃ b, a = b ++ ['\n']
  | [], _, _, h, _ => absurd rfl h
  | t :: l, a, hp, _, h => by
    simp only [stmtsText, Option.bind_eq_some_iff, Option.map_eq_some_iff] at h
    obtain ⟨b, hb, d, hd, rfl⟩ := h
    by_cases hl : l = []
    · subst hl
      simp only [stmtsText, Option.some.injEq] at hd
      subst hd
      obtain ⟨x, rfl⟩ := stmtText_ends t hp.1 hb
      exact ⟨indentation tab k ++ x, by simp⟩
    · obtain ⟨x, rfl⟩ := stmtsText_ends l hp.2 hl hd
      exact ⟨indentation tab k ++ (b ++ x), by simp⟩

end

mutual

/-- The visitor appends the text of a statement. -/
theorem printStmt_text {fmt : FloatFormat} {tab : Nat} : ∀ (t : Stmt) (k : Nat) (s : Str), PlainStmt t →
    (printStmt fmt tab k s t).map endLine = (stmtText fmt tab k t).map fun a => s ++ a
  | .expr e, k, s, hp => by
    simp only [printStmt, stmtText]
    cases h : printExpr fmt e with
    | none => rfl
    | some a =>
      obtain ⟨b, c, rfl, hc⟩ := printExpr_last hp h
      simp only [Option.map_some, ← List.append_assoc]
      rw [endLine_other _ hc]
  | .assign _ _ n e, k, s, hp => by
    simp only [printStmt, stmtText]
    cases h : printExpr fmt e with
    | none => rfl
    | some a =>
      obtain ⟨b, c, rfl, hc⟩ := printExpr_last hp.2 h
      simp only [Option.map_some, ← List.append_assoc]
      rw [endLine_other _ hc]
  | .ifElse _ _ c _ _ t _ _ f, k, s, hp => by
    simp only [printStmt, stmtText]
    cases h : printExpr fmt c with
    | none => rfl
    | some a =>
      simp only [Option.bind_some]
      rw [printStmts_text t (k + 1) _ hp.2.2.1]
      cases ht : stmtsText fmt tab (k + 1) t with
      | none => rfl
      | some b =>
        simp only [Option.map_some, Option.bind_some]
        split
        · obtain ⟨x, rfl⟩ := stmtsText_ends t hp.2.2.1 hp.2.1 ht
          simp only [Option.map_some, ← List.append_assoc]
          rw [endLine_ended]
          simp
        · rename_i hf
          rw [printStmts_text f (k + 1) _ hp.2.2.2]
          cases hft : stmtsText fmt tab (k + 1) f with
          | none => rfl
          | some d =>
            obtain ⟨x, rfl⟩ := stmtsText_ends f hp.2.2.2 (by simpa using hf) hft
            simp only [Option.map_some, ← List.append_assoc]
            rw [endLine_ended]
            simp
  | .while _ _ c _ _ t _ _ f, k, s, hp => by
    simp only [printStmt, stmtText]
    cases h : printExpr fmt c with
    | none => rfl
    | some a =>
      simp only [Option.bind_some]
      rw [printStmts_text t (k + 1) _ hp.2.2.1]
      cases ht : stmtsText fmt tab (k + 1) t with
      | none => rfl
      | some b =>
        simp only [Option.map_some, Option.bind_some]
        split
        · obtain ⟨x, rfl⟩ := stmtsText_ends t hp.2.2.1 hp.2.1 ht
          simp only [Option.map_some, ← List.append_assoc]
          rw [endLine_ended]
          simp
        · rename_i hf
          rw [printStmts_text f (k + 1) _ hp.2.2.2]
          cases hft : stmtsText fmt tab (k + 1) f with
          | none => rfl
          | some d =>
            obtain ⟨x, rfl⟩ := stmtsText_ends f hp.2.2.2 (by simpa using hf) hft
            simp only [Option.map_some, ← List.append_assoc]
            rw [endLine_ended]
            simp
  | .function _ _ _ _ _ _, _, _, hp => absurd hp (by simp [PlainStmt])
  | .ret _ _, _, _, hp => absurd hp (by simp [PlainStmt])

theorem printStmts_text {fmt : FloatFormat} {tab : Nat} : ∀ (l : List Stmt) (k : Nat) (s : Str),
    PlainStmts l →
    printStmts fmt tab k s l = (stmtsText fmt tab k l).map fun a => s ++ a
  | [], k, s, _ => by simp [printStmts, stmtsText]
  | t :: l, k, s, hp => by
    have h := printStmt_text t k (s ++ indentation tab k) (fmt := fmt) (tab := tab) hp.1
    simp only [printStmts, stmtsText]
    cases hs : printStmt fmt tab k (s ++ indentation tab k) t with
    | none =>
      rw [hs] at h
      cases ht : stmtText fmt tab k t with
      | none => rfl
      | some a => rw [ht] at h; simp at h
    | some s' =>
      rw [hs] at h
      cases ht : stmtText fmt tab k t with
      | none => rw [ht] at h; simp at h
      | some a =>
        rw [ht] at h
        simp only [Option.map_some, Option.some.injEq] at h
        simp only [Option.bind_some]
        show printStmts fmt tab k (endLine s') l = _
        rw [h, printStmts_text l k _ hp.2]
        cases stmtsText fmt tab k l with
        | none => rfl
        | some b => simp

end

/-! ## What can follow -/

/-- How a statement starts. -/
def Start (q : Str) : Prop :=
  ∃ n c x, q = n ++ c :: x ∧ (∀ d ∈ n, nameChar d = true) ∧ nameChar c = false ∧ c ≠ ':' ∧
    (n = [] → c ≠ ' ')

theorem Start.not_else {q x : Str} (h : Start q) : q ≠ ['e', 'l', 's', 'e', ':', '\n'] ++ x := by
  rintro rfl
  obtain ⟨n, c, y, h1, h2, h3, h4, _⟩ := h
  have h5 : ['e', 'l', 's', 'e'] ++ (':' :: '\n' :: x) = n ++ (c :: y) := h1
  obtain ⟨_, h6⟩ := span_unique nameChar (by decide) h2 (by simp; decide) (by simpa using h3) h5
  simp only [List.cons.injEq] at h6
  exact h4 h6.1.symm

theorem Start.head {q : Str} (h : Start q) : ∃ c x, q = c :: x ∧ c ≠ ' ' := by
  obtain ⟨n, c, y, rfl, h2, h3, h4, h5⟩ := h
  cases n with
  | nil => exact ⟨c, y, rfl, h5 rfl⟩
  | cons d n =>
    refine ⟨d, n ++ c :: y, rfl, ?_⟩
    rintro rfl
    exact absurd (h2 ' ' (by simp)) (by decide)

theorem digits_start {n : Nat} {u r : Str} (hu : ∀ d ∈ u, nameChar d = true) :
    Start (Nat.toDigits 10 n ++ u ++ '\n' :: r) := by
  refine ⟨Nat.toDigits 10 n ++ u, '\n', r, rfl, ?_, by decide, by decide, fun _ => by decide⟩
  intro d hd
  rcases List.mem_append.1 hd with hd | hd
  · exact isDigit_nameChar (Nat.isDigit_of_mem_toDigits (by decide) (by decide) hd)
  · exact hu d hd

theorem expr_start {fmt : FloatFormat} {e : Expr} {a : Str} (hp : PlainExpr e)
    (h : printExpr fmt e = some a) (r : Str) : Start (a ++ '\n' :: r) := by
  have single : ∀ {c : Char} {x : Str}, nameChar c = false → c ≠ ':' → c ≠ ' ' → Start (c :: x) :=
    fun {c x} h1 h2 h3 => ⟨[], c, x, rfl, by simp, h1, h2, fun _ => h3⟩
  match e with
  | .name _ n =>
    simp only [printExpr, Option.some.injEq] at h
    subst h
    exact ⟨n, '\n', r, rfl, hp.2.1, by decide, by decide, fun _ => by decide⟩
  | .number _ n =>
    simp only [printExpr, Option.some.injEq] at h
    subst h
    match n, hp with
    | .int t v, hp =>
      rw [printNumber_int hp.1 hp.2.1]
      have hu : ∀ d ∈ (if t.signed then [] else ['U'] : Str), nameChar d = true := by
        cases t.signed <;> simp
        decide
      unfold formatInt
      split
      · exact single (by decide) (by decide) (by decide)
      · exact digits_start hu
  | .string _ s =>
    simp only [printExpr, Option.some.injEq] at h
    subst h
    exact single (by decide) (by decide) (by decide)
  | .call _ n es =>
    simp only [printExpr, Option.map_eq_some_iff] at h
    obtain ⟨b, _, rfl⟩ := h
    refine ⟨n, '(', b ++ [')'] ++ '\n' :: r, by simp, hp.1.2.1, by decide, by decide, fun _ => by decide⟩
  | .operator _ n [x] =>
    simp only [printExpr, Option.map_eq_some_iff, Option.bind_eq_some_iff] at h
    obtain ⟨sym, hs, b, _, rfl⟩ := h
    obtain ⟨c, rfl, hc⟩ := unarySymbol_cases hs
    simp only [List.mem_cons, List.not_mem_nil, or_false] at hc
    rcases hc with rfl | rfl | rfl | rfl <;> exact single (by decide) (by decide) (by decide)
  | .operator _ n [x, y] =>
    simp only [printExpr, Option.map_eq_some_iff, Option.bind_eq_some_iff] at h
    obtain ⟨sym, hs, b, _, b', _, rfl⟩ := h
    exact single (by decide) (by decide) (by decide)
  | .operator _ n [] => simp [printExpr] at h
  | .operator _ n (x :: y :: z :: l) => simp [printExpr] at h
  | .subscript _ e s =>
    simp only [printExpr, Option.map_eq_some_iff, Option.bind_eq_some_iff] at h
    obtain ⟨b, _, b', _, rfl⟩ := h
    exact single (by decide) (by decide) (by decide)
  | .attribute _ e m =>
    simp only [printExpr, Option.map_eq_some_iff] at h
    obtain ⟨b, _, rfl⟩ := h
    exact single (by decide) (by decide) (by decide)

theorem stmt_start {fmt : FloatFormat} {tab k : Nat} {t : Stmt} {a : Str} (hp : PlainStmt t)
    (h : stmtText fmt tab k t = some a) (r : Str) : Start (a ++ r) := by
  match t with
  | .expr e =>
    simp only [stmtText, Option.map_eq_some_iff] at h
    obtain ⟨b, hb, rfl⟩ := h
    simpa using expr_start hp hb r
  | .assign _ _ n e =>
    simp only [stmtText, Option.map_eq_some_iff] at h
    obtain ⟨b, _, rfl⟩ := h
    exact ⟨n, ' ', _, by simp; rfl, hp.1.2.1, by decide, by decide, fun h => absurd h hp.1.1⟩
  | .ifElse _ _ c _ _ t _ _ f =>
    simp only [stmtText, Option.bind_eq_some_iff] at h
    obtain ⟨b, _, d, hd, h⟩ := h
    split at h
    · simp only [Option.some.injEq] at h
      subst h
      exact ⟨['i', 'f'], ' ', _, by simp; rfl, by decide, by decide, by decide, by simp⟩
    · simp only [Option.map_eq_some_iff] at h
      obtain ⟨g, hg, rfl⟩ := h
      exact ⟨['i', 'f'], ' ', _, by simp; rfl, by decide, by decide, by decide, by simp⟩
  | .while _ _ c _ _ t _ _ f =>
    simp only [stmtText, Option.bind_eq_some_iff] at h
    obtain ⟨b, _, d, hd, h⟩ := h
    split at h
    · simp only [Option.some.injEq] at h
      subst h
      exact ⟨['w', 'h', 'i', 'l', 'e'], ' ', _, by simp; rfl, by decide, by decide, by decide, by simp⟩
    · simp only [Option.map_eq_some_iff] at h
      obtain ⟨g, hg, rfl⟩ := h
      exact ⟨['w', 'h', 'i', 'l', 'e'], ' ', _, by simp; rfl, by decide, by decide, by decide, by simp⟩
  | .function _ _ _ _ _ _ => exact absurd hp (by simp [PlainStmt])
  | .ret _ _ => exact absurd hp (by simp [PlainStmt])

/-- What can follow statements of level `k`: something of a lower level. -/
def FollowStmts (tab k : Nat) (r : Str) : Prop :=
  r = [] ∨ ∃ j c q, j < k ∧ c ≠ ' ' ∧ r = indentation tab j ++ c :: q

/-- What can follow a statement of level `k`. -/
def FollowStmt (tab k : Nat) (r : Str) : Prop :=
  FollowStmts tab k r ∨ ∃ q, Start q ∧ r = indentation tab k ++ q

theorem indentation_unique {tab i j : Nat} (ht : 0 < tab) {c d : Char} {x y : Str} (hc : c ≠ ' ')
    (hd : d ≠ ' ') (h : indentation tab i ++ c :: x = indentation tab j ++ d :: y) :
    i = j ∧ c = d ∧ x = y := by
  have sp : ∀ {k : Nat}, ∀ c ∈ indentation tab k, (c == ' ') = true := by
    intro k c hc
    simp only [indentation, List.mem_replicate] at hc
    simp [hc.2]
  obtain ⟨h1, h2⟩ := span_unique (· == ' ') sp sp (by simpa using hc) (by simpa using hd) h
  simp only [List.cons.injEq] at h2
  refine ⟨?_, h2⟩
  have := congrArg List.length h1
  simp only [indentation, List.length_replicate] at this
  exact Nat.eq_of_mul_eq_mul_right ht this

theorem FollowStmt.stmts {tab k : Nat} {r : Str} (h : FollowStmt tab k r) :
    FollowStmts tab (k + 1) r := by
  rcases h with (h | ⟨j, c, q, h1, h2, h3⟩) | ⟨q, h1, h2⟩
  · exact .inl h
  · exact .inr ⟨j, c, q, by omega, h2, h3⟩
  · obtain ⟨c, x, rfl, hc⟩ := h1.head
    exact .inr ⟨k, c, x, by omega, hc, h2⟩

theorem follow_else {tab k : Nat} (x : Str) :
    FollowStmts tab (k + 1) (indentation tab k ++ (['e', 'l', 's', 'e', ':', '\n'] ++ x)) :=
  .inr ⟨k, 'e', _, by omega, by decide, rfl⟩

theorem FollowStmt.not_else {tab k : Nat} (ht : 0 < tab) {r x : Str} (h : FollowStmt tab k r) :
    r ≠ indentation tab k ++ (['e', 'l', 's', 'e', ':', '\n'] ++ x) := by
  rintro rfl
  rcases h with (h | ⟨j, c, q, h1, h2, h3⟩) | ⟨q, h1, h2⟩
  · simp at h
  · have := (indentation_unique ht (c := 'e') (by decide) h2 h3).1
    omega
  · exact h1.not_else (List.append_cancel_left h2).symm

theorem expr_not_word {fmt : FloatFormat} {e : Expr} {a r n x : Str} (hp : PlainExpr e)
    (h : printExpr fmt e = some a) (hn : Identifier n) : a ++ '\n' :: r ≠ n ++ ' ' :: x := by
  intro he
  have hcls : exprClass e = 2 := by
    rw [← plain_class hp h ('\n' :: r), he, textClass_name hn]
  have sp : ∀ c, (' ' :: x).head? = some c → nameChar c = false := by
    intro c hc
    simp only [List.head?_cons, Option.some.injEq] at hc
    subst hc
    decide
  match e with
  | .name _ m =>
    simp only [printExpr, Option.some.injEq] at h
    subst h
    have := (span_unique nameChar hp.2.1 hn.2.1 (follow_cons (by simp)).not_name sp he).2
    simp at this
  | .call _ m es =>
    simp only [printExpr, Option.map_eq_some_iff] at h
    obtain ⟨b, _, rfl⟩ := h
    simp only [List.append_assoc] at he
    have := (span_unique nameChar hp.1.2.1 hn.2.1
      (by intro c hc; simp only [List.cons_append, List.head?_cons, Option.some.injEq] at hc
          subst hc; decide) sp he).2
    simp at this
  | .number _ _ => simp [exprClass] at hcls
  | .string _ _ => simp [exprClass] at hcls
  | .operator _ _ [] => simp [printExpr] at h
  | .operator _ _ [_] => simp [exprClass] at hcls
  | .operator _ _ (_ :: _ :: _) => simp [exprClass] at hcls
  | .subscript _ _ _ => simp [exprClass] at hcls
  | .attribute _ _ _ => simp [exprClass] at hcls

theorem word_unique {n n' x x' : Str} (hn : Identifier n) (hn' : Identifier n')
    (h : n ++ ' ' :: x = n' ++ ' ' :: x') : n = n' ∧ x = x' := by
  have sp : ∀ {x : Str} (c), (' ' :: x).head? = some c → nameChar c = false := by
    intro x c hc
    simp only [List.head?_cons, Option.some.injEq] at hc
    subst hc
    decide
  obtain ⟨h1, h2⟩ := span_unique nameChar hn.2.1 hn'.2.1 sp sp h
  simp only [List.cons.injEq, true_and] at h2
  exact ⟨h1, h2⟩

theorem identifier_if : Identifier ['i', 'f'] :=
  ⟨by simp, by decide, by intro c hc; simp at hc; subst hc; decide⟩

theorem identifier_while : Identifier ['w', 'h', 'i', 'l', 'e'] :=
  ⟨by simp, by decide, by intro c hc; simp at hc; subst hc; decide⟩

theorem not_equals {fmt : FloatFormat} {e : Expr} {a r x : Str} (hp : PlainExpr e)
    (h : printExpr fmt e = some a) : a ++ r ≠ '=' :: x := by
  intro he
  have := plain_class hp h r
  rw [he] at this
  have h9 := exprClass_lt e
  rw [← this] at h9
  have : textClass ('=' :: x) = 9 := rfl
  omega

/-- The text of a statement that is not an expression and not an assignment: a word, a condition and one
or two blocks. -/
inductive BlockText (fmt : FloatFormat) (tab k : Nat) (w : Str) (c : Expr) (t f : List Stmt) :
    Str → Prop
  | single (a b : Str) : printExpr fmt c = some a → stmtsText fmt tab (k + 1) t = some b → f = [] →
    BlockText fmt tab k w c t f (w ++ (' ' :: (a ++ ([':', '\n'] ++ b))))
  | double (a b d : Str) : printExpr fmt c = some a → stmtsText fmt tab (k + 1) t = some b → f ≠ [] →
    stmtsText fmt tab (k + 1) f = some d →
    BlockText fmt tab k w c t f (w ++ (' ' :: (a ++ ([':', '\n'] ++ (b ++ (indentation tab k ++
        (['e', 'l', 's', 'e', ':', '\n'] ++ d)))))))

theorem ifElse_text {fmt : FloatFormat} {tab k : Nat} {v v1 v2 v3 v4 v5 : Vid} {c : Expr}
    {t f : List Stmt} {a : Str} (h : stmtText fmt tab k (.ifElse v v1 c v2 v3 t v4 v5 f) = some a) :
    BlockText fmt tab k ['i', 'f'] c t f a := by
  simp only [stmtText, Option.bind_eq_some_iff] at h
  obtain ⟨b, hb, d, hd, h⟩ := h
  split at h
  · rename_i hf
    simp only [Option.some.injEq] at h
    subst h
    exact .single b d hb hd (by simpa using hf)
  · rename_i hf
    simp only [Option.map_eq_some_iff] at h
    obtain ⟨g, hg, rfl⟩ := h
    exact .double b d g hb hd (by simpa using hf) hg

theorem while_text {fmt : FloatFormat} {tab k : Nat} {v v1 v2 v3 v4 v5 : Vid} {c : Expr}
    {t f : List Stmt} {a : Str} (h : stmtText fmt tab k (.while v v1 c v2 v3 t v4 v5 f) = some a) :
    BlockText fmt tab k ['w', 'h', 'i', 'l', 'e'] c t f a := by
  simp only [stmtText, Option.bind_eq_some_iff] at h
  obtain ⟨b, hb, d, hd, h⟩ := h
  split at h
  · rename_i hf
    simp only [Option.some.injEq] at h
    subst h
    exact .single b d hb hd (by simpa using hf)
  · rename_i hf
    simp only [Option.map_eq_some_iff] at h
    obtain ⟨g, hg, rfl⟩ := h
    exact .double b d g hb hd (by simpa using hf) hg

/-- The text of a block statement is a word, a space and an expression. -/
theorem BlockText.word {fmt : FloatFormat} {tab k : Nat} {w : Str} {c : Expr} {t f : List Stmt} {a : Str}
    (h : BlockText fmt tab k w c t f a) : ∃ b x, printExpr fmt c = some b ∧ a = w ++ ' ' :: (b ++ x) := by
  cases h with
  | single a b h1 _ _ => exact ⟨a, _, h1, rfl⟩
  | double a b d h1 _ _ _ => exact ⟨a, _, h1, rfl⟩

/-- Reading of blocks, given that the statements in them can be read. -/
theorem block_unique {fmt : FloatFormat} {tab k : Nat} (ht : 0 < tab) {w : Str} {c c' : Expr}
    {t f t' f' : List Stmt} {a a' r r' : Str} (hc : PlainExpr c) (hc' : PlainExpr c')
    (iht : ∀ {b b' q q' : Str}, stmtsText fmt tab (k + 1) t = some b →
      stmtsText fmt tab (k + 1) t' = some b' → FollowStmts tab (k + 1) q → FollowStmts tab (k + 1) q' →
      b ++ q = b' ++ q' → bareStmts t = bareStmts t' ∧ q = q')
    (ihf : ∀ {b b' q q' : Str}, stmtsText fmt tab (k + 1) f = some b →
      stmtsText fmt tab (k + 1) f' = some b' → FollowStmts tab (k + 1) q → FollowStmts tab (k + 1) q' →
      b ++ q = b' ++ q' → bareStmts f = bareStmts f' ∧ q = q')
    (ha : BlockText fmt tab k w c t f a) (ha' : BlockText fmt tab k w c' t' f' a')
    (hr : FollowStmt tab k r) (hr' : FollowStmt tab k r') (h : a ++ r = a' ++ r') :
    bareExpr c = bareExpr c' ∧ bareStmts t = bareStmts t' ∧ bareStmts f = bareStmts f' ∧ r = r' := by
  cases ha with
  | single a b h1 h2 h3 =>
    cases ha' with
    | single a' b' h1' h2' h3' =>
      simp only [List.append_assoc, List.cons_append, List.nil_append, List.append_cancel_left_eq,
        List.cons.injEq, true_and] at h
      obtain ⟨g1, g2⟩ := expr_unique c hc hc' h1 h1' (follow_cons (by simp)) (follow_cons (by simp)) h
      simp only [List.cons.injEq, true_and] at g2
      obtain ⟨g3, g4⟩ := iht h2 h2' hr.stmts hr'.stmts g2
      exact ⟨g1, g3, by rw [h3, h3'], g4⟩
    | double a' b' d' h1' h2' h3' h4' =>
      simp only [List.append_assoc, List.cons_append, List.nil_append, List.append_cancel_left_eq,
        List.cons.injEq, true_and] at h
      obtain ⟨g1, g2⟩ := expr_unique c hc hc' h1 h1' (follow_cons (by simp)) (follow_cons (by simp)) h
      simp only [List.cons.injEq, true_and] at g2
      obtain ⟨g3, g4⟩ := iht h2 h2' hr.stmts (follow_else (d' ++ r')) g2
      exact absurd g4 (hr.not_else ht)
  | double a b d h1 h2 h3 h4 =>
    cases ha' with
    | single a' b' h1' h2' h3' =>
      simp only [List.append_assoc, List.cons_append, List.nil_append, List.append_cancel_left_eq,
        List.cons.injEq, true_and] at h
      obtain ⟨g1, g2⟩ := expr_unique c hc hc' h1 h1' (follow_cons (by simp)) (follow_cons (by simp)) h
      simp only [List.cons.injEq, true_and] at g2
      obtain ⟨g3, g4⟩ := iht h2 h2' (follow_else (d ++ r)) hr'.stmts g2
      exact absurd g4.symm (hr'.not_else ht)
    | double a' b' d' h1' h2' h3' h4' =>
      simp only [List.append_assoc, List.cons_append, List.nil_append, List.append_cancel_left_eq,
        List.cons.injEq, true_and] at h
      obtain ⟨g1, g2⟩ := expr_unique c hc hc' h1 h1' (follow_cons (by simp)) (follow_cons (by simp)) h
      simp only [List.cons.injEq, true_and] at g2
      obtain ⟨g3, g4⟩ := iht h2 h2' (follow_else (d ++ r)) (follow_else (d' ++ r')) g2
      simp only [List.append_cancel_left_eq, List.cons.injEq, true_and] at g4
      obtain ⟨g5, g6⟩ := ihf h4 h4' hr.stmts hr'.stmts g4
      exact ⟨g1, g3, g5, g6⟩

mutual

/-- The text of a statement, followed by something that can follow it, determines the statement and what
follows. -/
theorem stmt_unique {fmt : FloatFormat} {tab : Nat} (ht : 0 < tab) : ∀ (t : Stmt) {t' : Stmt} {k : Nat}
    {a a' r r' : Str}, PlainStmt t → PlainStmt t' → stmtText fmt tab k t = some a →
    stmtText fmt tab k t' = some a' → FollowStmt tab k r → FollowStmt tab k r' → a ++ r = a' ++ r' →
    bareStmt t = bareStmt t' ∧ r = r'
  | .expr e, t', k, a, a', r, r', hp, hp', ha, ha', hr, hr', h => by
    simp only [stmtText, Option.map_eq_some_iff] at ha
    obtain ⟨b, hb, rfl⟩ := ha
    simp only [List.append_assoc, List.cons_append, List.nil_append] at h
    match t' with
    | .expr e' =>
      simp only [stmtText, Option.map_eq_some_iff] at ha'
      obtain ⟨b', hb', rfl⟩ := ha'
      simp only [List.append_assoc, List.cons_append, List.nil_append] at h
      obtain ⟨h1, h2⟩ := expr_unique e hp hp' hb hb' (follow_cons (by simp)) (follow_cons (by simp)) h
      simp only [List.cons.injEq, true_and] at h2
      exact ⟨by simp [bareStmt, h1], h2⟩
    | .assign _ _ n e' =>
      simp only [stmtText, Option.map_eq_some_iff] at ha'
      obtain ⟨b', hb', rfl⟩ := ha'
      simp only [List.append_assoc, List.cons_append, List.nil_append] at h
      exact absurd h (expr_not_word hp hb hp'.1)
    | .ifElse _ _ c _ _ t _ _ f =>
      obtain ⟨y, z, _, rfl⟩ := (ifElse_text ha').word
      rw [List.append_assoc] at h
      exact absurd h (expr_not_word hp hb identifier_if)
    | .while _ _ c _ _ t _ _ f =>
      obtain ⟨y, z, _, rfl⟩ := (while_text ha').word
      rw [List.append_assoc] at h
      exact absurd h (expr_not_word hp hb identifier_while)
    | .function _ _ _ _ _ _ => exact absurd hp' (by simp [PlainStmt])
    | .ret _ _ => exact absurd hp' (by simp [PlainStmt])
  | .assign _ _ n e, t', k, a, a', r, r', hp, hp', ha, ha', hr, hr', h => by
    simp only [stmtText, Option.map_eq_some_iff] at ha
    obtain ⟨b, hb, rfl⟩ := ha
    simp only [List.append_assoc, List.cons_append, List.nil_append] at h
    match t' with
    | .expr e' =>
      simp only [stmtText, Option.map_eq_some_iff] at ha'
      obtain ⟨b', hb', rfl⟩ := ha'
      simp only [List.append_assoc, List.cons_append, List.nil_append] at h
      exact absurd h.symm (expr_not_word hp' hb' hp.1)
    | .assign _ _ n' e' =>
      simp only [stmtText, Option.map_eq_some_iff] at ha'
      obtain ⟨b', hb', rfl⟩ := ha'
      simp only [List.append_assoc, List.cons_append, List.nil_append] at h
      obtain ⟨h1, h2⟩ := word_unique hp.1 hp'.1 h
      simp only [List.cons.injEq, true_and] at h2
      obtain ⟨h3, h4⟩ := expr_unique e hp.2 hp'.2 hb hb' (follow_cons (by simp)) (follow_cons (by simp)) h2
      simp only [List.cons.injEq, true_and] at h4
      exact ⟨by simp [bareStmt, h1, h3], h4⟩
    | .ifElse _ _ c _ _ t _ _ f =>
      obtain ⟨y, z, hy, rfl⟩ := (ifElse_text ha').word
      rw [List.append_assoc] at h
      have := (word_unique hp.1 identifier_if h).2
      simp only [List.append_eq, List.append_assoc, List.cons_append, List.nil_append] at this
      exact absurd this.symm (not_equals hp'.1 hy)
    | .while _ _ c _ _ t _ _ f =>
      obtain ⟨y, z, hy, rfl⟩ := (while_text ha').word
      rw [List.append_assoc] at h
      have := (word_unique hp.1 identifier_while h).2
      simp only [List.append_eq, List.append_assoc, List.cons_append, List.nil_append] at this
      exact absurd this.symm (not_equals hp'.1 hy)
    | .function _ _ _ _ _ _ => exact absurd hp' (by simp [PlainStmt])
    | .ret _ _ => exact absurd hp' (by simp [PlainStmt])
  | .ifElse _ _ c _ _ t _ _ f, t', k, a, a', r, r', hp, hp', ha, ha', hr, hr', h => by
    have hb := ifElse_text ha
    match t' with
    | .expr e' =>
      simp only [stmtText, Option.map_eq_some_iff] at ha'
      obtain ⟨b', hb', rfl⟩ := ha'
      obtain ⟨y, z, hy, rfl⟩ := hb.word
      simp only [List.append_assoc, List.cons_append, List.nil_append] at h
      exact absurd h.symm (expr_not_word hp' hb' identifier_if)
    | .assign _ _ n' e' =>
      simp only [stmtText, Option.map_eq_some_iff] at ha'
      obtain ⟨b', hb', rfl⟩ := ha'
      obtain ⟨y, z, hy, rfl⟩ := hb.word
      rw [List.append_assoc, List.append_assoc] at h
      have := (word_unique identifier_if hp'.1 h).2
      simp only [List.append_eq, List.append_assoc, List.cons_append, List.nil_append] at this
      exact absurd this (not_equals hp.1 hy)
    | .ifElse _ _ c' _ _ t' _ _ f' =>
      have hb' := ifElse_text ha'
      obtain ⟨h1, h2, h3, h4⟩ := block_unique ht hp.1 hp'.1
        (fun g1 g2 g3 g4 g5 => stmts_unique ht t hp.2.2.1 hp'.2.2.1 g1 g2 g3 g4 g5)
        (fun g1 g2 g3 g4 g5 => stmts_unique ht f hp.2.2.2 hp'.2.2.2 g1 g2 g3 g4 g5) hb hb' hr hr' h
      exact ⟨by simp [bareStmt, h1, h2, h3], h4⟩
    | .while _ _ c _ _ t _ _ f =>
      obtain ⟨y, z, hy, rfl⟩ := hb.word
      obtain ⟨y', z', hy', rfl⟩ := (while_text ha').word
      rw [List.append_assoc, List.append_assoc] at h
      exact absurd (word_unique identifier_if identifier_while h).1 (by decide)
    | .function _ _ _ _ _ _ => exact absurd hp' (by simp [PlainStmt])
    | .ret _ _ => exact absurd hp' (by simp [PlainStmt])
  | .while _ _ c _ _ t _ _ f, t', k, a, a', r, r', hp, hp', ha, ha', hr, hr', h => by
    have hb := while_text ha
    match t' with
    | .expr e' =>
      simp only [stmtText, Option.map_eq_some_iff] at ha'
      obtain ⟨b', hb', rfl⟩ := ha'
      obtain ⟨y, z, hy, rfl⟩ := hb.word
      rw [List.append_assoc, List.append_assoc] at h
      exact absurd h.symm (expr_not_word hp' hb' identifier_while)
    | .assign _ _ n' e' =>
      simp only [stmtText, Option.map_eq_some_iff] at ha'
      obtain ⟨b', hb', rfl⟩ := ha'
      obtain ⟨y, z, hy, rfl⟩ := hb.word
      rw [List.append_assoc, List.append_assoc] at h
      have := (word_unique identifier_while hp'.1 h).2
      simp only [List.append_eq, List.append_assoc, List.cons_append, List.nil_append] at this
      exact absurd this (not_equals hp.1 hy)
    | .while _ _ c' _ _ t' _ _ f' =>
      have hb' := while_text ha'
      obtain ⟨h1, h2, h3, h4⟩ := block_unique ht hp.1 hp'.1
        (fun g1 g2 g3 g4 g5 => stmts_unique ht t hp.2.2.1 hp'.2.2.1 g1 g2 g3 g4 g5)
        (fun g1 g2 g3 g4 g5 => stmts_unique ht f hp.2.2.2 hp'.2.2.2 g1 g2 g3 g4 g5) hb hb' hr hr' h
      exact ⟨by simp [bareStmt, h1, h2, h3], h4⟩
    | .ifElse _ _ c _ _ t _ _ f =>
      obtain ⟨y, z, hy, rfl⟩ := hb.word
      obtain ⟨y', z', hy', rfl⟩ := (ifElse_text ha').word
      rw [List.append_assoc, List.append_assoc] at h
      exact absurd (word_unique identifier_while identifier_if h).1 (by decide)
    | .function _ _ _ _ _ _ => exact absurd hp' (by simp [PlainStmt])
    | .ret _ _ => exact absurd hp' (by simp [PlainStmt])
  | .function _ _ _ _ _ _, _, _, _, _, _, _, hp, _, _, _, _, _, _ => absurd hp (by simp [PlainStmt])
  | .ret _ _, _, _, _, _, _, _, hp, _, _, _, _, _, _ => absurd hp (by simp [PlainStmt])

theorem stmts_unique {fmt : FloatFormat} {tab : Nat} (ht : 0 < tab) : ∀ (l : List Stmt)
    {l' : List Stmt} {k : Nat} {a a' r r' : Str}, PlainStmts l → PlainStmts l' →
    stmtsText fmt tab k l = some a → stmtsText fmt tab k l' = some a' → FollowStmts tab k r →
    FollowStmts tab k r' → a ++ r = a' ++ r' → bareStmts l = bareStmts l' ∧ r = r'
  | [], l', k, a, a', r, r', _, hp', ha, ha', hr, hr', h => by
    simp only [stmtsText, Option.some.injEq] at ha
    subst ha
    match l' with
    | [] =>
      simp only [stmtsText, Option.some.injEq] at ha'
      subst ha'
      exact ⟨rfl, h⟩
    | t :: l' =>
      simp only [stmtsText, Option.bind_eq_some_iff, Option.map_eq_some_iff] at ha'
      obtain ⟨b, hb, d, _, rfl⟩ := ha'
      simp only [List.append_assoc, List.nil_append] at h
      obtain ⟨c, x, hx, hc⟩ := (stmt_start hp'.1 hb (d ++ r')).head
      rw [hx] at h
      rcases hr with rfl | ⟨j, c', q, h1, h2, h3⟩
      · simp at h
      · rw [h3] at h
        have := (indentation_unique ht h2 hc h).1
        omega
  | t :: l, l', k, a, a', r, r', hp, hp', ha, ha', hr, hr', h => by
    simp only [stmtsText, Option.bind_eq_some_iff, Option.map_eq_some_iff] at ha
    obtain ⟨b, hb, d, hd, rfl⟩ := ha
    simp only [List.append_assoc] at h
    match l' with
    | [] =>
      simp only [stmtsText, Option.some.injEq] at ha'
      subst ha'
      obtain ⟨c, x, hx, hc⟩ := (stmt_start hp.1 hb (d ++ r)).head
      rw [hx] at h
      rcases hr' with rfl | ⟨j, c', q, h1, h2, h3⟩
      · simp at h
      · rw [h3] at h
        have := (indentation_unique ht hc h2 h).1
        omega
    | t' :: l' =>
      simp only [stmtsText, Option.bind_eq_some_iff, Option.map_eq_some_iff] at ha'
      obtain ⟨b', hb', d', hd', rfl⟩ := ha'
      simp only [List.append_assoc, List.append_cancel_left_eq] at h
      have fol : ∀ {l : List Stmt} {d r : Str}, PlainStmts l → stmtsText fmt tab k l = some d →
          FollowStmts tab k r → FollowStmt tab k (d ++ r) := by
        intro l d r hp hd hr
        match l with
        | [] =>
          simp only [stmtsText, Option.some.injEq] at hd
          subst hd
          exact .inl hr
        | u :: l =>
          simp only [stmtsText, Option.bind_eq_some_iff, Option.map_eq_some_iff] at hd
          obtain ⟨y, hy, z, _, rfl⟩ := hd
          simp only [List.append_assoc]
          exact .inr ⟨_, stmt_start hp.1 hy (z ++ r), rfl⟩
      obtain ⟨h1, h2⟩ := stmt_unique ht t hp.1 hp'.1 hb hb' (fol hp.2 hd hr) (fol hp'.2 hd' hr') h
      obtain ⟨h3, h4⟩ := stmts_unique ht l hp.2 hp'.2 hd hd' hr hr' h2
      exact ⟨by simp [bareStmts, h1, h3], h4⟩

end

end Fern
