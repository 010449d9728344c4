import Verif.Lemmas.PrintModule

/-!
# Property C64: printed modules
-/

namespace Fern

open Spec

/-- C64: expressions that are printed as the same text are the same, up to the identities of the
vertices and the sizes of the integers. -/
theorem C64_expr_injective (fmt : FloatFormat) (e e' : Expr) (a : Str) (hp : PlainExpr e)
    (hp' : PlainExpr e') (h : printExpr fmt e = some a) (h' : printExpr fmt e' = some a) :
    bareExpr e = bareExpr e' :=
  (expr_unique e hp hp' h h' (r := []) (r' := []) (by simp [Follow]) (by simp [Follow]) rfl).1

/-- C64: modules that are printed as the same text have the same statements, up to the identities of
the vertices and the sizes of the integers. -/
theorem C64_module_injective (fmt : FloatFormat) (tab : Nat) (ht : 0 < tab) (m m' : Module) (a : Str)
    (hp : PlainStmts m.statements) (hp' : PlainStmts m'.statements)
    (h : printModule fmt tab m = some a) (h' : printModule fmt tab m' = some a) :
    bareStmts m.statements = bareStmts m'.statements := by
  unfold printModule at h h'
  rw [printStmts_text _ _ _ hp] at h
  rw [printStmts_text _ _ _ hp'] at h'
  simp only [List.nil_append, Option.map_id', id] at h h'
  exact (stmts_unique ht _ hp hp' h h' (r := []) (r' := []) (.inl rfl) (.inl rfl) rfl).1

/-! ## The text depends on nothing else -/

theorem printNumber_bare (fmt : FloatFormat) (n : Number) (h : PlainNumber n) :
    printNumber fmt (bareNumber n) = printNumber fmt n := by
  match n, h with
  | .int t v, h =>
    rw [printNumber_int h.1 h.2.1]
    show printNumber fmt (.int (if t.signed then .i64 else .u64) v) = _
    cases t.signed
    · rfl
    · exact (List.append_nil _).symm

theorem bareExprs_length : ∀ l : List Expr, (bareExprs l).length = l.length
  | [] => rfl
  | e :: l => by simp [bareExprs, bareExprs_length l]

mutual

theorem printExpr_bare (fmt : FloatFormat) : ∀ e : Expr, PlainExpr e →
    printExpr fmt (bareExpr e) = printExpr fmt e
  | .name _ n, _ => by simp [bareExpr, printExpr]
  | .number _ n, hp => by simp [bareExpr, printExpr, printNumber_bare fmt n hp]
  | .string _ s, _ => by simp [bareExpr, printExpr]
  | .call _ n es, hp => by simp only [bareExpr, printExpr]; rw [printExprs_bare fmt es hp.2]
  | .operator _ n [], _ => by simp [bareExpr, bareExprs, printExpr]
  | .operator _ n [x], hp => by
    simp only [bareExpr, bareExprs, printExpr]; rw [printExpr_bare fmt x hp.1]
  | .operator _ n [x, y], hp => by
    simp only [bareExpr, bareExprs, printExpr]
    rw [printExpr_bare fmt x hp.1, printExpr_bare fmt y hp.2.1]
  | .operator _ n (x :: y :: z :: l), _ => by simp [bareExpr, bareExprs, printExpr]
  | .subscript _ e s, hp => by
    simp only [bareExpr, printExpr]
    rw [printExpr_bare fmt e hp.1, printExpr_bare fmt s hp.2]
  | .attribute _ e m, hp => by simp only [bareExpr, printExpr]; rw [printExpr_bare fmt e hp.1]

theorem printExprs_bare (fmt : FloatFormat) : ∀ es : List Expr, PlainExprs es →
    printExprs fmt (bareExprs es) = printExprs fmt es
  | [], _ => by simp [bareExprs, printExprs]
  | [x], hp => by simp only [bareExprs, printExprs]; rw [printExpr_bare fmt x hp.1]
  | x :: y :: l, hp => by
    have := printExprs_bare fmt (y :: l) hp.2
    simp only [bareExprs] at this
    simp only [bareExprs, printExprs]
    rw [printExpr_bare fmt x hp.1, this]

end

mutual

theorem printStmt_bare (fmt : FloatFormat) (tab : Nat) : ∀ (t : Stmt) (k : Nat) (s : Str), PlainStmt t →
    printStmt fmt tab k s (bareStmt t) = printStmt fmt tab k s t
  | .expr e, k, s, hp => by simp only [bareStmt, printStmt]; rw [printExpr_bare fmt e hp]
  | .assign _ _ n e, k, s, hp => by simp only [bareStmt, printStmt]; rw [printExpr_bare fmt e hp.2]
  | .ifElse _ _ c _ _ t _ _ f, k, s, hp => by
    simp only [bareStmt, printStmt]
    rw [printExpr_bare fmt c hp.1]
    congr 1
    funext a
    rw [printStmts_bare fmt tab t _ _ hp.2.2.1]
    congr 1
    funext s
    cases f with
    | nil => simp [bareStmts]
    | cons u f =>
      have := printStmts_bare fmt tab (u :: f) (k + 1)
        (s ++ indentation tab k ++ ['e', 'l', 's', 'e', ':', '\n']) hp.2.2.2
      simp only [bareStmts] at this
      simp only [bareStmts, List.isEmpty_cons, Bool.false_eq_true, if_false]
      exact this
  | .while _ _ c _ _ t _ _ f, k, s, hp => by
    simp only [bareStmt, printStmt]
    rw [printExpr_bare fmt c hp.1]
    congr 1
    funext a
    rw [printStmts_bare fmt tab t _ _ hp.2.2.1]
    congr 1
    funext s
    cases f with
    | nil => simp [bareStmts]
    | cons u f =>
      have := printStmts_bare fmt tab (u :: f) (k + 1)
        (s ++ indentation tab k ++ ['e', 'l', 's', 'e', ':', '\n']) hp.2.2.2
      simp only [bareStmts] at this
      simp only [bareStmts, List.isEmpty_cons, Bool.false_eq_true, if_false]
      exact this
  | .function _ _ _ _ _ _, _, _, hp => absurd hp (by simp [PlainStmt])
  | .ret _ _, _, _, hp => absurd hp (by simp [PlainStmt])

theorem printStmts_bare (fmt : FloatFormat) (tab : Nat) : ∀ (l : List Stmt) (k : Nat) (s : Str),
    PlainStmts l → printStmts fmt tab k s (bareStmts l) = printStmts fmt tab k s l
  | [], _, _, _ => by simp [bareStmts]
  | t :: l, k, s, hp => by
    simp only [bareStmts, printStmts]
    rw [printStmt_bare fmt tab t _ _ hp.1]
    congr 1
    funext s
    exact printStmts_bare fmt tab l _ _ hp.2

end

/-- C64: the text of a module depends on nothing else than its statements without identities and
sizes of integers. -/
theorem C64_module_iff (fmt : FloatFormat) (tab : Nat) (ht : 0 < tab) (m m' : Module)
    (hp : PlainStmts m.statements) (hp' : PlainStmts m'.statements)
    (hs : (printModule fmt tab m).isSome) :
    printModule fmt tab m = printModule fmt tab m' ↔
      bareStmts m.statements = bareStmts m'.statements := by
  constructor
  · intro h
    obtain ⟨a, ha⟩ := Option.isSome_iff_exists.1 hs
    exact C64_module_injective fmt tab ht m m' a hp hp' ha (h ▸ ha)
  · intro h
    unfold printModule
    rw [← printStmts_bare fmt tab _ _ _ hp, h, printStmts_bare fmt tab _ _ _ hp']

/-! ## Which modules are printed -/

mutual

/-- Each operator has a symbol for its number of operands. -/
def KnownOperators : Expr → Prop
  | .name _ _ => True
  | .number _ _ => True
  | .string _ _ => True
  | .call _ _ es => KnownOperatorsAll es
  | .operator _ n es => (nameToSymbol n es.length).isSome ∧ KnownOperatorsAll es
  | .subscript _ e s => KnownOperators e ∧ KnownOperators s
  | .attribute _ e _ => KnownOperators e

def KnownOperatorsAll : List Expr → Prop
  | [] => True
  | e :: l => KnownOperators e ∧ KnownOperatorsAll l

end

mutual

theorem printExpr_isSome (fmt : FloatFormat) : ∀ e : Expr, (printExpr fmt e).isSome ↔ KnownOperators e
  | .name _ n => by simp [printExpr, KnownOperators]
  | .number _ n => by simp [printExpr, KnownOperators]
  | .string _ s => by simp [printExpr, KnownOperators]
  | .call _ n es => by
    simp only [printExpr, KnownOperators, Option.isSome_map]
    exact printExprs_isSome fmt es
  | .operator _ n [] => by simp [printExpr, KnownOperators, nameToSymbol]
  | .operator _ n [x] => by
    simp only [printExpr, KnownOperators, KnownOperatorsAll, List.length_cons, List.length_nil]
    rw [← printExpr_isSome fmt x]
    cases nameToSymbol n (0 + 1) <;> simp
  | .operator _ n [x, y] => by
    simp only [printExpr, KnownOperators, KnownOperatorsAll, List.length_cons, List.length_nil]
    rw [← printExpr_isSome fmt x, ← printExpr_isSome fmt y]
    cases nameToSymbol n (0 + 1 + 1) <;> cases printExpr fmt x <;> simp
  | .operator _ n (x :: y :: z :: l) => by simp [printExpr, KnownOperators, nameToSymbol]
  | .subscript _ e s => by
    simp only [printExpr, KnownOperators]
    rw [← printExpr_isSome fmt e, ← printExpr_isSome fmt s]
    cases printExpr fmt e <;> simp
  | .attribute _ e m => by
    simp only [printExpr, KnownOperators, Option.isSome_map]
    exact printExpr_isSome fmt e

theorem printExprs_isSome (fmt : FloatFormat) : ∀ es : List Expr,
    (printExprs fmt es).isSome ↔ KnownOperatorsAll es
  | [] => by simp [printExprs, KnownOperatorsAll]
  | [x] => by
    simp only [printExprs, KnownOperatorsAll, and_true]
    exact printExpr_isSome fmt x
  | x :: y :: l => by
    have := printExprs_isSome fmt (y :: l)
    simp only [printExprs]
    rw [KnownOperatorsAll, ← this, ← printExpr_isSome fmt x]
    cases printExpr fmt x <;> simp

end

/-- C64: an expression is printed if and only if each operator in it has a symbol. -/
theorem C64_expr_printed (fmt : FloatFormat) (e : Expr) :
    (printExpr fmt e).isSome ↔ KnownOperators e := printExpr_isSome fmt e

theorem printStmts_function (fmt : FloatFormat) (tab k : Nat) : ∀ (l : List Stmt) (s : Str) (v : Vid)
    (n : Str) (args : List Expr) (bv bs : Vid) (body : List Stmt),
    Stmt.function v n args bv bs body ∈ l → printStmts fmt tab k s l = none
  | [], _, _, _, _, _, _, _, h => by simp at h
  | t :: l, s, v, n, args, bv, bs, body, h => by
    simp only [printStmts]
    rcases List.mem_cons.1 h with rfl | h
    · simp [printStmt]
    · cases printStmt fmt tab k (s ++ indentation tab k) t with
      | none => rfl
      | some s' =>
        simp only [Option.bind_some]
        exact printStmts_function fmt tab k l _ v n args bv bs body h

/-- C64: printing a module with a function definition fails an assertion. -/
theorem C64_function (fmt : FloatFormat) (tab : Nat) (m : Module) (v : Vid) (n : Str)
    (args : List Expr) (bv bs : Vid) (body : List Stmt)
    (h : Stmt.function v n args bv bs body ∈ m.statements) : printModule fmt tab m = none :=
  printStmts_function fmt tab 0 _ _ v n args bv bs body h

/-! ## Different modules with the same text -/

/-- C64: a string that contains quotes can look like several strings. -/
theorem C64_quotes (fmt : FloatFormat) :
    printExpr fmt (.call 0 "f".toList [.string 1 "a".toList, .string 2 "b".toList]) =
      printExpr fmt (.call 0 "f".toList [.string 1 "a\", \"b".toList]) ∧
    (printExpr fmt (.call 0 "f".toList [.string 1 "a\", \"b".toList])).isSome := ⟨rfl, rfl⟩

/-- C64: numbers of 8-bit types are printed as characters: the signed 97 as the name `a`, the unsigned 53
as the unsigned number 5 of 16 bits. -/
theorem C64_bytes (fmt : FloatFormat) :
    printExpr fmt (.number 0 (.int .i8 97)) = printExpr fmt (.name 0 "a".toList) ∧
    printExpr fmt (.number 0 (.int .u8 53)) = printExpr fmt (.number 0 (.int .u16 5)) ∧
    printExpr fmt (.number 0 (.int .u16 5)) = some "5U".toList := ⟨rfl, rfl, rfl⟩

/-- C64: without indentation the end of a block cannot be seen. -/
theorem C64_no_tabs (fmt : FloatFormat) :
    printModule fmt 0 ⟨0, 1, 2, [.ifElse 3 4 (.name 5 "c".toList) 6 7 [.expr (.name 8 "a".toList)] 9 10 [],
      .expr (.name 11 "b".toList)]⟩ =
    printModule fmt 0 ⟨0, 1, 2, [.ifElse 3 4 (.name 5 "c".toList) 6 7 [.expr (.name 8 "a".toList),
      .expr (.name 11 "b".toList)] 9 10 []]⟩ ∧
    printModule fmt 0 ⟨0, 1, 2, [.ifElse 3 4 (.name 5 "c".toList) 6 7 [.expr (.name 8 "a".toList)] 9 10 [],
      .expr (.name 11 "b".toList)]⟩ = some "if c:\na\nb\n".toList := ⟨rfl, rfl⟩

/-! ## A case -/

def printProgram : Module :=
  ⟨0, 1, 2, [.assign 3 4 "a".toList (.operator 5 "FloorDiv".toList
      [.call 6 "f".toList [.number 7 (.int .i64 (-12)), .string 8 "x y".toList],
        .operator 9 "UnarySub".toList [.attribute 10 (.name 11 "b".toList) "c".toList]]),
    .ifElse 12 13 (.subscript 14 (.name 15 "a".toList) (.number 16 (.int .u32 3))) 17 18
      [.ifElse 19 20 (.name 21 "p".toList) 22 23 [.expr (.name 24 "q".toList)] 25 26 []] 27 28
      [.expr (.call 29 "g".toList [])]]⟩

example : printModule ⟨fun _ => [], fun _ => []⟩ 2 printProgram = some
    "a = (f(-12, \"x y\")) // (-((b).c))\nif (a)[3U]:\n  if p:\n    q\nelse:\n  g()\n".toList := by decide +kernel

example : PlainStmts printProgram.statements := by
  have ident : ∀ c : Char, nameChar c = true → c.isDigit = false → Identifier [c] := fun c h1 h2 =>
    ⟨by simp, by simpa using h1, by simpa using h2⟩
  refine ⟨⟨ident _ rfl rfl, ⟨ident _ rfl rfl, ⟨by decide, by decide, by decide, by decide⟩, ?_, trivial⟩,
    ⟨⟨ident _ rfl rfl, ident _ rfl rfl⟩, trivial⟩, trivial⟩, ⟨⟨ident _ rfl rfl, ⟨by decide, by decide, by decide,
    by decide⟩⟩, by simp, ⟨⟨ident _ rfl rfl, by simp, ⟨ident _ rfl rfl, trivial⟩, trivial⟩, trivial⟩,
    ⟨ident _ rfl rfl, trivial⟩, trivial⟩, trivial⟩
  show '"' ∉ "x y".toList
  decide

end Fern
