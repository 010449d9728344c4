import Verif.Lemmas.Execute

/-!
# C57, C59: execution

Properties of the model in `Verif.Model.Execute`.
-/

namespace Fern

open Spec

variable {V : Type}

/-! ### C57: straight-line modules -/

/-- Execution of straight-line statements fails iff they have no meaning; otherwise it leaves the names
with the values they have by the meaning of the statements, the stack as it was below the values of the
statements that are expressions, and writes the values of the outputs. -/
theorem C57_statements (c : ExecuteContext V) (hone : OneResult c.ops) (s : ExecuteState V)
    (l : List Stmt) (hl : StraightLine l) (har : ArityRight c.ops (stmtsTerms l)) (ht : s.table ≠ []) :
    (executeStmts c s l).map (fun s' => (s'.env c, s'.stack, s'.writes)) =
      (evalStmts c (s.env c) l).map fun r =>
        (r.1, r.2.reverse ++ s.stack, s.writes ++ evalWrites c (s.env c) l) := by
  have h := executeStmts_eq c hone s l hl har ht
  cases hr : evalStmts c (s.env c) l with
  | none => rw [hr] at h; rw [h]; rfl
  | some r =>
    obtain ⟨env, out⟩ := r
    rw [hr] at h
    obtain ⟨s', h1, h2⟩ := h
    rw [h1, Option.map_some, Option.map_some, h2.env, h2.stack, h2.writes]

theorem evalStmts_append (c : ExecuteContext V) (env : Str → Option V) (a b : List Stmt) :
    evalStmts c env (a ++ b) = (evalStmts c env a).bind fun r =>
      (evalStmts c r.1 b).map fun q => (q.1, r.2 ++ q.2) := by
  induction a generalizing env with
  | nil => simp [evalStmts]
  | cons t a ih =>
    cases t with
    | expr e =>
      rw [List.cons_append, evalStmts, evalStmts]
      cases evalExpr c env e with
      | none => rfl
      | some x =>
        rw [Option.bind_some, Option.bind_some, ih]
        cases evalStmts c env a with
        | none => rfl
        | some r =>
          rw [Option.bind_some, Option.map_some, Option.bind_some, Option.map_map]
          rfl
    | assign v target n e =>
      rw [List.cons_append, evalStmts, evalStmts]
      cases evalExpr c env e with
      | none => rfl
      | some x => rw [Option.bind_some, Option.bind_some, ih]
    | ifElse v sv c tv ts t fv fs f => rfl
    | «while» v sv c tv ts t fv fs f => rfl
    | function v n args bv bs body => rfl
    | ret v e => rfl

/-- The names that statements assign to. -/
def assigned : List Stmt → List Str
  | [] => []
  | .assign _ _ n _ :: ts => n :: assigned ts
  | _ :: ts => assigned ts

theorem evalStmts_unassigned {c : ExecuteContext V} {env : Str → Option V} {l : List Stmt}
    {r : (Str → Option V) × List V} (h : evalStmts c env l = some r) {n : Str} (hn : n ∉ assigned l) :
    r.1 n = env n := by
  induction l generalizing env r with
  | nil => rw [evalStmts] at h; cases h; rfl
  | cons t l ih =>
    cases t with
    | expr e =>
      rw [evalStmts] at h
      obtain ⟨x, _, h⟩ := Option.bind_eq_some_iff.1 h
      obtain ⟨r', h', rfl⟩ := Option.map_eq_some_iff.1 h
      exact ih (r := r') h' hn
    | assign v target m e =>
      rw [evalStmts] at h
      obtain ⟨x, _, h⟩ := Option.bind_eq_some_iff.1 h
      rw [assigned, List.mem_cons, not_or] at hn
      rw [ih h hn.2, bindName, if_neg hn.1]
    | ifElse v sv c tv ts t fv fs f => cases h
    | «while» v sv c tv ts t fv fs f => cases h
    | function v n args bv bs body => cases h
    | ret v e => cases h

theorem assigned_tokens {l : List Stmt} (hl : StraightLine l) {n : Str} (h : n ∈ assigned l) :
    ∃ v, Token.define n v ∈ stmtsTokens l := by
  induction l with
  | nil => cases h
  | cons t l ih =>
    cases t with
    | expr e =>
      obtain ⟨v, hv⟩ := ih hl.2 h
      exact ⟨v, by rw [stmtsTokens]; exact List.mem_append_right _ hv⟩
    | assign v target m e =>
      rw [assigned, List.mem_cons] at h
      rcases h with rfl | h
      · exact ⟨target, by rw [stmtsTokens, stmtTokens]; simp⟩
      · obtain ⟨v, hv⟩ := ih hl.2 h
        exact ⟨v, by rw [stmtsTokens]; exact List.mem_append_right _ hv⟩
    | ifElse v sv c tv ts t fv fs f => exact hl.elim
    | «while» v sv c tv ts t fv fs f => exact hl.elim
    | function v n args bv bs body => exact hl.elim
    | ret v e => exact hl.elim

/-- After execution a name is bound to the value of the expression of its last assignment, evaluated
with the values that the statements in front of it leave. -/
theorem C57_bound (c : ExecuteContext V) (hone : OneResult c.ops) (s s' : ExecuteState V)
    (a b : List Stmt) (v target : Vid) (n : Str) (e : Expr)
    (hl : StraightLine (a ++ .assign v target n e :: b))
    (har : ArityRight c.ops (stmtsTerms (a ++ .assign v target n e :: b))) (ht : s.table ≠ [])
    (h : executeStmts c s (a ++ .assign v target n e :: b) = some s') (hb : n ∉ assigned b) :
    ∃ r x, evalStmts c (s.env c) a = some r ∧ evalExpr c r.1 e = some x ∧
      s'.table.value n = some x := by
  have h0 := executeStmts_eq c hone s _ hl har ht
  cases hr : evalStmts c (s.env c) (a ++ .assign v target n e :: b) with
  | none => rw [hr, h] at h0; cases h0
  | some q =>
    rw [hr] at h0
    obtain ⟨s1, h1, h2⟩ := h0
    rw [h] at h1
    cases h1
    rw [evalStmts_append] at hr
    obtain ⟨r, hr1, hr2⟩ := Option.bind_eq_some_iff.1 hr
    obtain ⟨p, hp, rfl⟩ := Option.map_eq_some_iff.1 hr2
    rw [evalStmts] at hp
    obtain ⟨x, hx, hp⟩ := Option.bind_eq_some_iff.1 hp
    refine ⟨r, x, hr1, hx, ?_⟩
    have h3 := evalStmts_unassigned hp hb
    rw [bindName, if_pos rfl] at h3
    have h4 : s'.env c n = some x := by rw [h2.env]; exact h3
    -- an assigned name is in the table
    obtain ⟨w, hw⟩ := assigned_tokens hl (n := n) (by
      clear * -
      induction a with
      | nil => exact List.mem_cons_self
      | cons t a ih =>
        cases t <;> simp only [List.cons_append, assigned, List.mem_cons] <;> first | exact ih | exact .inr ih)
    have hcount : ∃ known : List Str, ∀ m, m ∈ known ↔ (s.table.value m).isSome := by
      refine ⟨(s.table.map Scope.names).flatten, fun m => ?_⟩
      have : ∀ t : SymbolTable V, m ∈ (t.map Scope.names).flatten ↔ (t.value m).isSome := by
        intro t
        induction t with
        | nil => simp [SymbolTable.value_nil]
        | cons sc t ih =>
          rw [List.map_cons, List.flatten_cons, List.mem_append, ih, SymbolTable.value_cons,
            Scope.mem_names]
          cases Scope.value sc m <;> simp
      exact this s.table
    obtain ⟨known, hk⟩ := hcount
    have hin := ((h2.log.known known hk).2 n).1 ((mem_knownAfter _ _ _).2 (.inr ⟨w, .inr hw⟩))
    obtain ⟨y, hy⟩ := Option.isSome_iff_exists.1 hin
    rw [ExecuteState.env, hy] at h4
    rw [hy]
    exact h4

/-- A name that is not assigned to keeps its value, whether it has been read or not. -/
theorem C57_unassigned (c : ExecuteContext V) (hone : OneResult c.ops) (s s' : ExecuteState V)
    (l : List Stmt) (hl : StraightLine l) (har : ArityRight c.ops (stmtsTerms l)) (ht : s.table ≠ [])
    (h : executeStmts c s l = some s') (n : Str) (hn : n ∉ assigned l) : s'.env c n = s.env c n := by
  have h0 := executeStmts_eq c hone s _ hl har ht
  cases hr : evalStmts c (s.env c) l with
  | none => rw [hr, h] at h0; cases h0
  | some q =>
    rw [hr] at h0
    obtain ⟨s1, h1, h2⟩ := h0
    rw [h] at h1
    cases h1
    rw [h2.env]
    exact evalStmts_unassigned hr hn

/-- The data sources read during execution are those of the names used while they have no value, in the
order of these uses and once each. -/
theorem C57_reads (c : ExecuteContext V) (hone : OneResult c.ops) (s s' : ExecuteState V)
    (l : List Stmt) (hl : StraightLine l) (har : ArityRight c.ops (stmtsTerms l)) (ht : s.table ≠ [])
    (h : executeStmts c s l = some s') (known : List Str)
    (hk : ∀ n, n ∈ known ↔ (s.table.value n).isSome) :
    s'.reads = s.reads ++ needed known (stmtsTokens l) ∧ (needed known (stmtsTokens l)).Nodup ∧
      ∀ n ∈ needed known (stmtsTokens l), n ∉ known ∧ ∃ v, Token.use n v ∈ stmtsTokens l := by
  have h0 := executeStmts_eq c hone s _ hl har ht
  cases hr : evalStmts c (s.env c) l with
  | none => rw [hr, h] at h0; cases h0
  | some q =>
    rw [hr] at h0
    obtain ⟨s1, h1, h2⟩ := h0
    rw [h] at h1
    cases h1
    exact ⟨(h2.log.known known hk).1, needed_spec known _⟩

/-- An operation receives the values of its arguments in the order of the source. -/
theorem C57_arguments (c : ExecuteContext V) (hone : OneResult c.ops) (s : ExecuteState V) (v : Vid)
    (n : Str) (op : Operation V) (hop : c.ops n = some op) (args : List Expr)
    (hs : NoSubscripts args) (har : ArityRight c.ops (subterms (.call v n args))) (ht : s.table ≠ [])
    (xs : List V)
    (hx : List.Forall₂ (fun e x => evalExpr c (s.env c) e = some x) args xs) (y : V)
    (hy : op.execute xs = some [y]) :
    (executeExpr c s (.call v n args)).map (·.stack) = some (y :: s.stack) := by
  have hev : evalExprs c (s.env c) args = some xs := by
    clear hy har hs
    induction hx with
    | nil => rw [evalExprs]
    | cons h1 _ ih => rw [evalExprs, h1, Option.bind_some, ih]; rfl
  rw [(executeExpr_eq c hone s (.call v n args) (by rw [NoSubscript]; exact hs) har ht).1, evalExpr, hev,
    Option.bind_some, operationValue, hop]
  simp [hy]

/-- For a module the outputs are determined first. -/
theorem C57_module (c : ExecuteContext V) (hone : OneResult c.ops) (s : ExecuteState V) (m : Module)
    (hl : StraightLine m.statements) (har : ArityRight c.ops (stmtsTerms m.statements))
    (ht : s.table ≠ []) (io : IOState) (hio : ioModule m = some io) :
    let c' := { c with outputs := io.outputs.map (·.v) }
    (executeModule c s m).map (fun s' => (s'.env c, s'.stack, s'.writes)) =
      (evalStmts c' (s.env c) m.statements).map fun r =>
        (r.1, r.2.reverse ++ s.stack, s.writes ++ evalWrites c' (s.env c) m.statements) := by
  intro c'
  rw [executeModule, hio, Option.bind_some]
  exact C57_statements c' hone s m.statements hl har ht

/-! ### C59: the stack of execution -/

/-- Execution of an expression without subscripts puts its value on top of the stack and leaves the
rest; it fails iff the expression has no value. -/
theorem C59_execute_expr (c : ExecuteContext V) (hone : OneResult c.ops) (s : ExecuteState V) (e : Expr)
    (hs : NoSubscript e) (har : ArityRight c.ops (subterms e)) (ht : s.table ≠ []) :
    (executeExpr c s e).map (·.stack) = (evalExpr c (s.env c) e).map (· :: s.stack) :=
  (executeExpr_eq c hone s e hs har ht).1

/-- Execution of an assignment leaves the stack as it was. -/
theorem C59_execute_assign (c : ExecuteContext V) (hone : OneResult c.ops) (s s' : ExecuteState V)
    (v target : Vid) (n : Str) (e : Expr) (hs : NoSubscript e) (har : ArityRight c.ops (subterms e))
    (ht : s.table ≠ []) (h : executeStmt c s (.assign v target n e) = some s') :
    s'.stack = s.stack := by
  have hl : StraightLine [.assign v target n e] := ⟨hs, trivial⟩
  have har' : ArityRight c.ops (stmtsTerms [.assign v target n e]) := by
    constructor
    · intro v' n' args he
      rw [stmtsTerms, stmtsTerms, stmtTerms] at he
      simp at he
      exact har.call v' n' args he
    · intro v' n' args he
      rw [stmtsTerms, stmtsTerms, stmtTerms] at he
      simp at he
      exact har.operator v' n' args he
  have h0 := executeStmts_eq c hone s _ hl har' ht
  have h1 : executeStmts c s [.assign v target n e] = some s' := by
    rw [executeStmts, h, Option.bind_some, executeStmts]
  rw [evalStmts] at h0
  cases hev : evalExpr c (s.env c) e with
  | none => rw [hev] at h0; rw [h1] at h0; cases h0
  | some x =>
    rw [hev] at h0
    obtain ⟨s1, h2, h3⟩ := h0
    rw [h1] at h2
    cases h2
    exact h3.stack

/-! ### Examples and what is not supported -/

/-- Values are integers; `sub` subtracts, and `x` can be read. -/
def exampleContext : ExecuteContext Int where
  ops := fun n => if n = ['s', 'u', 'b'] then
    some ⟨[[], []], fun _ => none, fun l => match l with | [a, b] => some [a - b] | _ => none⟩ else none
  number := fun n => match n with | .int _ v => v | _ => 0
  string := fun _ => 0
  source := fun n => if n = ['x'] then some 10 else none
  sync := fun n => n == ['a'] || n == ['b']
  outputs := []

/-- `a = sub(x, 3); b = sub(a, x); b`. -/
def exampleProgram : Module where
  v := 0
  scope := 1
  sentinel := 2
  statements := [
    .assign 10 11 ['a'] (.call 12 ['s', 'u', 'b'] [.name 13 ['x'], .number 14 (.int .i64 3)]),
    .assign 20 21 ['b'] (.call 22 ['s', 'u', 'b'] [.name 23 ['a'], .name 24 ['x']]),
    .expr (.name 30 ['b'])]

example : OneResult exampleContext.ops := by
  intro n op h args rs hr
  simp only [exampleContext] at h
  split at h
  · cases h
    match args, hr with
    | [a, b], hr => cases hr; rfl
    | [], hr => cases hr
    | [a], hr => cases hr
    | a :: b :: d :: l, hr => cases hr
  · cases h

example : StraightLine exampleProgram.statements := by
  simp [exampleProgram, StraightLine, NoSubscript, NoSubscripts]

example : executeModule exampleContext .initial exampleProgram =
    some ⟨[-3], [[(['x'], 10), (['a'], 7), (['b'], -3)]], [['x']], [(['a'], 7), (['b'], -3)]⟩ := by
  decide +kernel

/-- Execution ignores `if` and `while` statements: neither their conditions nor their blocks are
executed. -/
theorem C57_if_ignored (c : ExecuteContext V) (s : ExecuteState V) (v sv : Vid) (e : Expr)
    (tv ts : Vid) (t : List Stmt) (fv fs : Vid) (f : List Stmt) :
    executeStmts c s [.ifElse v sv e tv ts t fv fs f] = some s ∧
      executeStmts c s [.while v sv e tv ts t fv fs f] = some s := by
  simp [executeStmts, executeStmt]

/-- The body of a function is executed where the function is defined: after `def f(): a = 1` the name
`a` has a value. -/
theorem C57_function_body :
    (executeStmts exampleContext .initial
      [.function 0 ['f'] [] 1 2 [.assign 3 4 ['a'] (.number 5 (.int .i64 1))]]).map
        (fun s => s.table.value ['a']) = some (some 1) := by
  decide +kernel

/-- `a = x; b = x; a = 1; b = 2`. -/
def lostWrite : Module where
  v := 0
  scope := 1
  sentinel := 2
  statements := [
    .assign 10 11 ['a'] (.name 12 ['x']),
    .assign 20 21 ['b'] (.name 22 ['x']),
    .assign 30 31 ['a'] (.number 32 (.int .i64 1)),
    .assign 40 41 ['b'] (.number 42 (.int .i64 2))]

/-- A consequence of C62: with data syncs for `a` and `b`, executing `a = x; b = x; a = 1; b = 2` writes
`b` twice and never `a`. -/
theorem C57_write_lost :
    (executeModule exampleContext .initial lostWrite).map (·.writes) =
      some [(['b'], 10), (['b'], 2)] := by
  decide +kernel

/-- Execution of a subscript puts nothing on the stack. -/
theorem C59_execute_subscript (c : ExecuteContext V) (s : ExecuteState V) (v : Vid) (e i : Expr) :
    executeExpr c s (.subscript v e i) = some s := by rw [executeExpr]

/-- The consequences: in `sub(x, x[0])` the operation finds too few values on the stack; in
`7; sub(x, x[0])` it takes the 7, and executing `a = x[0]` finds the stack empty. -/
theorem C59_execute_subscript_argument :
    executeStmts exampleContext .initial
      [.expr (.call 1 ['s', 'u', 'b'] [.name 2 ['x'],
        .subscript 3 (.name 4 ['x']) (.number 5 (.int .i64 0))])] = none ∧
    (executeStmts exampleContext .initial
      [.expr (.number 6 (.int .i64 7)), .expr (.call 1 ['s', 'u', 'b'] [.name 2 ['x'],
        .subscript 3 (.name 4 ['x']) (.number 5 (.int .i64 0))])]).map (·.stack) = some [-3] ∧
    executeStmts exampleContext .initial
      [.assign 1 2 ['a'] (.subscript 3 (.name 4 ['x']) (.number 5 (.int .i64 0)))] = none := by
  decide +kernel

end Fern
