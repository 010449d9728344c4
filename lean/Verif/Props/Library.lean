import Verif.Lemmas.Library
import Verif.Lemmas.LibraryRun
import Verif.Props.StdOps
import Verif.Model.Script
import Verif.Props.Accepted

/-!
# C131: the types of expressions made of the library's own operations
-/

namespace Fern.Library

open _root_.Fern.Spec _root_.Fern.Library.Spec

variable {V : Type} (execute : Str → List V → Option (List V))

/-- The type rules of the library give a type for all types of arguments, and the same type if the arguments are
reversed. -/
theorem C131_total : TotalRules (library execute) ∧
    ∀ n op, library execute n = some op → ∀ l, l.length = op.parameters.length →
      op.exprType l.reverse = op.exprType l :=
  ⟨rules_total execute, rules_symmetric execute⟩

/-- The types of results: that of the argument for absolute values, also if it is not a number; `int32` whatever the
argument is; for a sum that of the argument that is highest on the ladder, in a field if one of them is; for what is read
a field of numbers, whatever is read; and for writing none. -/
theorem C131_rules (T U : Ty) (l : List ExpressionType) :
    ((library execute "abs".toList).bind fun op => op.exprType [T.kept]) = some T.kept ∧
    ((library execute "int32".toList).bind fun op => op.exprType [T.kept]) = some (Ty.one T.field .int32).kept ∧
    (T.IsNumber → U.IsNumber → ((library execute "add".toList).bind fun op => op.exprType [T.kept, U.kept]) =
      some (Ty.one (T.field || U.field) (sumValue T U)).kept) ∧
    ((library execute "read".toList).bind fun op => op.exprType l) = some Ty.numberField.kept ∧
    ((library execute "write".toList).bind fun op => op.exprType l) = some .undefined :=
  ⟨rule_abs T, rule_int32 T, rule_add T U, rfl, rfl⟩

/-- An unsigned and a signed integer of the same size: the sum is unsigned, so that -1 is not among its values. 16 bit
integers are below those of 8 bits. -/
example : winner .uint64 .int64 = .uint64 ∧ winner .int8 .uint8 = .uint8 ∧ winner .int16 .int8 = .int8 ∧
    winner .float32 .int64 = .float32 := by decide

/-- So that the types of expressions are those of the rules for the arguments in the order of the text, although the
rules are applied to the reversed arguments. -/
theorem C131_order (s : AnnotateState V) (e : Expr) (hs : NoSubscript e) (hn : (exprIds e).Nodup)
    (hf : Unannotated s (exprIds e)) :
    (annotateExpr (library execute) s e).map (·.stack) =
      (typeExpr (library execute) s.nameType e).map (· :: s.stack) :=
  C58_symmetric (library execute) (rules_symmetric execute) s e hs hn hf

/-- `abs(1) + x`, in an empty state. -/
example : ((annotateExpr (library execute) .initial
    (.operator 0 "add".toList [.call 1 "abs".toList [.number 2 (.int .i64 1)], .name 3 ['x']])).map (·.stack)).isSome := by
  rw [C131_order execute _ _ (by simp [NoSubscript, NoSubscripts]) (by decide) (fun v _ => ⟨rfl, rfl⟩)]
  obtain ⟨k, hk, _⟩ := agree execute (fun _ => none)
    (.operator 0 "add".toList [.call 1 "abs".toList [.number 2 (.int .i64 1)], .name 3 ['x']])
    (by simp [Plain, PlainAll])
  have : (AnnotateState.initial : AnnotateState V).nameType = keptEnv (fun _ => none) := rfl
  rw [this, hk]; rfl

variable (number : Number → V) (string : Str → V)

/-- A script is accepted exactly if it is well-typed in the type system, otherwise it is refused. -/
theorem C131_accepted (i : Interpreter V) (ht : i.table ≠ []) (m : Module) (hl : PlainStmts m.statements)
    (hn : m.vids.Nodup) (sources : Scope (DataSource V)) (hsn : (sources.map (·.1)).Nodup) (env : Str → Option Ty)
    (he : ∀ n, startType i sources n = keptType (env n)) :
    ((∃ i1, (i.validate ⟨library execute, number, string⟩ m .none sources).1 = .done i1) ↔
      Typed env m.statements) ∧
    ((∃ i1 p, (i.validate ⟨library execute, number, string⟩ m .none sources).1 = .refused i1 p) ↔
      ¬ Typed env m.statements) := by
  have h := C93_accepted ⟨library execute, number, string⟩ (rules_total execute) i ht m
    (plain_straightLine _ hl).1 hn (plain_straightLine _ hl).2 sources hsn
  rw [show startType i sources = keptEnv env from funext he] at h
  simp only [fineStmts_iff execute env m.statements hl] at h
  exact h

/-- After a script is accepted names have the types that the type system gives them. -/
theorem C131_types (i i1 : Interpreter V) (ht : i.table ≠ []) (m : Module) (hl : PlainStmts m.statements)
    (hn : m.vids.Nodup) (sources : Scope (DataSource V)) (hsn : (sources.map (·.1)).Nodup) (env : Str → Option Ty)
    (he : ∀ n, startType i sources n = keptType (env n))
    (h : (i.validate ⟨library execute, number, string⟩ m .none sources).1 = .done i1) (n : Str) :
    (i1.table.value n).getD .undefined = keptType (tysAfter env m.statements n) := by
  have hty := (C131_accepted execute number string i ht m hl hn sources hsn env he).1.1 ⟨i1, h⟩
  rw [C93_types ⟨library execute, number, string⟩ (rules_total execute) i i1 ht m (plain_straightLine _ hl).1 hn
    (plain_straightLine _ hl).2 sources hsn (.inl h) n, show startType i sources = keptEnv env from funext he,
    typesAfter_kept execute env m.statements hl hty]

/-- The names of the operations. -/
def names : List Str := ["abs".toList, "add".toList, "int32".toList, "read".toList, "write".toList]

theorem known_of_resultType {n : Str} {Ts : List Ty} {T : Ty} (h : resultType n Ts = some T) : n ∈ names := by
  unfold resultType at h
  split at h
  · simp [names, *]
  split at h
  · simp [names, *]
  split at h
  · simp [names, *]
  split at h
  · simp [names, *]
  · cases h

/-- The operations in the expressions are those of the library. -/
def Known (l : List Expr) : Prop :=
  ∀ v n args, (Expr.call v n args ∈ l ∨ Expr.operator v n args ∈ l) → n ∈ names

theorem known_append {l r : List Expr} (hl : Known l) (hr : Known r) : Known (l ++ r) := by
  intro v n args h
  rcases h with h | h <;> rcases List.mem_append.1 h with h | h
  · exact hl v n args (.inl h)
  · exact hr v n args (.inl h)
  · exact hl v n args (.inr h)
  · exact hr v n args (.inr h)

mutual

theorem known_of_tyOf (env : Str → Option Ty) (e : Expr) (T : Ty) (h : tyOf env e = some T) : Known (subterms e) := by
  cases e with
  | name v n => intro v n args h; simp [subterms] at h
  | number v n => intro v n args h; simp [subterms] at h
  | string v n => intro v n args h; simp [subterms] at h
  | call v n args =>
    rw [tyOf] at h
    obtain ⟨Ts, h1, h2⟩ := Option.bind_eq_some_iff.1 h
    rw [subterms]
    refine known_append (known_of_tysOf env args Ts h1) ?_
    intro v' n' args' h
    simp at h
    rw [h.2.1]; exact known_of_resultType h2
  | operator v n args =>
    rw [tyOf] at h
    obtain ⟨Ts, h1, h2⟩ := Option.bind_eq_some_iff.1 h
    rw [subterms]
    refine known_append (known_of_tysOf env args Ts h1) ?_
    intro v' n' args' h
    simp at h
    rw [h.2.1]; exact known_of_resultType h2
  | subscript v e i => rw [tyOf] at h; cases h
  | «attribute» v e m => rw [tyOf] at h; cases h

theorem known_of_tysOf (env : Str → Option Ty) (es : List Expr) (Ts : List Ty) (h : tysOf env es = some Ts) :
    Known (subtermsList es) := by
  cases es with
  | nil => intro v n args h; simp [subtermsList] at h
  | cons e es =>
    rw [tysOf] at h
    obtain ⟨T, h1, h2⟩ := Option.bind_eq_some_iff.1 h
    obtain ⟨Ts', h3, _⟩ := Option.map_eq_some_iff.1 h2
    rw [subtermsList]
    exact known_append (known_of_tyOf env e T h1) (known_of_tysOf env es Ts' h3)

end

theorem known_of_writes (env : Str → Option Ty) (e : Expr) (h : Writes env e) : Known (subterms e) := by
  cases e with
  | call v n args =>
    obtain ⟨hn, t, ht, _⟩ := h
    rw [subterms]
    refine known_append (known_of_tysOf env args _ ht) ?_
    intro v' n' args' h
    simp at h
    rw [h.2.1, hn]; simp [names]
  | operator v n args =>
    obtain ⟨hn, t, ht, _⟩ := h
    rw [subterms]
    refine known_append (known_of_tysOf env args _ ht) ?_
    intro v' n' args' h
    simp at h
    rw [h.2.1, hn]; simp [names]
  | _ => exact absurd h (by simp [Writes])

theorem known_of_typed (env : Str → Option Ty) (l : List Stmt) (h : Typed env l) : Known (stmtsTerms l) := by
  induction l generalizing env with
  | nil => intro v n args h; simp [stmtsTerms] at h
  | cons s l ih =>
    rw [stmtsTerms]
    cases s with
    | expr e =>
      rw [Typed] at h
      refine known_append ?_ (ih env h.2)
      rw [stmtTerms]
      rcases h.1 with h | h
      · obtain ⟨T, hT⟩ := Option.isSome_iff_exists.1 h
        exact known_of_tyOf env e T hT
      · exact known_of_writes env e h
    | assign v w n e =>
      rw [Typed] at h
      obtain ⟨T, hT, h⟩ := h
      refine known_append ?_ (ih _ h)
      rw [stmtTerms]
      refine known_append (known_of_tyOf env e T hT) ?_
      intro v n args h; simp at h
    | _ => exact absurd h (by simp [Typed])

/-- Whatever else is used is refused: differences, products, comparisons and negative numbers are not among the
operations of the language. -/
theorem C131_known (i : Interpreter V) (ht : i.table ≠ []) (m : Module) (hl : PlainStmts m.statements)
    (hn : m.vids.Nodup) (sources : Scope (DataSource V)) (hsn : (sources.map (·.1)).Nodup) (env : Str → Option Ty)
    (he : ∀ n, startType i sources n = keptType (env n)) (v : Vid) (n : Str) (args : List Expr)
    (ho : Expr.call v n args ∈ stmtsTerms m.statements ∨ Expr.operator v n args ∈ stmtsTerms m.statements)
    (hk : n ∉ names) :
    ∃ i1 p, (i.validate ⟨library execute, number, string⟩ m .none sources).1 = .refused i1 p :=
  (C131_accepted execute number string i ht m hl hn sources hsn env he).2.2 fun h =>
    hk (known_of_typed env m.statements h v n args ho)

/-- Of all operators that can be written in a script, addition is the only one that the library has. -/
theorem C131_operators :
    (∀ o : Script.UnaryOp, o.text ∉ names) ∧ (∀ o : Script.BinaryOp, o.text ∈ names ↔ o = .add) ∧
    (∀ o : Script.BoolOp, o.text ∉ names) ∧ ∀ (o : Script.CompareOp) (n : Str), o.text = some n → n ∉ names := by
  have h1 : ∀ o : Script.UnaryOp, o.text ∉ names := by intro o; cases o <;> decide +kernel
  have h2 : ∀ o : Script.BinaryOp, o ≠ .add → o.text ∉ names := by
    intro o h; cases o <;> first | exact absurd rfl h | decide +kernel
  have h3 : ∀ o : Script.BoolOp, o.text ∉ names := by intro o; cases o <;> decide +kernel
  have h4 : ∀ o : Script.CompareOp, ∀ m ∈ o.text, m ∉ names := by intro o; cases o <;> decide +kernel
  refine ⟨h1, fun o => ⟨fun h => ?_, fun h => ?_⟩, h3, fun o n h => h4 o n h⟩
  · by_contra hc
    exact h2 o hc h
  · subst h; decide +kernel

/-- `abs(2 * 3)`: the name of the product is not among those of the library. -/
example : ∃ i1 p, ((Interpreter.initial : Interpreter V).validate ⟨library execute, number, string⟩
      (moduleOf [.expr (.call 10 "abs".toList [.operator 11 "Mult".toList
        [.number 12 (.int .i64 2), .number 13 (.int .i64 3)]])]) .none []).1 = .refused i1 p :=
  C131_known execute number string Interpreter.initial (by simp [Interpreter.initial]) _
    (by simp [moduleOf, PlainStmts, Plain, PlainAll]) (by decide) [] (by simp) (fun _ => none) (fun _ => rfl)
    11 "Mult".toList [.number 12 (.int .i64 2), .number 13 (.int .i64 3)]
    (.inr (by simp [moduleOf, stmtsTerms, stmtTerms, subterms, subtermsList])) (by decide)

/-- `x = read("a"); y = x + 1; write(y, "b", "c")` -/
def copyModule : Module := moduleOf [
  .assign 10 11 ['x'] (.call 12 "read".toList [.string 13 ['a']]),
  .assign 20 21 ['y'] (.operator 22 "add".toList [.name 23 ['x'], .number 24 (.int .i64 1)]),
  .expr (.call 30 "write".toList [.name 31 ['y'], .string 32 ['b'], .string 33 ['c']])]

theorem copyModule_typed : Typed (fun _ => none) copyModule.statements :=
  ⟨.numberField, rfl, .one true .float64, rfl, .inr ⟨rfl, _, rfl, by decide⟩, trivial⟩

/-- It is accepted, and then `x` is a field of numbers and `y` a field of 64 bit floating point numbers, whatever the
dataset contains. -/
example : ∃ i1, ((Interpreter.initial : Interpreter V).validate ⟨library execute, number, string⟩ copyModule .none []).1 =
      .done i1 ∧ i1.table.value ['x'] = some ⟨DataTypes.staticField, ValueTypes.number⟩ ∧
    i1.table.value ['y'] = some ⟨DataTypes.staticField, ValueType.float64.flag⟩ := by
  have hp : PlainStmts copyModule.statements := by simp [copyModule, moduleOf, PlainStmts, Plain, PlainAll]
  obtain ⟨i1, h⟩ := (C131_accepted execute number string Interpreter.initial (by simp [Interpreter.initial]) copyModule hp
    (by decide) [] (by simp) (fun _ => none) (fun _ => rfl)).1.2 copyModule_typed
  have hty := C131_types execute number string Interpreter.initial i1 (by simp [Interpreter.initial]) copyModule hp
    (by decide) [] (by simp) (fun _ => none) (fun _ => rfl) h
  have hx := hty ['x']
  have hy := hty ['y']
  have k : ∀ {o : Option ExpressionType} {T : Ty}, o.getD .undefined = keptType (some T) → o = some T.kept := by
    intro o T ho
    cases o with
    | none =>
      have hd := kept_defined T
      rw [show T.kept = .undefined from ho.symm] at hd
      exact absurd hd undefined_not
    | some t => exact congrArg some ho
  exact ⟨i1, h, k (T := .numberField) hx, k (T := .one true .float64) hy⟩

theorem tysOf_none {env : Str → Option Ty} {es : List Expr} {e : Expr} (he : e ∈ es) (h : tyOf env e = none) :
    tysOf env es = none := by
  induction es with
  | nil => cases he
  | cons e' es ih =>
    rw [tysOf]
    rcases List.mem_cons.1 he with rfl | he
    · rw [h]; rfl
    · rw [ih he]; cases tyOf env e' <;> rfl

/-- What is written has no type: assigning it, or passing it on, is refused. -/
theorem C131_write (i : Interpreter V) (ht : i.table ≠ []) (m : Module) (hl : PlainStmts m.statements)
    (hn : m.vids.Nodup) (sources : Scope (DataSource V)) (hsn : (sources.map (·.1)).Nodup) (env : Str → Option Ty)
    (he : ∀ n, startType i sources n = keptType (env n)) (v w u : Vid) (x : Str) (args : List Expr) (ts : List Stmt)
    (hm : m.statements = .assign v w x (.call u "write".toList args) :: ts ∨
      ∃ n l r v', m.statements = .expr (.call v n (l ++ .call v' "write".toList args :: r)) :: ts) :
    ∃ i1 p, (i.validate ⟨library execute, number, string⟩ m .none sources).1 = .refused i1 p := by
  refine (C131_accepted execute number string i ht m hl hn sources hsn env he).2.2 fun h => ?_
  have hw : ∀ u, tyOf env (.call u "write".toList args) = none := by
    intro u
    rw [tyOf]
    cases tysOf env args with
    | none => rfl
    | some Ts => simp [resultType]
  rcases hm with hm | ⟨n, l, r, v', hm⟩
  · rw [hm, Typed] at h
    obtain ⟨T, hT, _⟩ := h
    rw [hw] at hT; cases hT
  · have hnone : tysOf env (l ++ .call v' "write".toList args :: r) = none := by
      exact tysOf_none (List.mem_append_right _ List.mem_cons_self) (hw v')
    rw [hm, Typed, tyOf, Writes, hnone] at h
    rcases h.1 with h | ⟨_, t, h, _⟩
    · cases h
    · cases h

/-- A well-typed script in which nothing is added or converted is executed up to its end, provided that reading, writing
and absolute values succeed with results as declared: it leaves a value of its type for every expression that is not
assigned, and none for what is written, on top of what was on the stack. -/
theorem C131_executed {hasTy : V → Ty → Prop} (hw : Works string execute hasTy) (i : Interpreter V)
    (ht : i.table ≠ []) (hb : i.back.table.length = 1) (m : Module) (hl : PlainStmts m.statements) (hn : m.vids.Nodup)
    (sources : Scope (DataSource V)) (hsn : (sources.map (·.1)).Nodup) (env : Str → Option Ty)
    (he : ∀ n, startType i sources n = keptType (env n))
    (hv : ∀ n T, env n = some T → ∃ x, startValue i sources n = some x ∧ hasTy x T)
    (hty : Typed env m.statements) (ha : Avoids (stmtsTerms m.statements))
    (hnum : Numbers number hasTy (stmtsTerms m.statements)) (syncs : List Str) :
    ∃ i' xs, i.execute ⟨library execute, number, string⟩ m .none sources syncs = .done i' ∧
      i'.back.stack = xs.reverse ++ i.back.stack ∧ List.Forall₂ hasTy xs (shown env m.statements) ∧
      ∀ n T, tysAfter env m.statements n = some T →
        ∃ x, (i'.back.table.value n).or ((sources.value n).map (·.value)) = some x ∧ hasTy x T := by
  have hf : FineStmts (library execute) (startType i sources) m.statements := by
    rw [show startType i sources = keptEnv env from funext he]
    exact (fineStmts_iff execute env m.statements hl).2 hty
  obtain ⟨i1, hb1, _, _, ⟨_, h⟩ | ⟨h, _⟩⟩ := validate_cases ⟨library execute, number, string⟩ (rules_total execute) i ht m
    (plain_straightLine _ hl).1 hn (plain_straightLine _ hl).2 sources hsn
  · obtain ⟨io, hio⟩ := Option.isSome_iff_exists.1 (C62_succeeds m)
    obtain ⟨t, k1, k2, k3, _⟩ := eraseSources_env (c := ⟨library execute, number, string⟩) (i := i) hb sources syncs
      (io.outputs.map (·.v))
    obtain ⟨s', xs, r1, r2, r3, r4⟩ := run_stmts (hasTy := hasTy)
      (c := executionContext ⟨library execute, number, string⟩ sources syncs (io.outputs.map (·.v)))
      rfl hw env m.statements { i.back with table := t } hty ⟨ha, hnum⟩
      ⟨(by intro h0; simp only at h0; rw [h0] at k2; simp at k2), fun n T hT => by
        obtain ⟨x, hx, hxT⟩ := hv n T hT
        refine ⟨x, ?_, hxT⟩
        rw [startValue] at hx
        simp only [executionContext, k3]
        cases hs : sources.value n <;> simp_all⟩
    refine ⟨{ i1 with back := s' }, xs, ?_, r2, r3, r4.2⟩
    have hx : i.execute ⟨library execute, number, string⟩ m .none sources syncs =
        i1.executeTree ⟨library execute, number, string⟩ m sources syncs := by
      unfold Interpreter.execute
      rw [h]
    rw [hx, Interpreter.executeTree, hb1, k1, Option.bind_some, executeModule, hio, Option.bind_some]
    have r1' : executeStmts ⟨library execute, number, string, fun n => (sources.value n).map (·.value), syncs.contains,
        io.outputs.map (·.v)⟩ { i.back with table := t } m.statements = some s' := r1
    rw [r1']
  · exact absurd hf h

/-- `x = abs(read("a")); x; write(x, "b", "c"); "d"`: a field and a text are left. -/
def magnitudes : Module := moduleOf [
  .assign 10 11 ['x'] (.call 12 "abs".toList [.call 13 "read".toList [.string 14 ['a']]]),
  .expr (.name 20 ['x']),
  .expr (.call 30 "write".toList [.name 31 ['x'], .string 32 ['b'], .string 33 ['c']]),
  .expr (.string 40 ['d'])]

theorem magnitudes_typed : Typed (fun _ => none) magnitudes.statements :=
  ⟨.numberField, rfl, .inl rfl, .inr ⟨rfl, .numberField, rfl, by decide⟩, .inl rfl, trivial⟩

theorem magnitudes_avoids : Avoids (stmtsTerms magnitudes.statements) := by
  intro v n args h
  simp [magnitudes, moduleOf, stmtsTerms, stmtTerms, subterms, subtermsList] at h
  rcases h with h | h | h <;> rw [h.2.1] <;> decide

/-- Values that are types: operations that succeed. -/
def typesOnly : Str → List Ty → Option (List Ty) := fun n args =>
  if n = "write".toList then some [] else (resultType n args).map fun T => [T]

theorem typesOnly_works : Works (V := Ty) (fun _ => constantText) typesOnly (· = ·) where
  string _ := rfl
  abs x T h hT := by
    subst h
    refine ⟨x, ?_, rfl⟩
    unfold typesOnly resultType
    rw [if_neg (by decide), if_pos rfl]
    simp [hT]
  read x h := by subst h; exact ⟨_, by decide, rfl⟩
  write x a b T _ _ _ _ := by unfold typesOnly; rw [if_pos rfl]

example : ∃ i' : Interpreter Ty, Interpreter.initial.execute
      ⟨library typesOnly, fun n => .one false n.valueType, fun _ => constantText⟩ magnitudes .none [] [] = .done i' ∧
    i'.back.stack = [constantText, .numberField] := by
  obtain ⟨i', xs, h1, h2, h3, _⟩ := C131_executed typesOnly (fun n => .one false n.valueType) _ typesOnly_works Interpreter.initial
    (by simp [Interpreter.initial]) rfl magnitudes (by simp [magnitudes, moduleOf, PlainStmts, Plain, PlainAll])
    (by decide) [] (by simp) (fun _ => none) (fun _ => rfl) (by intro n T h; cases h) magnitudes_typed magnitudes_avoids
    (fun _ _ _ => rfl) []
  refine ⟨i', h1, ?_⟩
  have : xs = [.numberField, constantText] := List.forall₂_eq_eq_eq ▸ h3
  rw [h2, this]; rfl

/-! ### With the absolute values of the code -/

/-- The constants of a script (`ExecuteVisitor::Visit` for strings and numbers, `execute_visitor.cc:166-178`, `217-227`). -/
def constantOf {G : Type} : Number → StdOps.Arg G
  | .int t v => .constInt t v
  | .float32 v => .constFlt false (.fin v)
  | .float64 v => .constFlt true (.fin v)

/-- Absolute values are those of `StdOps.abs`; the other operations are any. -/
def withAbs {G : Type} (others : Str → List (StdOps.Arg G) → Option (List (StdOps.Arg G))) (n : Str)
    (args : List (StdOps.Arg G)) : Option (List (StdOps.Arg G)) :=
  if n = "abs".toList then
    match StdOps.abs args with
    | .ok r => some r
    | _ => none
  else others n args

theorem moderate_magnitude {t : IntTy} {v : Int} (h : Moderate t v) : Moderate t (if v < 0 then -v else v) := by
  obtain ⟨h0, h1, h2⟩ := h
  refine ⟨?_, ?_, fun hs => ?_⟩ <;> split
  all_goals cases t <;> simp [IntTy.min, IntTy.max, IntTy.signed, IntTy.bits] at * <;> omega

theorem has_abs {G : Type} (x : StdOps.Arg G) (T : Ty) (h : Has x T) (hT : T.IsNumber) :
    ∃ r, StdOps.abs [x] = .ok [r] ∧ Has r T := by
  cases x with
  | constInt t v =>
    obtain ⟨rfl, h⟩ := h
    exact ⟨_, StdOps.C107_constant t v h.1 h.2.1 h.2.2, rfl, moderate_magnitude h⟩
  | constFlt d v => exact ⟨_, StdOps.C107_float d v, h⟩
  | constString s => cases h; exact absurd hT (by decide)
  | constBool b => cases h; exact absurd hT (by decide)
  | fieldInt t a =>
    obtain ⟨hk, l, hl, hp⟩ := h
    obtain ⟨k, b, h1, h2, h3⟩ := StdOps.C107_field t l a hl (fun p hm => (hp p hm).1) (fun p hm => (hp p hm).2)
    refine ⟨_, h1, hk, k, h2, fun q hq => ?_⟩
    obtain ⟨p, hpm, _, hc⟩ := StdOps.forall₂_mem_right h3 hq
    refine ⟨by rw [hc.rows]; exact (hp p hpm).1, fun r c hr hcc hm => ?_⟩
    rw [hc.rows] at hr; rw [hc.cols] at hcc
    rw [hc.mask r c hr hcc] at hm
    have := hc.value r c hr hcc hm
    simp only [Option.some.injEq] at this
    rw [← this]
    exact moderate_magnitude ((hp p hpm).2 r c hr hcc hm)
  | fieldFlt d a =>
    obtain ⟨hk, l, hl, hp⟩ := h
    obtain ⟨k, b, h1, h2, h3⟩ := StdOps.C107_field_float d l a hl (fun p hm => (hp p hm).1)
    refine ⟨_, h1, hk, k, h2, fun q hq => ?_⟩
    obtain ⟨p, hpm, _, hc⟩ := StdOps.forall₂_mem_right h3 hq
    exact ⟨by rw [hc.rows]; exact (hp p hpm).1, fun _ _ _ _ _ => trivial⟩
  | fieldBool a => cases h; exact absurd hT (by decide)
  | fieldString a => cases h; exact absurd hT (by decide)

/-- With the absolute values of the code: a well-typed script of absolute values, reading and writing is executed up to its
end if none of the integers in it, in its data sources and in what is read is the least one of its type, and if no array
is without rows. The values that are left, and those of the names, are like that again. -/
theorem C131_magnitudes {G : Type} (others : Str → List (StdOps.Arg G) → Option (List (StdOps.Arg G)))
    (hread : ∀ s, ∃ r, others "read".toList [.constString s] = some [r] ∧ Has r .numberField)
    (hwrite : ∀ x T a b, Has x T → T.IsNumber → others "write".toList [x, .constString a, .constString b] = some [])
    (i : Interpreter (StdOps.Arg G))
    (ht : i.table ≠ []) (hb : i.back.table.length = 1) (m : Module) (hl : PlainStmts m.statements) (hn : m.vids.Nodup)
    (sources : Scope (DataSource (StdOps.Arg G))) (hsn : (sources.map (·.1)).Nodup) (env : Str → Option Ty)
    (he : ∀ n, startType i sources n = keptType (env n))
    (hv : ∀ n T, env n = some T → ∃ x, startValue i sources n = some x ∧ Has x T)
    (hty : Typed env m.statements) (ha : Avoids (stmtsTerms m.statements))
    (hnum : ∀ v t k, Expr.number v (.int t k) ∈ stmtsTerms m.statements → Moderate t k) (syncs : List Str) :
    ∃ i' xs, i.execute ⟨library (withAbs others), constantOf, .constString⟩ m .none sources syncs = .done i' ∧
      i'.back.stack = xs.reverse ++ i.back.stack ∧ List.Forall₂ Has xs (shown env m.statements) ∧
      ∀ n T, tysAfter env m.statements n = some T →
        ∃ x, (i'.back.table.value n).or ((sources.value n).map (·.value)) = some x ∧ Has x T := by
  have ht' : ∀ x : StdOps.Arg G, Has x constantText → ∃ s, x = .constString s := by
    intro x h
    cases x with
    | constInt t v => exact absurd h.1 (by cases t <;> decide)
    | constFlt d v =>
      exact absurd (show constantText = .one false (if d then .float64 else .float32) from h) (by cases d <;> decide)
    | constString s => exact ⟨s, rfl⟩
    | constBool b => exact absurd (show constantText = .one false .bool from h) (by decide)
    | fieldInt t a => exact absurd h.1 (by cases t <;> decide)
    | fieldFlt d a => exact absurd h.1 (by cases d <;> decide)
    | fieldBool a => exact absurd (show constantText = .one true .bool from h) (by decide)
    | fieldString a => exact absurd (show constantText = .one true .string from h) (by decide)
  have hw : Works .constString (withAbs others) (Has (G := G)) :=
    { string := fun _ => rfl
      abs := fun x T h hT => by
        obtain ⟨r, h1, h2⟩ := has_abs x T h hT
        refine ⟨r, ?_, h2⟩
        unfold withAbs
        rw [if_pos rfl, h1]
      read := fun x h => by
        obtain ⟨s, rfl⟩ := ht' x h
        obtain ⟨r, h1, h2⟩ := hread s
        exact ⟨r, by unfold withAbs; rw [if_neg (by decide)]; exact h1, h2⟩
      write := fun x a b T h hT h1 h2 => by
        obtain ⟨s, rfl⟩ := ht' a h1
        obtain ⟨u, rfl⟩ := ht' b h2
        unfold withAbs
        rw [if_neg (by decide)]
        exact hwrite x T s u h hT }
  refine C131_executed (withAbs others) constantOf .constString hw i ht hb m hl hn sources hsn env he hv hty ha ?_ syncs
  intro v n hm
  cases n with
  | int t k => exact ⟨by cases t <;> rfl, hnum v t k hm⟩
  | float32 x => exact rfl
  | float64 x => exact rfl

/-- `abs(7); x = abs(read("a")); x`. What is read is an array of a row of two cells, with -3 and a cell without value. -/
def sevenModule : Module := moduleOf [
  .expr (.call 10 "abs".toList [.number 11 (.int .i64 7)]),
  .assign 20 21 ['x'] (.call 22 "abs".toList [.call 23 "read".toList [.string 24 ['a']]]),
  .expr (.name 30 ['x'])]

def stored : StdOps.Arg String := .fieldInt .i32
  ⟨[(0, "box")], [(0, ⟨1, 2, fun _ c => if c = 0 then (-3, false) else (0, true)⟩)]⟩

theorem stored_has : Has stored .numberField := by
  refine ⟨.inr rfl, [("box", ⟨1, 2, fun _ c => if c = 0 then (-3, false) else (0, true)⟩)], ⟨[0], rfl⟩, fun p hp => ?_⟩
  rw [List.mem_singleton] at hp
  subst hp
  refine ⟨Nat.one_pos, fun r c _ _ h => ?_⟩
  by_cases hc : c = 0
  · simp only [hc, if_true]; exact ⟨by decide, by decide, fun _ => by decide⟩
  · simp [hc] at h

example : ∃ i' xs, (Interpreter.initial : Interpreter (StdOps.Arg String)).execute
      ⟨library (withAbs fun n _ => if n = "read".toList then some [stored] else some []), constantOf, .constString⟩
      sevenModule .none [] [] = .done i' ∧ i'.back.stack = xs.reverse ++ [] ∧
    List.Forall₂ Has xs [.one false .int64, .numberField] := by
  obtain ⟨i', xs, h1, h2, h3, _⟩ := C131_magnitudes (fun n _ => if n = "read".toList then some [stored] else some [])
    (fun s => ⟨stored, if_pos rfl, stored_has⟩) (fun _ _ _ _ _ _ => if_neg (by decide)) Interpreter.initial
    (by simp [Interpreter.initial]) rfl sevenModule (by simp [sevenModule, moduleOf, PlainStmts, Plain, PlainAll])
    (by decide) [] (by simp) (fun _ => none) (fun _ => rfl) (by intro n T h; cases h)
    ⟨.inl rfl, .numberField, rfl, .inl rfl, trivial⟩
    (by
      intro v n args h
      simp [sevenModule, moduleOf, stmtsTerms, stmtTerms, subterms, subtermsList] at h
      rcases h with h | h | h <;> rw [h.2.1] <;> decide)
    (by
      intro v t k h
      simp [sevenModule, moduleOf, stmtsTerms, stmtTerms, subterms, subtermsList] at h
      rw [h.2.1, h.2.2]
      exact ⟨by decide, by decide, fun _ => by decide⟩) []
  exact ⟨i', xs, h1, h2, h3⟩

/-- Addition has no result when executed (`StdOps.add`), although it has a type. An accepted script that starts with the
assignment of a sum of numbers fails when it is executed. -/
theorem C131_sum_fails (hadd : ∀ args rs, execute "add".toList args = some rs → rs = []) (i : Interpreter V)
    (hb : i.back.stack = [])
    (ht : i.table ≠ []) (m : Module) (hl : PlainStmts m.statements)
    (hn : m.vids.Nodup) (sources : Scope (DataSource V)) (hsn : (sources.map (·.1)).Nodup) (env : Str → Option Ty)
    (he : ∀ n, startType i sources n = keptType (env n)) (v w u v1 v2 : Vid) (x : Str) (a b : Number) (ts : List Stmt)
    (hm : m.statements = .assign v w x (.operator u "add".toList [.number v1 a, .number v2 b]) :: ts)
    (hty : Typed env m.statements) (syncs : List Str) :
    i.execute ⟨library execute, number, string⟩ m .none sources syncs = .failed := by
  have hf : FineStmts (library execute) (startType i sources) m.statements := by
    rw [show startType i sources = keptEnv env from funext he]
    exact (fineStmts_iff execute env m.statements hl).2 hty
  obtain ⟨i1, hb1, _, _, ⟨_, h⟩ | ⟨h, _⟩⟩ := validate_cases ⟨library execute, number, string⟩ (rules_total execute) i ht m
    (plain_straightLine _ hl).1 hn (plain_straightLine _ hl).2 sources hsn
  · have hx : i.execute ⟨library execute, number, string⟩ m .none sources syncs =
        i1.executeTree ⟨library execute, number, string⟩ m sources syncs := by
      unfold Interpreter.execute
      rw [h]
    rw [hx]
    have key : ∀ (c : ExecuteContext V) (s : ExecuteState V), c.ops = library execute → s.stack = [] →
        executeStmts c s m.statements = none := by
      intro c s hc hs
      rw [hm, executeStmts, executeStmt, executeExpr, executeExprs, executeExpr]
      simp only [Option.bind_some]
      rw [executeExprs, executeExpr]
      simp only [Option.bind_some]
      rw [executeExprs]
      simp only [Option.bind_some, ExecuteState.finishOperation, hc, library_add, hs, List.length_cons,
        List.length_nil]
      split
      · cases hx : execute "add".toList (List.take (0 + 1 + 1) [c.number b, c.number a]).reverse with
        | none => simp [hx]
        | some rs =>
          rw [hadd _ _ hx]
          simp [ExecuteState.finishAssign]
      · rfl
    have : ((eraseSources i1.back.table sources).bind fun t =>
        executeModule ⟨library execute, number, string, fun n => (sources.value n).map (·.value), syncs.contains, []⟩
          { i1.back with table := t } m) = none := by
      cases eraseSources i1.back.table sources with
      | none => rfl
      | some t =>
        rw [Option.bind_some]
        unfold executeModule
        cases ioModule m with
        | none => rfl
        | some io => exact key _ _ rfl (by rw [hb1]; exact hb)
    unfold Interpreter.executeTree
    simp only at this ⊢
    rw [this]
  · exact absurd hf h

/-- The operation of the code is like that. -/
example {G : Type} (args rs : List (StdOps.Arg G)) (h : StdOps.add args = .ok rs) : rs = [] := by
  unfold StdOps.add at h
  split at h <;> cases h; rfl

/-- `x = 1 + 2` -/
example : Typed (fun _ => none) [.assign 10 11 ['x'] (.operator 12 "add".toList
    [.number 13 (.int .i64 1), .number 14 (.int .i64 2)])] :=
  ⟨.one false .int64, rfl, trivial⟩

/-- And if an expression stands before the assignment the name gets the value of that expression, instead of the sum. -/
theorem C131_sum_stale (c : ExecuteContext V) (hc : c.ops = library execute) (s : ExecuteState V) (hs : s.table ≠ [])
    (v0 v w u v1 v2 : Vid) (x : Str) (k a b : Number) (hadd : execute "add".toList [c.number a, c.number b] = some []) :
    ∃ s', executeStmts c s [.expr (.number v0 k),
        .assign v w x (.operator u "add".toList [.number v1 a, .number v2 b])] = some s' ∧
      s'.table.value x = some (c.number k) := by
  obtain ⟨t, h1, _, h2⟩ := SymbolTable.addValue_some hs x (c.number k)
  refine ⟨{ s with stack := s.stack, table := t,
                   writes := if c.outputs.contains w && c.sync x then s.writes ++ [(x, c.number k)] else s.writes },
    ?_, by simpa using h2 x⟩
  have ha : Operation.arity (⟨[[numbers], [numbers]], standardExpressionType addType 0, execute "add".toList⟩ :
      Operation V) = 2 := rfl
  simp only [executeStmts, executeStmt, executeExpr, executeExprs, Option.bind_some, ExecuteState.finishOperation, hc,
    library_add, List.length_cons, List.length_nil, ha]
  have hadd' : execute ['a', 'd', 'd'] [c.number a, c.number b] = some [] := hadd
  simp [hadd', ExecuteState.finishAssign, h1]

/-- `5; x = 1 + 2` -/
example : ∃ s', executeStmts (⟨library (fun _ _ => some []), fun n => match n with | .int _ k => k | _ => 0, fun _ => 0, fun _ => none, fun _ => false, []⟩ :
      ExecuteContext Int) .initial [.expr (.number 0 (.int .i64 5)), .assign 1 2 ['x'] (.operator 3 "add".toList
        [.number 4 (.int .i64 1), .number 5 (.int .i64 2)])] = some s' ∧ s'.table.value ['x'] = some 5 :=
  C131_sum_stale (fun _ _ => some []) _ rfl _ (by simp [ExecuteState.initial]) 0 1 2 3 4 5 ['x'] (.int .i64 5)
    (.int .i64 1) (.int .i64 2) rfl

end Fern.Library
