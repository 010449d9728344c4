import Verif.Lemmas.Annotate
import Mathlib.Tactic.IntervalCases

/-!
# C58, C59: annotation

Properties of the model in `Verif.Model.Annotate`.
-/

namespace Fern

open Spec

variable {V : Type}

/-! ### C58: the order of the types of arguments -/

/-- Annotation of a fresh expression without subscripts leaves on the stack the type it has when every
operation's type rule is applied to the types of the arguments in reverse order, and fails iff such a
rule fails. -/
theorem C58_reversed (ops : Operations V) (s : AnnotateState V) (e : Expr) (hs : NoSubscript e)
    (hn : (exprIds e).Nodup) (hf : Unannotated s (exprIds e)) :
    (annotateExpr ops s e).map (·.stack) =
      (typeExpr (reversedRules ops) s.nameType e).map (· :: s.stack) :=
  (annotateExpr_typed ops s e hs hn hf).1

theorem operationType_symmetric {ops : Operations V}
    (hsym : ∀ n op, ops n = some op → ∀ l, l.length = op.parameters.length →
      op.exprType l.reverse = op.exprType l) (n : Str) :
    operationType (reversedRules ops) n = operationType ops n := by
  funext l
  rw [operationType_reversed, operationType, operationType]
  cases hop : ops n with
  | none => rfl
  | some op =>
    dsimp only
    rw [List.length_reverse]
    by_cases hl : l.length = op.parameters.length
    · rw [if_pos hl, if_pos hl, hsym n op hop l hl]
    · rw [if_neg hl, if_neg hl]

mutual

theorem typeExpr_symmetric {ops : Operations V}
    (hsym : ∀ n op, ops n = some op → ∀ l, l.length = op.parameters.length →
      op.exprType l.reverse = op.exprType l) (env : Str → ExpressionType) (e : Expr) :
    typeExpr (reversedRules ops) env e = typeExpr ops env e := by
  cases e with
  | name v n => rw [typeExpr, typeExpr]
  | number v n => rw [typeExpr, typeExpr]
  | string v n => rw [typeExpr, typeExpr]
  | call v n args =>
    rw [typeExpr, typeExpr, typeExprs_symmetric hsym env args, operationType_symmetric hsym]
  | operator v n args =>
    rw [typeExpr, typeExpr, typeExprs_symmetric hsym env args, operationType_symmetric hsym]
  | subscript v e i => rw [typeExpr, typeExpr]
  | «attribute» v e m => rw [typeExpr, typeExpr, typeExpr_symmetric hsym env e]

theorem typeExprs_symmetric {ops : Operations V}
    (hsym : ∀ n op, ops n = some op → ∀ l, l.length = op.parameters.length →
      op.exprType l.reverse = op.exprType l) (env : Str → ExpressionType) (es : List Expr) :
    typeExprs (reversedRules ops) env es = typeExprs ops env es := by
  cases es with
  | nil => rw [typeExprs, typeExprs]
  | cons e es => rw [typeExprs, typeExprs, typeExpr_symmetric hsym env e, typeExprs_symmetric hsym env es]

end

/-- When the type rules are symmetric in the arguments, annotation leaves the type that the expression
has with arguments in source order. -/
theorem C58_symmetric (ops : Operations V)
    (hsym : ∀ n op, ops n = some op → ∀ l, l.length = op.parameters.length →
      op.exprType l.reverse = op.exprType l)
    (s : AnnotateState V) (e : Expr) (hs : NoSubscript e) (hn : (exprIds e).Nodup)
    (hf : Unannotated s (exprIds e)) :
    (annotateExpr ops s e).map (·.stack) = (typeExpr ops s.nameType e).map (· :: s.stack) := by
  rw [C58_reversed ops s e hs hn hf, typeExpr_symmetric hsym]

/-- In particular when all operations have at most one parameter. -/
theorem C58_unary (ops : Operations V)
    (hu : ∀ n op, ops n = some op → op.parameters.length ≤ 1)
    (s : AnnotateState V) (e : Expr) (hs : NoSubscript e) (hn : (exprIds e).Nodup)
    (hf : Unannotated s (exprIds e)) :
    (annotateExpr ops s e).map (·.stack) = (typeExpr ops s.nameType e).map (· :: s.stack) := by
  refine C58_symmetric ops (fun n op hop l hl => ?_) s e hs hn hf
  have h := hu n op hop
  match l, hl with
  | [], _ => rfl
  | [x], _ => rfl
  | x :: y :: l, hl => rw [← hl, List.length_cons, List.length_cons] at h; omega

/-- Names for arguments: `x`, `xx`, `xxx` and so on. -/
def argumentName (i : Nat) : Str := List.replicate (i + 1) 'x'

theorem argumentName_injective {i j : Nat} (h : argumentName i = argumentName j) : i = j := by
  have := congrArg List.length h
  simp only [argumentName, List.length_replicate] at this
  omega

/-- The names as arguments of a call, with vertices from `v + 1` on. -/
def argumentNames (v k : Nat) : List Expr :=
  (List.range k).map fun i => .name (v + 1 + i) (argumentName i)

theorem typeExprs_names (ops : Operations V) (env : Str → ExpressionType) (l : List (Vid × Str)) :
    typeExprs ops env (l.map fun x => .name x.1 x.2) = some (l.map fun x => env x.2) := by
  induction l with
  | nil => rw [List.map_nil, typeExprs]; rfl
  | cons x l ih => rw [List.map_cons, typeExprs, typeExpr, ih]; rfl

theorem subtermsList_names (l : List (Vid × Str)) :
    subtermsList (l.map fun x => .name x.1 x.2) = l.map fun x => .name x.1 x.2 := by
  induction l with
  | nil => rw [List.map_nil, subtermsList]
  | cons x l ih => rw [List.map_cons, subtermsList, subterms, ih]; rfl

theorem noSubscripts_names (l : List (Vid × Str)) :
    NoSubscripts (l.map fun x => .name x.1 x.2) := by
  induction l with
  | nil => rw [List.map_nil, NoSubscripts]; trivial
  | cons x l ih => rw [List.map_cons, NoSubscripts, NoSubscript]; exact ⟨trivial, ih⟩

/-- A table with types for the names. -/
def argumentTable (l : List ExpressionType) : SymbolTable ExpressionType :=
  [(List.range l.length).map fun i => (argumentName i, (l[i]?).getD .undefined)]

theorem value_argumentTable (l : List ExpressionType) {i : Nat} (hi : i < l.length) :
    (argumentTable l).value (argumentName i) = some l[i] := by
  rw [argumentTable, SymbolTable.value_cons, SymbolTable.value_nil, Option.or_none]
  have : ∀ (r : List Nat), i ∈ r → Scope.value
      (r.map fun j => (argumentName j, (l[j]?).getD .undefined)) (argumentName i) = some l[i] := by
    intro r
    induction r with
    | nil => intro h; cases h
    | cons j r ih =>
      intro h
      rw [List.map_cons, Scope.value_cons]
      by_cases hj : argumentName j = argumentName i
      · rw [if_pos hj, argumentName_injective hj, List.getElem?_eq_getElem hi]; rfl
      · rw [if_neg hj]
        refine ih ?_
        rcases List.mem_cons.1 h with rfl | h
        · exact absurd rfl hj
        · exact h
  exact this _ (List.mem_range.2 hi)

/-- Conversely, for every operation whose type rule is not symmetric there are an expression and types
for the names in it such that annotation does not leave the type the expression has: a call of the
operation with names as arguments. -/
theorem C58_exact (ops : Operations V) (n : Str) (op : Operation V) (hop : ops n = some op)
    (l : List ExpressionType) (hl : l.length = op.parameters.length)
    (hne : op.exprType l.reverse ≠ op.exprType l) :
    ∃ (s : AnnotateState V) (e : Expr), NoSubscript e ∧ (exprIds e).Nodup ∧ Unannotated s (exprIds e) ∧
      (annotateExpr ops s e).map (·.stack) ≠ (typeExpr ops s.nameType e).map (· :: s.stack) := by
  have hargs : argumentNames 0 l.length =
      ((List.range l.length).map fun i => (0 + 1 + i, argumentName i)).map
        fun x => .name x.1 x.2 := by
    rw [argumentNames, List.map_map]; rfl
  have hids : exprIds (.call 0 n (argumentNames 0 l.length)) =
      (List.range l.length).map (fun i => 0 + 1 + i) ++ [0] := by
    rw [exprIds_call, exprsIds, hargs, subtermsList_names, List.map_map, List.map_map]; rfl
  have hn : (exprIds (.call 0 n (argumentNames 0 l.length))).Nodup := by
    rw [hids, List.nodup_append]
    refine ⟨List.Nodup.map (fun i j h => by simpa using h) List.nodup_range, by simp, ?_⟩
    intro a ha b hb
    rw [List.mem_singleton] at hb
    obtain ⟨i, _, rfl⟩ := List.mem_map.1 ha
    subst hb
    change 0 + 1 + i ≠ (0 : Nat)
    omega
  refine ⟨⟨[], argumentTable l, fun _ => [], fun _ => none⟩, .call 0 n (argumentNames 0 l.length),
    ?_, ?_, fun v _ => ⟨rfl, rfl⟩, ?_⟩
  · rw [NoSubscript, hargs]; exact noSubscripts_names _
  · exact hn
  · rw [C58_reversed ops _ _ (by rw [NoSubscript, hargs]; exact noSubscripts_names _) hn
      (fun v _ => ⟨rfl, rfl⟩)]
    have hty : ∀ ops' : Operations V, typeExprs ops'
        (AnnotateState.nameType ⟨[], argumentTable l, fun _ => [], fun _ => (none : Option (Operation V))⟩)
        (argumentNames 0 l.length) = some l := by
      intro ops'
      rw [hargs, typeExprs_names, List.map_map]
      congr 1
      apply List.ext_getElem
      · simp
      · intro i h1 h2
        simp only [List.getElem_map, List.getElem_range, Function.comp]
        rw [AnnotateState.nameType, value_argumentTable l h2]
        rfl
    rw [typeExpr, typeExpr, hty, hty, Option.bind_some, Option.bind_some, operationType_reversed,
      operationType, operationType, hop]
    dsimp only
    rw [List.length_reverse, if_pos hl, if_pos hl]
    intro h
    apply hne
    have hinj : Function.Injective fun t : ExpressionType => [t] := fun a b h => by simpa using h
    exact Option.map_injective hinj h

/-- An operation with the standard type rule whose two parameters are of different types: numbers, and 8
bit integers. -/
def asymmetricType : OperationType where
  parameters := [[⟨DataTypes.constant, ValueType.int32.flag.union ValueType.float32.flag⟩],
    [⟨DataTypes.constant, ValueType.uint8.flag⟩]]
  results := [⟨DataTypes.constant,
    (ValueType.int32.flag.union ValueType.float32.flag).union ValueType.uint8.flag⟩]

/-- The operation as the annotation sees it. -/
def asymmetricOperation : Operation Unit where
  parameters := asymmetricType.parameters
  exprType := standardExpressionType asymmetricType 0
  execute := fun _ => some [()]

/-- `f(1, 2)` with a 32 bit and an 8 bit integer. -/
def asymmetricCall : Expr := .call 0 ['f'] [.number 1 (.int .i32 1), .number 2 (.int .u8 2)]

/-- That the types are passed in source order is false: with the standard type rule and two parameters
of different types, `f(1, 2)` is annotated to be a 32 bit float, an 8 bit integer or a 32 bit integer;
the rule says it is a 32 bit integer. -/
theorem C58_false :
    let ops : Operations Unit := fun n => if n = ['f'] then some asymmetricOperation else none
    let s : AnnotateState Unit := AnnotateState.initial
    ((annotateExpr ops s asymmetricCall).map fun s => s.stack.map fun t =>
      (t.value.test .float32, t.value.test .uint8, t.value.test .int32)) =
        some [(true, true, true)] ∧
    ((typeExpr ops s.nameType asymmetricCall).map fun t =>
      (t.value.test .float32, t.value.test .uint8, t.value.test .int32)) =
        some (false, false, true) := by
  decide +kernel

example : NoSubscript asymmetricCall ∧ (exprIds asymmetricCall).Nodup ∧
    Unannotated (AnnotateState.initial : AnnotateState Unit) (exprIds asymmetricCall) :=
  ⟨by simp [asymmetricCall, NoSubscript, NoSubscripts], by decide +kernel, fun _ _ => ⟨rfl, rfl⟩⟩

/-! ### C59: the stack of annotation -/

/-- Annotation of any expression leaves what was on the stack where it was and puts the stated number of
types on top, at least one. -/
theorem C59_annotate_expr (ops : Operations V) (s s' : AnnotateState V) (e : Expr)
    (h : annotateExpr ops s e = some s') :
    (∃ ts : List ExpressionType, ts.length = pushes e ∧ s'.stack = ts ++ s.stack) ∧ 1 ≤ pushes e ∧
      s'.table = s.table :=
  ⟨(annotateExpr_frame ops s s' e h).stack, one_le_pushes e, (annotateExpr_frame ops s s' e h).table⟩

/-- Without subscripts it is exactly one type. -/
theorem C59_annotate_one (ops : Operations V) (s s' : AnnotateState V) (e : Expr)
    (hs : NoSubscript e) (h : annotateExpr ops s e = some s') : ∃ t, s'.stack = t :: s.stack := by
  obtain ⟨ts, hl, hts⟩ := (annotateExpr_frame ops s s' e h).stack
  rw [pushes_of_noSubscript e hs] at hl
  obtain ⟨t, rfl⟩ := List.length_eq_one_iff.1 hl
  exact ⟨t, hts⟩

/-- Annotation of a fresh expression, with or without subscripts, meets no empty stack and no other
failing assertion, provided that the type rules do not fail. -/
theorem C59_annotate_total (ops : Operations V)
    (ht : ∀ n op, ops n = some op → ∀ l, l.length = op.parameters.length → (op.exprType l).isSome)
    (s : AnnotateState V) (e : Expr) (hn : (exprIds e).Nodup) (hf : Unannotated s (exprIds e)) :
    (annotateExpr ops s e).isSome :=
  annotateExpr_isSome ht s e hn hf

/-- Annotation of an assignment leaves the stack as it was. -/
theorem C59_annotate_assign (ops : Operations V) (s s' : AnnotateState V) (v target : Vid) (n : Str)
    (e : Expr) (hs : NoSubscript e) (h : annotateStmt ops s (.assign v target n e) = some s') :
    s'.stack = s.stack := by
  rw [annotateStmt] at h
  obtain ⟨s1, h1, h2⟩ := Option.bind_eq_some_iff.1 h
  obtain ⟨t, ht⟩ := C59_annotate_one ops s s1 e hs h1
  rw [AnnotateState.finishAssign, ht] at h2
  dsimp only at h2
  obtain ⟨table, _, h3⟩ := Option.bind_eq_some_iff.1 h2
  split at h3
  · cases h3; rfl
  · cases h3

/-- With a subscript it is false: `x[0]` leaves two types. -/
theorem C59_annotate_subscript :
    ((annotateExpr (fun _ => none) (AnnotateState.initial : AnnotateState Unit)
      (.subscript 0 (.name 1 ['x']) (.number 2 (.int .i64 0)))).map (·.stack.length)) = some 2 := by
  decide +kernel

/-- The consequence: in `f("s", x[0])` the operation is given the types of `x` and `0` instead of those
of `"s"` and `x[0]`, and the type of `"s"` remains below the result. -/
theorem C59_annotate_subscript_argument :
    let op : Operation Unit := ⟨[[], []], fun l => l.head?, fun _ => none⟩
    ((annotateExpr (fun _ => some op) (AnnotateState.initial : AnnotateState Unit)
      (.call 4 ['f'] [.string 3 ['s'],
        .subscript 0 (.name 1 ['x']) (.number 2 (.int .i64 0))])).map
      fun s => s.stack.map fun t => (t.value.test .int64, t.defined)) =
        some [(true, true), (false, true)] := by
  decide +kernel

/-- An assignment of an attribute fails an assertion: annotation gives attributes no type. -/
theorem C59_annotate_attribute (ops : Operations V) (s : AnnotateState V) (v target w : Vid) (n m : Str)
    (e : Expr) (hn : (exprIds (.attribute w e m)).Nodup)
    (hf : Unannotated s (exprIds (.attribute w e m))) :
    annotateStmt ops s (.assign v target n (.attribute w e m)) = none := by
  rw [annotateStmt]
  cases h : annotateExpr ops s (.attribute w e m) with
  | none => rfl
  | some s1 =>
    rw [Option.bind_some, AnnotateState.finishAssign]
    have : s1.types w = [] := by
      rw [annotateExpr] at h
      have hfr := annotateExpr_frame ops s s1 e h
      rw [exprIds_attribute] at hn hf
      exact (hf.right.after hfr (nodup_disjoint hn) w (by simp)).1
    cases s1.stack with
    | nil => rfl
    | cons t stack =>
      dsimp only
      cases s1.table.addValue n t with
      | none => rfl
      | some table => simp [Expr.vid, this]

end Fern
