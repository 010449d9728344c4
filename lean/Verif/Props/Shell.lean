import Verif.Model.Shell
import Verif.Spec.Shell
import Verif.Lemmas.Messages
import Verif.Props.Accepted

/-!
# C94: interactive sessions
-/

namespace Fern.Shell

open Fern Fern.Spec Fern.Shell.Spec

variable {V : Type}

mutual

theorem evalExpr_outputs (c : ExecuteContext V) (o : List Vid) (env : Str → Option V) (e : Expr) :
    evalExpr { c with outputs := o } env e = evalExpr c env e := by
  cases e with
  | name v n => rw [evalExpr, evalExpr]
  | number v n => rw [evalExpr, evalExpr]
  | string v n => rw [evalExpr, evalExpr]
  | call v n args => rw [evalExpr, evalExpr, evalExprs_outputs c o env args]
  | operator v n args => rw [evalExpr, evalExpr, evalExprs_outputs c o env args]
  | subscript v e i => rw [evalExpr, evalExpr]
  | «attribute» v e m => rw [evalExpr, evalExpr, evalExpr_outputs c o env e]

theorem evalExprs_outputs (c : ExecuteContext V) (o : List Vid) (env : Str → Option V) (es : List Expr) :
    evalExprs { c with outputs := o } env es = evalExprs c env es := by
  cases es with
  | nil => rw [evalExprs, evalExprs]
  | cons e es => rw [evalExprs, evalExprs, evalExpr_outputs c o env e, evalExprs_outputs c o env es]

end

theorem evalStmts_outputs (c : ExecuteContext V) (o : List Vid) (env : Str → Option V) (l : List Stmt) :
    evalStmts { c with outputs := o } env l = evalStmts c env l := by
  induction l generalizing env with
  | nil => rw [evalStmts, evalStmts]
  | cons t l ih =>
    cases t with
    | expr e => rw [evalStmts, evalStmts, evalExpr_outputs, ih]
    | assign v target n e =>
      rw [evalStmts, evalStmts, evalExpr_outputs]
      congr 1
      funext x
      exact ih _
    | _ => simp [evalStmts]

theorem evalStmts_outputs' (c : InterpreterContext V) (o : List Vid) (env : Str → Option V) (l : List Stmt) :
    evalStmts (executionContext c [] [] o) env l = evalStmts (plain c) env l :=
  evalStmts_outputs (plain c) o env l

theorem showStack_some {text : V → Option Str} {xs : List V} {s : Str} (h : showStack text xs = some s) :
    ∃ ts, List.Forall₂ (fun x s => text x = some s) xs ts ∧ s = ts.flatten := by
  induction xs generalizing s with
  | nil => cases h; exact ⟨[], .nil, rfl⟩
  | cons x xs ih =>
    rw [showStack] at h
    obtain ⟨t, h1, h2⟩ := Option.bind_eq_some_iff.1 h
    obtain ⟨r, h3, rfl⟩ := Option.map_eq_some_iff.1 h2
    obtain ⟨ts, h4, rfl⟩ := ih h3
    exact ⟨t :: ts, .cons h1 h4, by simp⟩

theorem showStack_total {text : V → Option Str} {xs : List V} (h : ∀ x ∈ xs, (text x).isSome) :
    ∃ s, showStack text xs = some s := by
  induction xs with
  | nil => exact ⟨[], rfl⟩
  | cons x xs ih =>
    obtain ⟨s, hs⟩ := ih fun y hy => h y (List.mem_cons_of_mem _ hy)
    obtain ⟨t, ht⟩ := Option.isSome_iff_exists.1 (h x List.mem_cons_self)
    exact ⟨t ++ s, by rw [showStack, ht, Option.bind_some, hs]; rfl⟩

theorem typesAfter_nothing (ops : Operations V) (types : Str → ExpressionType) (l : List Stmt) (h : AssignsNothing l) :
    typesAfter ops types l = types := by
  induction l with
  | nil => rfl
  | cons t l ih =>
    obtain ⟨e, rfl⟩ := h t List.mem_cons_self
    rw [typesAfter]
    · exact ih fun t ht => h t (List.mem_cons_of_mem _ ht)
    · intro _ _ _ _ k; cases k

theorem forall₂_left {A B : Type} {R : A → B → Prop} {l : List A} {r : List B} (h : List.Forall₂ R l r) {a : A}
    (ha : a ∈ l) : ∃ b, b ∈ r ∧ R a b := by
  induction h with
  | nil => cases ha
  | cons h1 _ ih =>
    rcases List.mem_cons.1 ha with rfl | ha
    · exact ⟨_, List.mem_cons_self, h1⟩
    · obtain ⟨b, hb, hr⟩ := ih ha
      exact ⟨b, List.mem_cons_of_mem _ hb, hr⟩

/-- What an interpreter between two lines is like: it can be used, nothing is on the stacks, and names have the given
types and values. -/
structure Between (hasType : V → ExpressionType → Prop) (i : Interpreter V) (types : Str → ExpressionType)
    (env : Str → Option V) : Prop where
  ready : InterpreterReady hasType i
  values : i.back.stack = []
  typeStack : i.types = []
  types : ∀ n, (i.table.value n).getD .undefined = types n
  env : ∀ n, i.back.table.value n = env n

theorem Between.cleared {hasType : V → ExpressionType → Prop} {i : Interpreter V} {types : Str → ExpressionType}
    {env : Str → Option V} (h : Between hasType i types env) : i.clearStack = i := by
  cases i with
  | mk a b c =>
    cases c with
    | mk s t r w =>
      obtain ⟨-, h1, h2, -, -⟩ := h
      simp only at h1 h2
      subst h1 h2
      rfl

theorem startType_nil (i : Interpreter V) (types : Str → ExpressionType)
    (h : ∀ n, (i.table.value n).getD .undefined = types n) : startType i [] = types := by
  funext n
  rw [startType, ← h n]
  rfl

theorem startValue_nil (i : Interpreter V) (env : Str → Option V) (h : ∀ n, i.back.table.value n = env n) :
    startValue i [] = env := by
  funext n
  rw [startValue, ← h n]
  rfl

/-- A line that is a well-typed module. -/
theorem line_fine (T : Tools V) {hasType : V → ExpressionType → Prop} (hw : WellTyped T.context hasType)
    (hr : TotalRules T.context.ops) (htext : ∀ x t, hasType x t → (T.text x).isSome) (i : Interpreter V)
    (types : Str → ExpressionType) (env : Str → Option V) (hb : Between hasType i types env) (m : Module)
    (hl : StraightLine m.statements) (hn : m.vids.Nodup) (ha : ∀ t ∈ m.statements, ¬ AssignsAttribute t)
    (hf : FineStmts T.context.ops types m.statements) :
    ∃ i' env' values texts, i.execute T.context m .none [] [] = .done i' ∧
      evalStmts (plain T.context) env m.statements = some (env', values) ∧
      showStack T.text i'.back.stack = some texts.flatten ∧
      List.Forall₂ (fun x s => T.text x = some s) values.reverse texts ∧
      Between hasType i'.clearStack (typesAfter T.context.ops types m.statements) env' := by
  have hst := startType_nil i types hb.types
  obtain ⟨i1, hback, hne, hty, hc⟩ := validate_cases T.context hr i hb.ready.scope m hl hn ha [] List.nodup_nil
  rw [hst] at hty hc
  obtain ⟨-, hv⟩ := hc.resolve_right fun k => k.1 hf
  obtain ⟨i', h1, h2, h3, h4, h5, h6, h7⟩ := C77_execute T.context hw i hb.ready m hl hn [] List.nodup_nil
    (by intro n d k; cases k) [] i1 hv
  obtain ⟨io, hio⟩ := Option.isSome_iff_exists.1 (C62_succeeds m)
  obtain ⟨t, s, g1, g2, g3, g4⟩ := Interpreter.validate_eq_done hv
  have hth : TableHasValues hasType env t := by
    intro n ty hn' hd
    have : t = i.table := by
      simp only [List.map_nil, List.foldlM_nil] at g1
      exact (Option.some.inj g1).symm
    rw [this] at hn'
    rw [← hb.env n]
    exact hb.ready.values n ty hn' hd
  obtain ⟨⟨env', values, ts, k1, k2, k3, k4⟩, k5⟩ :=
    stmts_sound (plain T.context) hw m.statements hl
      ⟨i.types, t, fun _ => [], fun _ => none⟩ s g2 (termIds_nodup hl hn) (fun v _ => ⟨rfl, rfl⟩) g4 env hth
  have hm := C77_meaning T.context hw.oneResult i1 (by rw [hback]; exact hb.ready.oneScope) m hl k5 [] [] io hio
  have hsv : startValue i1 [] = env := startValue_nil i1 env (fun n => by rw [hback]; exact hb.env n)
  rw [hsv] at hm
  dsimp only at hm
  rw [evalStmts_outputs', k1] at hm
  obtain ⟨i2, e1, e2, e3, e4, e5, _, e7, e8⟩ := hm
  have hi2 : i' = i2 := by
    rw [Interpreter.execute, hv] at h1
    dsimp only at h1
    rw [e1] at h1
    cases h1; rfl
  subst hi2
  have hstack : i'.back.stack = values.reverse := by rw [e5, hback, hb.values, List.append_nil]
  obtain ⟨str, hstr⟩ := showStack_total (text := T.text) (xs := values.reverse) (by
    intro x hx
    rw [List.mem_reverse] at hx
    obtain ⟨ty, -, hxt⟩ := forall₂_left k3 hx
    exact htext x ty hxt)
  obtain ⟨texts, q1, q2⟩ := showStack_some hstr
  refine ⟨i', env', values, texts, h1, k1, by rw [hstack, hstr, q2], q1, ?_⟩
  have henv : ∀ n, i'.back.table.value n = env' n := by
    intro n
    by_cases hmn : Mentioned m n
    · exact e7 n hmn
    · rw [e8 n hmn, hback, evalStmts_other k1 fun v hv => hmn ⟨v, .inr hv⟩, ← hb.env n]
      rfl
  refine ⟨⟨h4, h5, ?_⟩, rfl, rfl, ?_, henv⟩
  · intro n ty hn' hd
    rcases h7 n ty hn' hd with h | ⟨h, -⟩
    · exact h
    · cases h
  · intro n
    change (i'.table.value n).getD _ = _
    rw [h3]
    exact hty n

/-- A line that is another module and assigns nothing. -/
theorem line_refused (T : Tools V) {hasType : V → ExpressionType → Prop}
    (hr : TotalRules T.context.ops) (i : Interpreter V)
    (types : Str → ExpressionType) (env : Str → Option V) (hb : Between hasType i types env) (m : Module)
    (hl : StraightLine m.statements) (hn : m.vids.Nodup) (ha : ∀ t ∈ m.statements, ¬ AssignsAttribute t)
    (hf : ¬ FineStmts T.context.ops types m.statements) (hno : AssignsNothing m.statements) :
    ∃ i' p, i.execute T.context m .none [] [] = .refused i' p ∧ Between hasType i'.clearStack types env := by
  have hst := startType_nil i types hb.types
  obtain ⟨i1, hback, hne, hty, hc⟩ := validate_cases T.context hr i hb.ready.scope m hl hn ha [] List.nodup_nil
  rw [hst] at hty hc
  obtain ⟨-, p, hv⟩ := hc.resolve_left fun k => hf k.1
  rw [typesAfter_nothing _ _ _ hno] at hty
  refine ⟨i1, p, by rw [Interpreter.execute, hv], ⟨hne, ?_, ?_⟩, rfl, rfl, hty, ?_⟩
  · change i1.back.table.length = 1
    rw [hback]; exact hb.ready.oneScope
  · intro n t hn' hd
    change i1.table.value n = some t at hn'
    change ∃ x, i1.back.table.value n = some x ∧ _
    rw [hback]
    have h1 : types n = t := by rw [← hty n, hn']; rfl
    have h2 := hb.types n
    rw [h1] at h2
    cases h3 : i.table.value n with
    | none =>
      rw [h3] at h2
      cases h2
      exact absurd hd not_isDefined_undefined
    | some u =>
      rw [h3] at h2
      cases h2
      exact hb.ready.values n u h3 hd
  · intro n
    change i1.back.table.value n = env n
    rw [hback]; exact hb.env n

theorem lines_session (T : Tools V) {hasType : V → ExpressionType → Prop} (hw : WellTyped T.context hasType)
    (hr : TotalRules T.context.ops) (htext : ∀ x t, hasType x t → (T.text x).isSome) (ls : List Str) :
    ∀ (k : Console V) (types : Str → ExpressionType) (env : Str → Option V),
      Between hasType k.interpreter types env → Careful T types ls →
      ∃ k' out err, lines T k ls = some k' ∧ Session T types env ls out err ∧ k'.out = k.out ++ out ∧
        k'.err = k.err ++ err ∧ k'.history = k.history ++ ls := by
  induction ls with
  | nil => intro k types env hb hc; exact ⟨k, [], [], rfl, .nil types env, by simp, by simp, by simp⟩
  | cons l ls ih =>
    intro k types env hb hc
    rw [Careful] at hc
    rw [lines, line]
    cases hp : T.parse l with
    | fernError message =>
      obtain ⟨k', out, err, h1, h2, h3, h4, h5⟩ := ih
        ⟨k.interpreter.clearStack, k.out, k.err ++ message ++ ['\n'], k.history ++ [l]⟩ types env
        (by dsimp only; rw [hb.cleared]; exact hb) (hc.2 (by rw [hp]; intro m k; cases k))
      exact ⟨k', out, _, h1, .unparsed types env l ls message out err hp h2, h3, by rw [h4]; simp, by rw [h5]; simp⟩
    | otherError what =>
      obtain ⟨k', out, err, h1, h2, h3, h4, h5⟩ := ih
        ⟨k.interpreter.clearStack, k.out, k.err ++ "TODO: unhandled exception: ".toList ++ what ++ ['\n'],
          k.history ++ [l]⟩ types env
        (by dsimp only; rw [hb.cleared]; exact hb) (hc.2 (by rw [hp]; intro m k; cases k))
      exact ⟨k', out, _, h1, .unexpected types env l ls what out err hp h2, h3,
        by rw [h4]; simp only [List.append_assoc], by rw [h5]; simp⟩
    | tree m =>
      obtain ⟨hl, hn, ha, hf, hc'⟩ := hc.1 m hp
      by_cases hfine : FineStmts T.context.ops types m.statements
      · obtain ⟨i', env', values, texts, h1, h2, h3, h4, h5⟩ :=
          line_fine T hw hr htext k.interpreter types env hb m hl hn ha hfine
        obtain ⟨k', out, err, g1, g2, g3, g4, g5⟩ := ih
          ⟨i'.clearStack, k.out ++ texts.flatten, k.err, k.history ++ [l]⟩ _ env' h5 hc'
        refine ⟨k', texts.flatten ++ out, err, ?_, .done types env env' l ls m values texts out err hp hfine h2 h4 g2,
          by rw [g3]; simp, g4, by rw [g5]; simp⟩
        dsimp only
        rw [h1]
        dsimp only
        rw [h3]
        exact g1
      · have hno := hf.resolve_left hfine
        obtain ⟨i', p, h1, h2⟩ := line_refused T hr k.interpreter types env hb m hl hn ha hfine hno
        rw [typesAfter_nothing _ _ _ hno] at hc'
        obtain ⟨k', out, err, g1, g2, g3, g4, g5⟩ := ih
          ⟨i'.clearStack, k.out, k.err ++ T.problem p ++ ['\n'], k.history ++ [l]⟩ types env h2 hc'
        refine ⟨k', out, _, ?_, .refused types env l ls m p out err hp hfine g2, g3, by rw [g4]; simp,
          by rw [g5]; simp⟩
        dsimp only
        rw [h1]
        exact g1

/-- A session of lines that cannot be parsed, well-typed lines and lines that assign nothing goes on until the end of
the input. It shows the version, the values of the lines, the last statement of a line first, and an empty line; it
complains about the lines that are refused; and all lines end up in the history. -/
theorem C94_session (T : Tools V) {hasType : V → ExpressionType → Prop} (hw : WellTyped T.context hasType)
    (hr : TotalRules T.context.ops) (htext : ∀ x t, hasType x t → (T.text x).isSome) (home : Str) (history ls : List Str)
    (hc : Careful T (fun _ => .undefined) ls) :
    ∃ k out err, enterInterpreter T (some home) history ls = some k ∧
      Session T (fun _ => .undefined) (fun _ => none) ls out err ∧
      k.out = T.version ++ out ++ ['\n'] ∧ k.err = err ∧ k.history = history ++ ls := by
  have hb : Between hasType (Interpreter.initial : Interpreter V) (fun _ => .undefined) (fun _ => none) :=
    ⟨initial_ready hasType, rfl, rfl, fun n => rfl, fun n => rfl⟩
  obtain ⟨k, out, err, h1, h2, h3, h4, h5⟩ := lines_session T hw hr htext ls ⟨.initial, T.version, [], history⟩ _ _ hb hc
  refine ⟨{ k with out := k.out ++ ['\n'] }, out, err, ?_, h2, ?_, by rw [h4]; rfl, h5⟩
  · rw [enterInterpreter]
    rw [h1]
    rfl
  · rw [h3]

/-- Whatever the lines are: nothing is left on the stacks between two of them, each of them is in the history, and
what has been shown stays. -/
theorem C94_between (T : Tools V) (k k' : Console V) (l : Str) (h : line T k l = some k') :
    k'.interpreter.types = [] ∧ k'.interpreter.back.stack = [] ∧ k'.history = k.history ++ [l] ∧
      k.out <+: k'.out ∧ k.err <+: k'.err ∧ (k'.out = k.out ∨ k'.err = k.err) := by
  rw [line] at h
  dsimp only at h
  split at h
  · cases h
    exact ⟨rfl, rfl, rfl, List.prefix_refl _, ⟨_, (List.append_assoc _ _ _).symm⟩, .inl rfl⟩
  · cases h
    exact ⟨rfl, rfl, rfl, List.prefix_refl _, by simp only [List.append_assoc, List.prefix_append], .inl rfl⟩
  · split at h
    · cases h
    · cases h
      exact ⟨rfl, rfl, rfl, List.prefix_refl _, ⟨_, (List.append_assoc _ _ _).symm⟩, .inl rfl⟩
    · obtain ⟨s, _, rfl⟩ := Option.map_eq_some_iff.1 h
      exact ⟨rfl, rfl, rfl, List.prefix_append _ _, List.prefix_refl _, .inr rfl⟩

/-- A line that cannot be parsed has no effect on the lines that follow. -/
theorem C94_unparsed (T : Tools V) (k : Console V) (l message : Str) (hp : T.parse l = .fernError message)
    (hs : k.interpreter.types = []) (hb : k.interpreter.back.stack = []) :
    line T k l = some { k with err := k.err ++ message ++ ['\n'], history := k.history ++ [l] } := by
  rw [line]
  dsimp only
  rw [hp]
  obtain ⟨⟨a, b, ⟨c, d, e, f⟩⟩, o, r, h⟩ := k
  simp only at hs hb
  subst hs hb
  rfl

/-- Without a home directory the program does not start. -/
theorem C94_home (T : Tools V) (history ls : List Str) : enterInterpreter T none history ls = none := rfl

/-! ### Examples -/

/-- The interpreter of the examples with some lines. -/
def exampleTools : Tools (ExpressionType × Int) where
  parse := fun l =>
    if l = "1; 2".toList then .tree (moduleOf [.expr (.number 10 (.int .i64 1)), .expr (.number 11 (.int .i64 2))])
    else if l = "a = 5".toList then .tree (moduleOf [.assign 10 11 ['a'] (.number 12 (.int .i64 5))])
    else if l = "add(a, 2)".toList then
      .tree (moduleOf [.expr (.call 10 "add".toList [.name 11 ['a'], .number 12 (.int .i64 2)])])
    else if l = "a = 5; x".toList then
      .tree (moduleOf [.assign 10 11 ['a'] (.number 12 (.int .i64 5)), .expr (.name 13 ['x'])])
    else .fernError "syntax".toList
  context := exampleInterpreter
  text := fun x => some (formatInt x.2 ++ ['\n'])
  problem := fun _ => "problem".toList
  version := "fern\n".toList

/-- What is seen of a session. -/
def seen (ls : List String) : Option (String × String) :=
  (enterInterpreter exampleTools (some []) [] (ls.map String.toList)).map fun k => (String.ofList k.out, String.ofList k.err)

example : Careful exampleTools (fun _ => .undefined) ["(".toList, "1; 2".toList, "add(a, 2)".toList] := by
  refine ⟨fun m hm => (by cases hm), fun _ => ⟨fun m hm => ?_, fun h => absurd rfl (h _)⟩⟩
  cases hm
  refine ⟨by simp [moduleOf, StraightLine, NoSubscript], by decide +kernel, ?_, .inl ?_, fun m hm => ?_,
    fun h => absurd rfl (h _)⟩
  · intro t ht
    simp only [moduleOf, List.mem_cons, List.not_mem_nil, or_false] at ht
    rcases ht with rfl | rfl <;> exact fun h => h
  · simp [moduleOf, FineStmts, Fine]
  · cases hm
    refine ⟨by simp [moduleOf, StraightLine, NoSubscript, NoSubscripts], by decide +kernel, ?_, .inr ?_, trivial⟩
    · intro t ht
      rw [List.mem_singleton.1 ht]
      exact fun h => h
    · intro t ht
      rw [List.mem_singleton.1 ht]
      exact ⟨_, rfl⟩

/-- The values of one line are shown in reverse order. -/
theorem C94_reversed : seen ["1; 2"] = some ("fern\n2\n1\n\n", "") := by decide +kernel

example : seen ["a = 5", "(", "add(a, 2)"] = some ("fern\n7\n\n", "syntax\n") := by decide +kernel

example : seen ["add(a, 2)"] = some ("fern\n\n", "problem\n") := by decide +kernel

/-- After a line that was refused, the next one can end the program: the names that it assigns have got a type, and no
value. -/
theorem C94_refused_then_fails : seen ["a = 5; x"] = some ("fern\n\n", "problem\n") ∧
    seen ["a = 5; x", "add(a, 2)"] = none := by decide +kernel

/-- Not so if the name gets its value in between. -/
example : seen ["a = 5; x", "a = 5", "add(a, 2)"] = some ("fern\n7\n\n", "problem\n") := by decide +kernel

/-! ### Values -/

/-- Constants are shown as a line; static fields by their kind; other attributes end the program. -/
theorem C94_shown (a : Attribute) : (a = .other ∧ showAttribute a = none) ∨
    (a = .staticField ∧ showAttribute a = some "static field\n".toList) ∨
    ∃ c : Constant, a = .constant c ∧ showAttribute a = some (c.text ++ ['\n']) := by
  cases a with
  | constant c => exact .inr (.inr ⟨c, rfl, rfl⟩)
  | staticField => exact .inr (.inl ⟨rfl, rfl⟩)
  | other => exact .inl ⟨rfl, rfl⟩

theorem showAttributes_eq (l : List (Str × Attribute)) (ts : List Str)
    (h : List.Forall₂ (fun a t => showAttribute a.2 = some t) l ts) :
    showAttributes l = some (List.zipWith (fun a t => a.1 ++ ['\n'] ++ t) l ts).flatten := by
  induction h with
  | nil => rfl
  | @cons a t l ts h1 _ ih => rw [showAttributes, h1, Option.bind_some, ih]; rfl

/-- A feature is shown by the number of its attributes, and the name and value of each of them. -/
theorem C94_feature (l : List (Str × Attribute)) :
    (∀ ts, List.Forall₂ (fun a t => showAttribute a.2 = some t) l ts →
      showArgument (.feature l) = some ("feature containing ".toList ++ formatInt l.length ++
        " attribute(s):\n".toList ++ (List.zipWith (fun a t => a.1 ++ ['\n'] ++ t) l ts).flatten)) ∧
    ((∃ a ∈ l, a.2 = .other) → showArgument (.feature l) = none) := by
  constructor
  · intro ts h
    rw [showArgument, showAttributes_eq l ts h]
    rfl
  · rintro ⟨a, ha, h⟩
    have : showAttributes l = none := by
      induction l with
      | nil => cases ha
      | cons b l ih =>
        rw [showAttributes]
        rcases List.mem_cons.1 ha with rfl | ha
        · rw [h]; rfl
        · rw [ih ha]
          cases showAttribute b.2 <;> rfl
    rw [showArgument, this]
    rfl

example : showArgument (.feature [("a".toList, .constant (.int .i32 (-7))), ("b".toList, .staticField)]) =
    some "feature containing 2 attribute(s):\na\n-7\nb\nstatic field\n".toList := by decide +kernel

/-- What is shown of each constant: booleans are shown as numbers, integers of 8 bits as the character with that code,
other integers in decimals, all others as they are. -/
theorem C94_constant (c : Constant) : ∃ s, showArgument (.attribute (.constant c)) = some (s ++ ['\n']) ∧
    match c with
    | .bool b => s = (if b then "1" else "0").toList
    | .char x => s = [x]
    | .int .i8 v => ∃ x : Char, s = [x] ∧ (-128 ≤ v → v < 128 → (x.toNat : Int) = v ∨ (x.toNat : Int) = v + 256)
    | .int .u8 v => ∃ x : Char, s = [x] ∧ (0 ≤ v → v < 256 → (x.toNat : Int) = v)
    | .int _ v => s = (toString v).toList
    | .float x => s = x
    | .string x => s = x := by
  have hc : ∀ n : Nat, n < 256 → (Char.ofNat n).toNat = n := by decide +kernel
  refine ⟨c.text, rfl, ?_⟩
  cases c with
  | bool b => cases b <;> rfl
  | char x => rfl
  | float x => rfl
  | string x => rfl
  | int t v =>
    cases t with
    | i8 => exact ⟨_, rfl, fun h1 h2 => by rw [hc _ (by omega)]; omega⟩
    | u8 => exact ⟨_, rfl, fun h1 h2 => by rw [hc _ (by omega)]; omega⟩
    | _ => exact Messages.formatInt_eq v

/-- Integers are shown in decimals, except for those of 8 bits: these are shown as one character. -/
theorem C94_byte_shown_as_character :
    showArgument (.attribute (.constant (.int .i32 65))) = some "65\n".toList ∧
    showArgument (.attribute (.constant (.int .i8 65))) = some "A\n".toList ∧
    showArgument (.attribute (.constant (.int .u8 65))) = some "A\n".toList := by decide +kernel

end Fern.Shell
