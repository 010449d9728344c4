import Verif.Lemmas.Compile
import Verif.Props.InOut

/-!
# C83: the C++ code that is written for a module
-/

namespace Fern

open Spec

variable {known : Str → Bool}

/-- Names are without brackets: those used and defined in the module, and those of the operations. -/
structure ProperNames (known : Str → Bool) (m : Module) : Prop where
  operations : ∀ n, known n = true → NoBrackets n
  used : ∀ n v, Token.use n v ∈ stmtsTokens m.statements → NoBrackets n
  defined : ∀ n v, Token.define n v ∈ stmtsTokens m.statements → NoBrackets n

theorem ProperNames.inputs {m : Module} (h : ProperNames known m) {io : IOState} (hio : ioModule m = some io) :
    ∀ n ∈ io.inputs, NoBrackets n := by
  intro n hn
  obtain ⟨v, hv⟩ := (C62_inputs_mem m io hio n).1.1 hn
  exact h.used n v hv

theorem ProperNames.outputs {m : Module} (h : ProperNames known m) {io : IOState} (hio : ioModule m = some io) :
    ∀ r ∈ io.outputs, NoBrackets r.n := fun r hr => h.defined r.n r.v (C62_outputs_assigned m io hio r hr)

theorem ProperNames.assignments {m : Module} (h : ProperNames known m) :
    ∀ a ∈ allCompiledAssignments m.statements,
      NoBrackets a.1 ∧ ∀ n v, Token.use n v ∈ exprTokens a.2 → NoBrackets n := by
  intro a ha
  obtain ⟨h1, v, h2⟩ := allCompiledAssignments_tokens m.statements a ha
  exact ⟨h.defined _ _ h2, fun n v hv => h.used n v (h1 _ hv)⟩

theorem compileBody_eq {m : Module} {body : List Str} (h : compileBody known m = some body) :
    ∃ io ls, ioModule m = some io ∧ List.Forall₂ (AssignmentLines known) (allCompiledAssignments m.statements) ls ∧
      body = (io.inputs.mapIdx fun i n => readText n i) ++ ls.flatten ++
        (io.outputs.mapIdx fun i (r : NameRef) => writeTexts r.n i).flatten := by
  rw [compileBody] at h
  obtain ⟨io, hio, h⟩ := Option.bind_eq_some_iff.1 h
  obtain ⟨s, hs, rfl⟩ := Option.map_eq_some_iff.1 h
  obtain ⟨ls, hf, hb⟩ := compileStmts_body m.statements hs
  exact ⟨io, ls, hio, hf, by rw [hb]⟩

/-- The brackets of the body of the generated function match exactly if each assignment (but those in if and while
statements, which are ignored) has a single operation at its right hand side, without operations in its
arguments. -/
theorem C83_brackets {m : Module} {body : List Str} (hp : ProperNames known m) (h : compileBody known m = some body)
    (ha : ∀ a ∈ allCompiledAssignments m.statements, withoutAttributes a.2 = true) :
    BracketsMatch (joinBody body) ↔ ∀ a ∈ allCompiledAssignments m.statements, SingleOperation a.2 := by
  obtain ⟨io, ls, hio, hf, rfl⟩ := compileBody_eq h
  rw [BracketsMatch, scan_joinBody, foldlM_append', foldlM_append', scan_reads (hp.inputs hio), Option.bind_some]
  rcases scan_assignments hp.operations hf ha hp.assignments [] with ⟨h1, h2⟩ | ⟨h1, h2 | ⟨s, h2⟩⟩
  · rw [h2, Option.bind_some, scan_writes (hp.outputs hio)]
    exact iff_of_true rfl h1
  · rw [h2, Option.bind_none]
    exact iff_of_false (by simp) h1
  · rw [h2, Option.bind_some, scan_writes (hp.outputs hio)]
    exact iff_of_false (by simp) h1

theorem scan_descriptions {names : List Str} (h : ∀ n ∈ names, NoBrackets n) (s : List Char) :
    bracketScan s (descriptionsText names) = some s := by
  rw [descriptionsText, scan_join (fun c hc => (by decide +kernel : ∀ c ∈ ", ".toList, isBracket c = false) c hc)]
  induction names with
  | nil => rfl
  | cons n names ih =>
    have h1 : bracketScan s ("fern::DataDescription(\"".toList ++ n ++ "\")".toList) = some s :=
      scan_seq (scan_seq (s1 := '(' :: s) (scan_const (b := ['(']) (by decide +kernel) (by scan_brackets))
        ((h n List.mem_cons_self).scan _)) (scan_const (b := [')']) (by decide +kernel) (by scan_brackets))
    rw [List.map_cons, List.foldlM_cons, h1]
    exact ih fun n hn => h n (List.mem_cons_of_mem _ hn)

theorem scan_moduleBegin {header className : Str} (hh : NoBrackets header) (hc : NoBrackets className)
    {inputs outputs : List Str} (hi : ∀ n ∈ inputs, NoBrackets n) (ho : ∀ n ∈ outputs, NoBrackets n) :
    bracketScan [] (moduleBegin header className inputs outputs) = some ['{'] := by
  unfold moduleBegin
  refine scan_seq (s1 := []) ?_ (scan_const (b := ['(', ')', '{', '(', ')']) (by decide +kernel) (by scan_brackets))
  refine scan_seq (s1 := []) ?_ (hc.scan _)
  refine scan_seq (s1 := []) ?_ (scan_const (b := ['(', ')', '{', '}']) (by decide +kernel) (by scan_brackets))
  refine scan_seq (s1 := []) ?_ (hc.scan _)
  refine scan_seq (s1 := []) ?_ (scan_const (b := []) (by decide +kernel) (by scan_brackets))
  refine scan_seq (s1 := []) ?_ (hc.scan _)
  refine scan_seq (s1 := ['{', '(']) ?_ (scan_const (b := ['}', ')', '(', '(', ')', ')', '{', '}'])
    (by decide +kernel) (by scan_brackets))
  refine scan_seq (s1 := ['{', '(']) ?_ (scan_descriptions ho _)
  refine scan_seq (s1 := ['{', '(']) ?_ (scan_const (b := ['}', '{']) (by decide +kernel) (by scan_brackets))
  refine scan_seq (s1 := ['{', '(']) ?_ (scan_descriptions hi _)
  refine scan_seq (s1 := []) ?_ (scan_const (b := ['(', ')', '(', '{']) (by decide +kernel) (by scan_brackets))
  refine scan_seq (s1 := []) ?_ (hc.scan _)
  refine scan_seq (s1 := []) ?_ (scan_const (b := []) (by decide +kernel) (by scan_brackets))
  refine scan_seq (s1 := []) ?_ (hc.scan _)
  refine scan_seq (s1 := []) ?_ (scan_const (b := []) (by decide +kernel) (by scan_brackets))
  exact scan_seq (s1 := []) (scan_const (b := []) (by decide +kernel) (by scan_brackets)) (hh.scan _)

/-- The same for the text of the whole C++ module. -/
theorem C83_module {m : Module} {header className text : Str} (hh : NoBrackets header) (hc : NoBrackets className)
    (hp : ProperNames known m) (h : compileModule known header className m = some text)
    (ha : ∀ a ∈ allCompiledAssignments m.statements, withoutAttributes a.2 = true) :
    BracketsMatch text ↔ ∀ a ∈ allCompiledAssignments m.statements, SingleOperation a.2 := by
  rw [compileModule] at h
  obtain ⟨io, hio, h⟩ := Option.bind_eq_some_iff.1 h
  obtain ⟨body, hb, rfl⟩ := Option.map_eq_some_iff.1 h
  obtain ⟨io', ls, hio', hf, rfl⟩ := compileBody_eq hb
  rw [hio] at hio'
  cases hio'
  rw [BracketsMatch, bracketScan_append, scan_seq (scan_moduleBegin hh hc (hp.inputs hio) (by
      intro n hn
      obtain ⟨r, hr, rfl⟩ := List.mem_map.1 hn
      exact hp.outputs hio r hr)) rfl, scan_joinBody, foldlM_append', foldlM_append', scan_reads (hp.inputs hio),
    Option.bind_some]
  rcases scan_assignments hp.operations hf ha hp.assignments ['{'] with ⟨h1, h2⟩ | ⟨h1, h2 | ⟨s, h2⟩⟩
  · rw [h2, Option.bind_some, scan_writes (hp.outputs hio)]
    exact iff_of_true (scan_const (b := ['}']) (by decide +kernel) (by scan_brackets)) h1
  · rw [h2, Option.bind_none]
    exact iff_of_false (by simp) h1
  · rw [h2, Option.bind_some, scan_writes (hp.outputs hio), Option.bind_some]
    have h3 : bracketScan ('(' :: s) "\n}\n".toList = none :=
      scan_const (b := ['}']) (by decide +kernel) (by
        rw [bracketScan_cons, bracketStep_mismatch (by decide) (by decide), Option.bind_none])
    rw [h3]
    exact iff_of_false (by simp) h1

/-- The names that are declared in the generated function, all of them in the same block: the inputs, and for each
assignment the name `results` and the target. -/
theorem C83_declared {m : Module} {body : List Str} (hp : ProperNames known m) (h : compileBody known m = some body)
    (ha : ∀ a ∈ allCompiledAssignments m.statements, withoutAttributes a.2 = true) :
    ∃ io, ioModule m = some io ∧ body.filterMap declaredName =
      io.inputs ++ (allCompiledAssignments m.statements).flatMap fun a => ["results".toList, a.1] := by
  obtain ⟨io, ls, hio, hf, rfl⟩ := compileBody_eq h
  refine ⟨io, hio, ?_⟩
  rw [List.filterMap_append, List.filterMap_append, declared_reads (hp.inputs hio),
    declared_assignments hp.operations hf ha hp.assignments, declared_writes, List.append_nil]

/-- The generated function has matching brackets and no name that is declared twice exactly if there is no
assignment, or one of a single operation to a name that is not used in the module (and no name is called
`results`). -/
theorem C83_accepted {m : Module} {body : List Str} {io : IOState} (hp : ProperNames known m)
    (h : compileBody known m = some body) (hio : ioModule m = some io)
    (ha : ∀ a ∈ allCompiledAssignments m.statements, withoutAttributes a.2 = true) :
    BracketsMatch (joinBody body) ∧ (body.filterMap declaredName).Nodup ↔
      allCompiledAssignments m.statements = [] ∨
      ∃ y e, allCompiledAssignments m.statements = [(y, e)] ∧ SingleOperation e ∧ y ∉ io.inputs ∧
        y ≠ "results".toList ∧ "results".toList ∉ io.inputs := by
  obtain ⟨io', hio', hd⟩ := C83_declared hp h ha
  rw [hio] at hio'
  cases hio'
  rw [C83_brackets hp h ha, hd]
  have hin : io.inputs.Nodup := (C62_inputs_mem m io hio []).2
  rcases hc : allCompiledAssignments m.statements with _ | ⟨⟨y, e⟩, as⟩
  · simp [hin]
  · rcases as with _ | ⟨b, as⟩
    · simp only [List.flatMap_cons, List.flatMap_nil, List.append_nil]
      rw [List.nodup_append]
      constructor
      · rintro ⟨h1, _, h2, h3⟩
        right
        refine ⟨y, e, rfl, h1 (y, e) List.mem_cons_self, fun hy => h3 y hy y (by simp) rfl, ?_,
          fun hr => h3 _ hr _ List.mem_cons_self rfl⟩
        rintro rfl
        simp at h2
      · rintro (h1 | ⟨y', e', h1, h2, h3, h4, h5⟩)
        · cases h1
        · cases h1
          refine ⟨by simpa using h2, hin, by simpa using fun hh => h4 hh.symm, ?_⟩
          rintro a ha b hb rfl
          rcases List.mem_cons.1 hb with rfl | hb
          · exact h5 ha
          · rw [List.mem_singleton] at hb
            subst hb
            exact h3 ha
    · constructor
      · rintro ⟨_, h2⟩
        rw [List.nodup_append] at h2
        have h3 := h2.2.1
        simp only [List.flatMap_cons, List.cons_append, List.nil_append] at h3
        rw [List.nodup_cons] at h3
        exact absurd (by simp) h3.1
      · rintro (h1 | ⟨_, _, h1, _⟩) <;> cases h1

/-- The text of the arguments of an operation: the names, without anything in between. Numbers, strings and
subscripts are left out. -/
theorem C83_arguments (t : Str) (args : List Expr) (h0 : operationCounts args = 0)
    (ha : allWithoutAttributes args = true) : compileExprs known t args = some (t ++ gluedNames args) := by
  induction args generalizing t with
  | nil => rw [compileExprs, gluedNames, List.append_nil]
  | cons e es ih =>
    rw [operationCounts] at h0
    rw [allWithoutAttributes, Bool.and_eq_true] at ha
    rw [compileExprs]
    cases e with
    | name v n =>
      rw [compileExpr, Option.bind_some, ih _ (by omega) ha.2, gluedNames, List.append_assoc]
    | number v n => rw [compileExpr, Option.bind_some, ih _ (by omega) ha.2, gluedNames]; simp
    | string v n => rw [compileExpr, Option.bind_some, ih _ (by omega) ha.2, gluedNames]; simp
    | subscript v e i => rw [compileExpr, Option.bind_some, ih _ (by omega) ha.2, gluedNames]; simp
    | call v n as => rw [operationCount] at h0; omega
    | operator v n as => rw [operationCount] at h0; omega
    | «attribute» v e m => rw [withoutAttributes] at ha; exact absurd ha.1 (by decide)

/-- The statement of an attribute is lost. -/
theorem C83_attribute (v target v' : Vid) (y m : Str) (e : Expr) (s s' : CompileState)
    (h : compileStmt known s (.assign v target y (.attribute v' e m)) = some s') :
    s'.body = s.body ++ [[], targetText y] := by
  rw [compileStmt, compileExpr, Option.map_map] at h
  obtain ⟨t, _, rfl⟩ := Option.map_eq_some_iff.1 h
  rfl

/-- The lines of an accepted function. -/
theorem C83_lines {m : Module} {io : IOState} (hio : ioModule m = some io) {body : List Str}
    (h : compileBody known m = some body) {y f : Str} {args : List Expr} {v : Vid} {e : Expr}
    (he : e = .call v f args ∨ e = .operator v f args)
    (hc : allCompiledAssignments m.statements = [(y, e)]) (h0 : operationCounts args = 0)
    (ha : allWithoutAttributes args = true) :
    body = ((io.inputs.mapIdx fun i n => CppLine.read n i) ++ [CppLine.execute f (gluedNames args), CppLine.first y] ++
      (io.outputs.mapIdx fun i (r : NameRef) => CppLine.write r.n i)).flatMap (CppLine.texts natText) := by
  obtain ⟨io', ls, hio', hf, rfl⟩ := compileBody_eq h
  rw [hio] at hio'
  cases hio'
  rw [hc] at hf
  cases hf with
  | cons hl hn =>
    cases hn
    obtain ⟨t, ht, rfl⟩ := hl
    have ht' : t = resultsText ++ operationText f ++ gluedNames args ++ "}))".toList := by
      rcases he with rfl | rfl <;>
      · simp only [compileExpr] at ht
        split at ht
        · rw [C83_arguments _ _ h0 ha] at ht
          exact (Option.some.inj ht).symm
        · cases ht
    subst ht'
    rw [List.flatMap_append, List.flatMap_append]
    congr 1
    · congr 1
      clear h hio hc
      induction io.inputs using List.reverseRecOn with
      | nil => rfl
      | append_singleton names n ih =>
        rw [List.mapIdx_append, List.mapIdx_append, List.flatMap_append, ← ih]
        rfl
    · clear h hio hc
      induction io.outputs using List.reverseRecOn with
      | nil => rfl
      | append_singleton names n ih =>
        rw [List.mapIdx_append, List.mapIdx_append, List.flatMap_append, List.flatten_append, ← ih]
        rfl

/-- The module `y = f(x)`: the generated function reads the value of x from the first data source, executes the
operation with it and writes the first result to the first data sync, if there is one. -/
theorem C83_run (v1 v2 v3 v4 : Vid) (x y f : Str) (hx : x ≠ []) (m : Module)
    (hm : m.statements = [.assign v1 v2 y (.call v3 f [.name v4 x])]) {body : List Str}
    (h : compileBody known m = some body) :
    ∃ lines : List CppLine, body = lines.flatMap (CppLine.texts natText) ∧
      ∀ {V : Type} (execute : Str → List V → Option (List V)) (source : V) (syncs : Nat),
        (lines.foldlM (CppLine.run execute [source] syncs) ⟨[], [], []⟩).map (·.written) =
          ((execute f [source]).bind List.head?).map fun r => if 0 < syncs then [(0, r)] else [] := by
  have hio : ioModule m = some ⟨[x], [⟨v2, y⟩], Scope.setValue [] y 0⟩ := by
    rw [ioModule, hm]
    rfl
  refine ⟨_, C83_lines (v := v3) (args := [.name v4 x]) (f := f) hio h (.inl rfl) (by rw [hm]; rfl) (by rfl) (by rfl), ?_⟩
  intro V execute source syncs
  have hl : ((([x] : List Str).mapIdx fun i n => CppLine.read n i) ++
      [CppLine.execute f (gluedNames [.name v4 x]), CppLine.first y] ++
      (([⟨v2, y⟩] : List NameRef).mapIdx fun i (r : NameRef) => CppLine.write r.n i)) =
      [.read x 0, .execute f x, .first y, .write y 0] := by
    rw [gluedNames, gluedNames, List.append_nil]; rfl
  rw [hl]
  simp only [List.foldlM_cons, List.foldlM_nil, CppLine.run, List.getElem?_cons_zero, Option.map_some,
    Option.bind_eq_bind, Option.bind_some, if_neg hx, List.lookup_cons, beq_self_eq_true]
  cases execute f [source] with
  | none => rfl
  | some r =>
    cases r with
    | nil => rfl
    | cons r rs =>
      simp only [Option.map_some, Option.bind_some, List.head?_cons]
      split
      · rw [List.lookup_cons_self]; rfl
      · rfl

/-! ### Examples -/

/-- The assignment to `y` of an operation. -/
def compileExample (e : Expr) : Module where
  v := 0
  scope := 1
  sentinel := 2
  statements := [.assign 3 4 "y".toList e]

/-- `y = f(a, 1)`: accepted, but the number is not among the arguments. -/
theorem C83_number_lost :
    compileBody (fun _ => true) (compileExample (.call 5 "f".toList [.name 6 "a".toList, .number 7 (.int .i32 1)])) =
      compileBody (fun _ => true) (compileExample (.call 5 "f".toList [.name 6 "a".toList])) := by
  decide +kernel

/-- `y = f(a, b)`: the argument is `ab`, which is not declared. -/
theorem C83_names_glued :
    (compileBody (fun _ => true)
        (compileExample (.call 5 "f".toList [.name 6 "a".toList, .name 7 "b".toList]))).map (fun body =>
      (body[2]?, body.filterMap declaredName)) =
    some (some (resultsText ++ operationText "f".toList ++ "ab".toList ++ "}))".toList),
      ["a".toList, "b".toList, "results".toList, "y".toList]) := by
  decide +kernel

/-- `y = a` and `y = f(g(a))`: brackets don't match. -/
theorem C83_mismatch :
    (compileBody (fun _ => true) (compileExample (.name 5 "a".toList))).map (fun b => decide
      (BracketsMatch (joinBody b))) = some false ∧
    (compileBody (fun _ => true) (compileExample (.call 5 "f".toList [.call 6 "g".toList [.name 7 "a".toList]]))).map
      (fun b => decide (BracketsMatch (joinBody b))) = some false := by
  decide +kernel

example : ProperNames (fun n => n == "f".toList)
    (compileExample (.call 5 "f".toList [.name 6 "a".toList])) := by
  have h : ∀ t ∈ stmtsTokens (compileExample (.call 5 "f".toList [.name 6 "a".toList])).statements,
      t = .use "a".toList 6 ∨ t = .define "y".toList 4 := by decide +kernel
  have hb : ∀ n ∈ ["f".toList, "a".toList, "y".toList], ∀ c ∈ n, isBracket c = false := by decide +kernel
  refine ⟨fun n hn => ?_, fun n v hm => ?_, fun n v hm => ?_⟩
  · rw [beq_iff_eq] at hn
    exact hb n (by rw [hn]; simp)
  · rcases h _ hm with h | h
    · cases h; exact hb _ (by simp)
    · cases h
  · rcases h _ hm with h | h
    · cases h
    · cases h; exact hb _ (by simp)

example : ((compileBody (fun n => n == "f".toList)
    (compileExample (.call 5 "f".toList [.name 6 "a".toList]))).map fun body => decide
      (BracketsMatch (joinBody body) ∧ (body.filterMap declaredName).Nodup)) = some true := by
  decide +kernel

end Fern
