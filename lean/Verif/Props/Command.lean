import Verif.Model.Command
import Verif.Spec.Command
import Verif.Lemmas.Command
import Verif.Props.DataName

/-! C90: what the `fern` command does with the words it is given. -/

namespace Fern.Command

open Fern Fern.Spec.Command

variable {S Tree Dataset : Type} (T : Tools S Tree Dataset)

/-- Tools that do what is needed for the examples. The state is the list of the files written. -/
def demo : Tools (List (Str × Str)) Str Unit where
  help _ := "help\n".toList
  version := "1\n".toList
  build := "b\n".toList
  interpreter w := (.ok (), w.say ">>> ".toList)
  parseFile n w := if n = "bad".toList then (.fernError "no".toList, w) else (.ok n, w)
  execute t w := (.ok (), w.say t)
  dotAst t n w := (.ok (t ++ (toString n).toList), w)
  dotFlowgraph t w := (.ok t, w)
  compile i o f w := (.ok (), { w with state := (o, i ++ (toString f).toList) :: w.state })
  datasetExists n w := (.ok (n == "d".toList), w)
  openDataset _ w := (.ok (), w)
  containsFeature _ n w := (.ok (n == "/f".toList), w)
  containsAttribute _ _ w := (.ok false, w)
  openFeature _ _ w := (.ok (), w)
  openAttribute _ _ w := (.ok (), w)
  featureNames _ w := (.ok ["f".toList], w)
  writeFile n c s := (n, c) :: s
  what := "std::exception".toList

theorem demo_adds : AllAdd demo where
  interpreter w := ⟨[], by simp [demo, World.say]⟩
  parseFile n w := ⟨[], by simp only [demo]; split <;> simp⟩
  execute t w := ⟨[], by simp [demo, World.say]⟩
  dotAst t n w := ⟨[], by simp [demo]⟩
  dotFlowgraph t w := ⟨[], by simp [demo]⟩
  compile i o f w := ⟨[], by simp [demo]⟩
  datasetExists n w := ⟨[], by simp [demo]⟩
  openDataset n w := ⟨[], by simp [demo]⟩
  containsFeature _ n w := ⟨[], by simp [demo]⟩
  containsAttribute _ _ w := ⟨[], by simp [demo]⟩
  openFeature _ _ w := ⟨[], by simp [demo]⟩
  openAttribute _ _ w := ⟨[], by simp [demo]⟩
  featureNames _ w := ⟨[], by simp [demo]⟩

/-- Without words the interpreter is entered; its errors are one line of standard error, which is the same for all of
Fern's own errors. -/
theorem C90_interactive (w : World S) : main T [] w = shown (fun _ => T.what) (T.interpreter w) := by
  rw [main, handled, Step.next]
  rcases T.interpreter w with ⟨_ | _ | _ | _, w'⟩ <;> simp [shown, texts, World.complain, Exit.ofStatus]

example : main demo [] ⟨[], [], []⟩ = (.success, ⟨">>> ".toList, [], []⟩) := by decide +kernel

/-- The three options of the command itself: words after them are not looked at. -/
theorem C90_options (as : List Str) (w : World S) :
    main T ("--help".toList :: as) w = (.success, texts w (T.help .general) []) ∧
      main T ("--version".toList :: as) w = (.success, texts w T.version []) ∧
      main T ("--build".toList :: as) w = (.success, texts w T.build []) := by
  refine ⟨?_, ?_, ?_⟩ <;> simp [main, texts, World.say]

/-- Any other first word which is not a command makes the program stop by a failing assertion (after the help has been
shown), whatever follows. -/
theorem C90_unknown (a : Str) (as : List Str) (w : World S) (h : a ∉ known) :
    main T (a :: as) w = (.abort, texts w (T.help .general) []) := by
  have h' : ∀ b ∈ known, a ≠ b := fun b hb e => h (e ▸ hb)
  simp only [known, List.map, List.forall_mem_cons] at h'
  obtain ⟨h1, h2, h3, h4, h5, h6, h7, -⟩ := h'
  rw [main]
  simp only [if_neg h1, if_neg h2, if_neg h3, if_neg h4, if_neg h5, if_neg h6, if_neg h7]
  simp [texts, World.say]

example : main demo ["run".toList, "--help".toList] ⟨[], [], []⟩ = (.abort, ⟨"help\n".toList, [], []⟩) :=
  C90_unknown demo _ _ _ (by decide)

/-- The known words don't. -/
theorem C90_known (a : Str) (w : World S) (h : a ∈ known) : (main T [a] w).1 = .success := by
  simp only [known, List.map, List.mem_cons, List.not_mem_nil, or_false] at h
  rcases h with rfl | rfl | rfl | rfl | rfl | rfl | rfl <;>
    simp [main, handled, compileCommand, compileTo, describeCommand, executeCommand, importCommand, asksHelp, usage,
      Exit.ofStatus]

/-- `fern compile c++`: options can be given in any order and repeated, in front of the two names. -/
theorem C90_cpp (used : List Str) (a i o : Str) (hu : ∀ b ∈ used, CppOption b) (ha : ¬ CppOption a)
    (hh : used = [] → a ≠ "--help".toList) (hi : Source a i) (w : World S) :
    ∃ flags, CppBits used flags ∧
      main T ("compile".toList :: "c++".toList :: used ++ [a, o]) w = shown id (T.compile i o flags w) := by
  obtain ⟨flags, hs, hb⟩ := scan_cpp used [a, o] hu (by simpa using ha)
  refine ⟨flags, hb, ?_⟩
  have hn : asksHelp (used ++ [a, o]) = false :=
    asksHelp_append (fun b hb => cpp_not_help (hu b hb)) (fun e => by simpa using hh e) (by simp)
  rw [List.cons_append, List.cons_append, compile_run, compileTo_cpp, compileToCpp, hn]
  simp only [Bool.false_eq_true, if_false, hs]
  simp only [List.length_cons, List.length_nil, Nat.lt_irrefl, if_false, List.getD_cons_zero, List.getD_cons_succ,
    inputName_eq hi, Step.next, Nat.zero_add, Nat.reduceAdd]
  rcases T.compile i o flags w with ⟨_ | _ | _ | _, w'⟩ <;>
    simp [shown, texts, World.complain, Exit.ofStatus, compiled]

example : main demo ["compile".toList, "c++".toList, "--dump_cmake".toList, "--dump_driver".toList, "-".toList,
    "o".toList] ⟨[], [], []⟩ = (.success, ⟨[], [], [("o".toList, "6".toList)]⟩) := by decide +kernel

/-- Any other number of names is refused: nothing is read or written. -/
theorem C90_cpp_refused (used rest : List Str) (hu : ∀ b ∈ used, CppOption b)
    (ha : ∀ a, rest.head? = some a → ¬ CppOption a) (hh : used = [] → rest.head? ≠ some "--help".toList)
    (hn : used = [] → rest ≠ []) (hl : rest.length ≠ 2) (w : World S) :
    main T ("compile".toList :: "c++".toList :: used ++ rest) w =
      (.failure, texts w (T.help .cpp)
        (if rest.length < 2 then "Not enough arguments.\n" else "Too many arguments.\n").toList) := by
  obtain ⟨flags, hs, -⟩ := scan_cpp used rest hu ha
  have hn : asksHelp (used ++ rest) = false :=
    asksHelp_append (fun b hb => cpp_not_help (hu b hb)) hh hn
  rw [List.cons_append, List.cons_append, compile_run, compileTo_cpp, compileToCpp, hn]
  simp only [Bool.false_eq_true, if_false, hs]
  by_cases h : rest.length < 2
  · simp [h, refuse, compiled, Exit.ofStatus, texts, World.say, World.complain]
  · have h' : 2 < rest.length := by omega
    simp [h, h', refuse, compiled, Exit.ofStatus, texts, World.say, World.complain]

/-- Options are only recognised in front: behind the first name they are names too. -/
example : (main demo ["compile".toList, "c++".toList, "i".toList, "o".toList, "--dump_cmake".toList]
    ⟨[], [], []⟩).1 = .failure := by decide +kernel

/-- `fern compile dot ast`, with at most two words after the input, when nothing goes wrong. The graph is written to a
file if exactly one word follows and it is not empty; with two words after the input neither is looked at, and the
graph goes to standard output. -/
theorem C90_dot_ast (used more : List Str) (a i : Str) (hu : ∀ b ∈ used, AstOption b) (ha : ¬ AstOption a)
    (hh : used = [] → a ≠ "--help".toList) (hi : Source a i) (hl : more.length ≤ 2) (w w₁ : World S) (t : Tree)
    (hp : T.parseFile i w = (.ok t, w₁)) :
    ∃ modes, AstBits used modes ∧ ∀ script w₂, T.dotAst t modes w₁ = (.ok script, w₂) →
      ((∀ o, o ≠ [] → more = [o] → main T ("compile".toList :: "dot".toList :: "ast".toList :: used ++ a :: more) w =
        (.success, ⟨w₂.out, w₂.err, T.writeFile o script w₂.state⟩)) ∧
      ((∀ o, o ≠ [] → more ≠ [o]) → main T ("compile".toList :: "dot".toList :: "ast".toList :: used ++ a :: more) w =
        (.success, texts w₂ script []))) := by
  obtain ⟨modes, hs, hb⟩ := scan_ast used (a :: more) hu (by simpa using ha)
  refine ⟨modes, hb, fun script w₂ hd => ?_⟩
  have hn : asksHelp (used ++ a :: more) = false :=
    asksHelp_append (fun b hb => ast_not_help (hu b hb)) (fun e => by simpa using hh e) (by simp)
  have run : main T ("compile".toList :: "dot".toList :: "ast".toList :: used ++ a :: more) w =
      compiled (((write T script (outputName (a :: more))).next fun _ w => (.ok true, w)) w₂) := by
    rw [List.cons_append, List.cons_append, List.cons_append, compile_run, compileTo_dot, compileToDot_ast,
      compileToDotAst, hn]
    have h3 : ¬ 3 < (a :: more).length := by simp only [List.length_cons]; omega
    simp only [Bool.false_eq_true, if_false, hs, reduceCtorEq, h3, List.getD_cons_zero, inputName_eq hi]
    conv_lhs => rw [Step.next, hp]; simp only; rw [Step.next, hd]
  rw [run]
  constructor
  · rintro o ho rfl
    simp [outputName, write, Step.next, ho, compiled, Exit.ofStatus]
  · intro hm
    have : outputName (a :: more) = [] := by
      rw [outputName]
      split
      · next h =>
        match more, h with
        | [o], _ =>
          by_cases ho : o = []
          · simp [ho]
          · exact absurd rfl (hm o ho)
      · rfl
    simp [this, write, Step.next, compiled, Exit.ofStatus, texts, World.say]

example : main demo ["compile".toList, "dot".toList, "ast".toList, "--with-use".toList, "i".toList, "o".toList]
    ⟨[], [], []⟩ = (.success, ⟨[], [], [("o".toList, "i8".toList)]⟩) := by decide +kernel

/-- With three names none of the last two is used. -/
example : main demo ["compile".toList, "dot".toList, "ast".toList, "i".toList, "o".toList, "p".toList]
    ⟨[], [], []⟩ = (.success, ⟨"i0".toList, [], []⟩) := by decide +kernel

/-- `fern compile dot flowgraph`. -/
theorem C90_dot_flowgraph (more : List Str) (a i : Str) (hh : a ≠ "--help".toList) (hi : Source a i)
    (hl : more.length ≤ 2) (w w₁ w₂ : World S) (t : Tree) (script : Str)
    (hp : T.parseFile i w = (.ok t, w₁)) (hd : T.dotFlowgraph t w₁ = (.ok script, w₂)) :
    (∀ o, o ≠ [] → more = [o] → main T ("compile".toList :: "dot".toList :: "flowgraph".toList :: a :: more) w =
      (.success, ⟨w₂.out, w₂.err, T.writeFile o script w₂.state⟩)) ∧
    ((∀ o, o ≠ [] → more ≠ [o]) → main T ("compile".toList :: "dot".toList :: "flowgraph".toList :: a :: more) w =
      (.success, texts w₂ script [])) := by
  have hn : asksHelp (a :: more) = false := beq_eq_false_iff_ne.2 hh
  have run : main T ("compile".toList :: "dot".toList :: "flowgraph".toList :: a :: more) w =
      compiled (((write T script (outputName (a :: more))).next fun _ w => (.ok true, w)) w₂) := by
    rw [compile_run, compileTo_dot, compileToDot_flowgraph, compileToDotFlowgraph, hn]
    have h3 : ¬ 3 < (a :: more).length := by simp only [List.length_cons]; omega
    simp only [Bool.false_eq_true, if_false, reduceCtorEq, h3, List.getD_cons_zero, inputName_eq hi]
    conv_lhs => rw [Step.next, hp]; simp only; rw [Step.next, hd]
  rw [run]
  constructor
  · rintro o ho rfl
    simp [outputName, write, Step.next, ho, compiled, Exit.ofStatus]
  · intro hm
    have : outputName (a :: more) = [] := by
      rw [outputName]
      split
      · next h =>
        match more, h with
        | [o], _ =>
          by_cases ho : o = []
          · simp [ho]
          · exact absurd rfl (hm o ho)
      · rfl
    simp [this, write, Step.next, compiled, Exit.ofStatus, texts, World.say]

example : main demo ["compile".toList, "dot".toList, "flowgraph".toList, "-".toList, "o".toList] ⟨[], [], []⟩ =
    (.success, ⟨[], [], [("o".toList, [])]⟩) := by decide +kernel

/-- Wrong numbers of names for a graph are refused: nothing is read or written. For a flow graph the help shown is
that of the other graph. -/
theorem C90_dot_refused (used rest : List Str) (hu : ∀ b ∈ used, AstOption b)
    (ha : ∀ a, rest.head? = some a → ¬ AstOption a) (hh : used = [] → rest.head? ≠ some "--help".toList)
    (hn : used = [] → rest ≠ []) (hl : rest = [] ∨ 3 < rest.length) (w : World S) :
    main T ("compile".toList :: "dot".toList :: "ast".toList :: used ++ rest) w =
      (.failure, texts w (T.help .dotAst)
        (if rest = [] then "Not enough arguments.\n" else "Too many arguments.\n").toList) := by
  obtain ⟨flags, hs, -⟩ := scan_ast used rest hu ha
  have hn : asksHelp (used ++ rest) = false :=
    asksHelp_append (fun b hb => ast_not_help (hu b hb)) hh hn
  rw [List.cons_append, List.cons_append, List.cons_append, compile_run, compileTo_dot, compileToDot_ast,
    compileToDotAst, hn]
  simp only [Bool.false_eq_true, if_false, hs]
  rcases hl with rfl | h
  · simp [refuse, compiled, Exit.ofStatus, texts, World.say, World.complain]
  · have : rest ≠ [] := fun e => by simp [e] at h
    simp [h, this, refuse, compiled, Exit.ofStatus, texts, World.say, World.complain]

@[inherit_doc C90_dot_refused]
theorem C90_flowgraph_refused (a : Str) (more : List Str) (hh : a ≠ "--help".toList) (hl : 2 < more.length)
    (w : World S) :
    main T ("compile".toList :: "dot".toList :: "flowgraph".toList :: a :: more) w =
      (.failure, texts w (T.help .dotAst) "Too many arguments.\n".toList) := by
  have hn : asksHelp (a :: more) = false := beq_eq_false_iff_ne.2 hh
  have h3 : 3 < (a :: more).length := by simp only [List.length_cons]; omega
  rw [compile_run, compileTo_dot, compileToDot_flowgraph, compileToDotFlowgraph, hn]
  simp only [Bool.false_eq_true, if_false, reduceCtorEq, h3, if_true]
  simp [refuse, compiled, Exit.ofStatus, texts, World.say, World.complain]

/-- An error while a script is read for a graph: its own text is shown. -/
theorem C90_dot_error (more : List Str) (a i message : Str) (hh : a ≠ "--help".toList) (ha : ¬ AstOption a)
    (hi : Source a i) (hl : more.length ≤ 2) (w w₁ : World S) (g : String) (hg : g = "ast" ∨ g = "flowgraph")
    (hp : T.parseFile i w = (.fernError message, w₁)) :
    main T ("compile".toList :: "dot".toList :: g.toList :: a :: more) w =
      (.failure, texts w₁ [] (message ++ ['\n'])) := by
  have hn : asksHelp (a :: more) = false := beq_eq_false_iff_ne.2 hh
  have h3 : ¬ 3 < (a :: more).length := by simp only [List.length_cons]; omega
  rcases hg with rfl | rfl
  · obtain ⟨modes, hs, -⟩ := scan_ast [] (a :: more) (by simp) (by simpa using ha)
    rw [List.nil_append] at hs
    rw [compile_run, compileTo_dot, compileToDot_ast, compileToDotAst, hn]
    simp only [Bool.false_eq_true, if_false, hs, reduceCtorEq, h3, List.getD_cons_zero, inputName_eq hi]
    conv_lhs => rw [Step.next, hp]
    simp [compiled, texts, World.complain]
  · rw [compile_run, compileTo_dot, compileToDot_flowgraph, compileToDotFlowgraph, hn]
    simp only [Bool.false_eq_true, if_false, reduceCtorEq, h3, List.getD_cons_zero, inputName_eq hi]
    conv_lhs => rw [Step.next, hp]
    simp [compiled, texts, World.complain]

example : main demo ["compile".toList, "dot".toList, "flowgraph".toList, "bad".toList, "o".toList] ⟨[], [], []⟩ =
    (.failure, ⟨[], "no\n".toList, []⟩) := by decide +kernel

/-- `fern execute`: the script is read, then executed. -/
theorem C90_execute (a i : Str) (hh : a ≠ "--help".toList) (hi : Source a i) (w w₁ : World S) (t : Tree)
    (hp : T.parseFile i w = (.ok t, w₁)) :
    main T ["execute".toList, a] w = shown (fun _ => T.what) (T.execute t w₁) := by
  have hn : asksHelp [a] = false := beq_eq_false_iff_ne.2 hh
  rw [main_execute, handled, executeCommand, hn]
  simp only [Bool.false_eq_true, if_false, List.length_cons, List.length_nil, Nat.zero_add, Nat.lt_irrefl,
    List.getD_cons_zero, inputName_eq hi, Step.next, hp]
  rcases T.execute t w₁ with ⟨_ | _ | _ | _, w'⟩ <;> simp [shown, texts, World.complain, Exit.ofStatus]

example : main demo ["execute".toList, "s".toList] ⟨[], [], []⟩ = (.success, ⟨"s".toList, [], []⟩) := by decide +kernel

/-- If the script cannot be read, nothing is executed, and the text shown is the same for all of Fern's own errors. -/
theorem C90_execute_error (a i message : Str) (hh : a ≠ "--help".toList) (hi : Source a i) (w w₁ : World S)
    (hp : T.parseFile i w = (.fernError message, w₁)) :
    main T ["execute".toList, a] w = (.failure, texts w₁ [] (T.what ++ ['\n'])) := by
  have hn : asksHelp [a] = false := beq_eq_false_iff_ne.2 hh
  rw [main_execute, handled, executeCommand, hn]
  simp only [Bool.false_eq_true, if_false, List.length_cons, List.length_nil, Nat.zero_add, Nat.lt_irrefl,
    List.getD_cons_zero, inputName_eq hi, Step.next, hp]
  simp [texts, World.complain]

example : main demo ["execute".toList, "bad".toList] ⟨[], [], []⟩ =
    (.failure, ⟨[], "std::exception\n".toList, []⟩) :=
  C90_execute_error demo "bad".toList _ "no".toList (by decide) (.file _ (by decide)) _ _ rfl

/-- More than one word after `execute` or `describe`, and other than two after `import`, is refused. -/
theorem C90_refused (a b : Str) (more : List Str) (hh : a ≠ "--help".toList) (w : World S) :
    main T ("execute".toList :: a :: b :: more) w =
        (.failure, texts w (T.help .execute) "Too many arguments.\n".toList) ∧
      main T ("describe".toList :: a :: b :: more) w =
        (.failure, texts w (T.help .describe) "Too many arguments.\n".toList) ∧
      main T ["import".toList, a] w = (.failure, texts w (T.help .import) "Not enough arguments.\n".toList) ∧
      (more ≠ [] → main T ("import".toList :: a :: b :: more) w =
        (.failure, texts w (T.help .import) "Too many arguments.\n".toList)) := by
  have hn : ∀ as, asksHelp (a :: as) = false := fun _ => beq_eq_false_iff_ne.2 hh
  have h1 : 1 < (a :: b :: more).length := by simp
  have h0 : (a :: b :: more).length ≠ 1 := by simp
  refine ⟨?_, ?_, ?_, fun hm => ?_⟩
  · rw [main_execute, handled, executeCommand, hn]
    simp only [Bool.false_eq_true, if_false, h1, if_true]
    simp [refuse, Exit.ofStatus, texts, World.say, World.complain]
  · rw [main_describe, handled, describeCommand, hn]
    simp only [Bool.false_eq_true, if_false, h1, if_true]
    simp [refuse, Exit.ofStatus, texts, World.say, World.complain]
  · rw [main_import, handled, importCommand, hn]
    simp [refuse, Exit.ofStatus, texts, World.say, World.complain]
  · have h2 : 2 < (a :: b :: more).length := by
      have := List.length_pos_iff.2 hm
      simp only [List.length_cons]; omega
    rw [main_import, handled, importCommand, hn]
    simp only [Bool.false_eq_true, if_false, h0, h2, if_true]
    simp [refuse, Exit.ofStatus, texts, World.say, World.complain]

/-- Some uses succeed without doing anything but perhaps tell so: importing, and translating to XML, to a script and
to Python. -/
theorem C90_nothing_done (a b : Str) (as : List Str) (hh : a ≠ "--help".toList) (w : World S) :
    main T ["import".toList, a, b] w = (.success, w) ∧
      main T ["compile".toList, "xml".toList, a, b] w = (.success, texts w "TODO make XML visitor\n".toList []) ∧
      main T ["compile".toList, "xml".toList, a] w = (.success, texts w "TODO make XML visitor\n".toList []) ∧
      main T ("compile".toList :: "fern".toList :: as) w =
        (.success, texts w "Conversion to Fern script not supported yet\n".toList []) ∧
      main T ("compile".toList :: "python".toList :: as) w =
        (.success, texts w "Conversion to Python not supported yet\n".toList []) := by
  have hn : ∀ as, asksHelp (a :: as) = false := fun _ => beq_eq_false_iff_ne.2 hh
  refine ⟨?_, ?_, ?_, ?_, ?_⟩
  · rw [main_import, handled, importCommand, hn]
    simp [Exit.ofStatus]
  · rw [compile_run, compileTo_xml, compileToXml, hn]
    simp [compiled, Exit.ofStatus, texts, World.say]
  · rw [compile_run, compileTo_xml, compileToXml, hn]
    simp [compiled, Exit.ofStatus, texts, World.say]
  · rw [compile_run]
    simp [compileTo, compiled, Exit.ofStatus, texts, World.say]
  · rw [compile_run]
    simp [compileTo, compiled, Exit.ofStatus, texts, World.say]

/-- Other languages and graphs are refused. -/
theorem C90_unknown_language (a : Str) (as : List Str) (w : World S)
    (h : a ∉ ["--help", "fern", "dot", "c++", "python", "xml"].map (·.toList)) :
    main T ("compile".toList :: a :: as) w = (.failure, texts w [] ("Unknown target language: ".toList ++ a ++
      "\nSee 'fern compile --help' for list of languages.\n".toList)) := by
  have h' : ∀ b ∈ ["--help", "fern", "dot", "c++", "python", "xml"].map (·.toList), a ≠ b := fun b hb e => h (e ▸ hb)
  simp only [List.map, List.forall_mem_cons] at h'
  obtain ⟨h1, h2, h3, h4, h5, h6, -⟩ := h'
  rw [compile_run, compileTo]
  simp only [if_neg h1, if_neg h2, if_neg h3, if_neg h4, if_neg h5, if_neg h6]
  simp [compiled, Exit.ofStatus, texts, World.complain]

@[inherit_doc C90_unknown_language]
theorem C90_unknown_graph (a : Str) (as : List Str) (w : World S)
    (h : a ∉ ["--help", "ast", "flowgraph"].map (·.toList)) :
    main T ("compile".toList :: "dot".toList :: a :: as) w = (.failure, texts w [] ("Unknown graph type: ".toList ++ a ++
      "\nSee 'fern compile dot --help' for list of types.\n".toList)) := by
  have h' : ∀ b ∈ ["--help", "ast", "flowgraph"].map (·.toList), a ≠ b := fun b hb e => h (e ▸ hb)
  simp only [List.map, List.forall_mem_cons] at h'
  obtain ⟨h1, h2, h3, -⟩ := h'
  rw [compile_run, compileTo_dot, compileToDot]
  simp only [if_neg h1, if_neg h2, if_neg h3]
  simp [compiled, Exit.ofStatus, texts, World.complain]

theorem describe_run (a : Str) (hh : a ≠ "--help".toList) (w : World S) :
    main T ["describe".toList, a] w = shown (fun _ => T.what) (describe T a w) := by
  have hn : asksHelp [a] = false := beq_eq_false_iff_ne.2 hh
  rw [main_describe, handled, describeCommand, hn]
  simp only [Bool.false_eq_true, if_false, List.length_cons, List.length_nil, Nat.zero_add, Nat.lt_irrefl,
    List.getD_cons_zero, Step.next]
  rcases describe T a w with ⟨_ | _ | _ | _, w'⟩ <;> simp [shown, texts, World.complain, Exit.ofStatus]

/-- `fern describe` of a name whose dataset does not exist ends with success, and the complaint is on standard
output. -/
theorem C90_describe_missing (a database path : Str) (hh : a ≠ "--help".toList) (w w₁ : World S)
    (hn : dataName a = some (database, path)) (he : T.datasetExists database w = (.ok false, w₁)) :
    main T ["describe".toList, a] w = (.success, texts w₁ "Dataset does not exist\n".toList []) := by
  rw [describe_run T a hh, describe, hn]
  simp [Step.next, he, shown, texts, World.say]

example : main demo ["describe".toList, "x:f".toList] ⟨[], [], []⟩ =
    (.success, ⟨"Dataset does not exist\n".toList, [], []⟩) :=
  C90_describe_missing demo _ "x".toList "/f".toList (by decide) _ _ (by decide +kernel) rfl

/-- `fern describe` of a name of a feature, of an attribute, and of anything else in an existing dataset. -/
theorem C90_describe (a database path : Str) (hh : a ≠ "--help".toList) (w w₁ w₂ w₃ : World S) (d : Dataset) (b : Bool)
    (hn : dataName a = some (database, path)) (he : T.datasetExists database w = (.ok true, w₁))
    (ho : T.openDataset database w₁ = (.ok d, w₂)) (hf : T.containsFeature d path w₂ = (.ok b, w₃)) :
    (b = true → ∀ w₄, T.openFeature d path w₃ = (.ok (), w₄) →
      main T ["describe".toList, a] w = (.success, texts w₄ ("feature: ".toList ++ path ++ ['\n']) [])) ∧
    (b = false → ∀ w₄, T.containsAttribute d path w₃ = (.ok true, w₄) → ∀ w₅, T.openAttribute d path w₄ = (.ok (), w₅) →
      main T ["describe".toList, a] w = (.success, texts w₅ ("attribute: ".toList ++ path ++ ['\n']) [])) ∧
    (b = false → ∀ w₄, T.containsAttribute d path w₃ = (.ok false, w₄) →
      main T ["describe".toList, a] w =
        (.success, texts w₄ "Datapath does not point to a feature or attribute\n".toList [])) := by
  have hp : path ≠ [] := by
    have := (C46_canonical a database path hn).1
    rintro rfl
    cases this
  refine ⟨?_, ?_, ?_⟩
  · rintro rfl w₄ h₄
    rw [describe_run T a hh, describe, hn]
    simp [Step.next, he, ho, hf, hp, h₄, shown, texts, World.say, describeFeature]
  · rintro rfl w₄ h₄ w₅ h₅
    rw [describe_run T a hh, describe, hn]
    simp [Step.next, he, ho, hf, hp, h₄, h₅, shown, texts, World.say, describeAttribute]
  · rintro rfl w₄ h₄
    rw [describe_run T a hh, describe, hn]
    simp [Step.next, he, ho, hf, hp, h₄, shown, texts, World.say]

example : main demo ["describe".toList, "d:f".toList] ⟨[], [], []⟩ = (.success, ⟨"feature: /f\n".toList, [], []⟩) :=
  (C90_describe demo _ "d".toList "/f".toList (by decide) _ _ _ _ () true (by decide +kernel) rfl rfl rfl).1 rfl _ rfl

/-- A dataset as a whole is never described: the features of a dataset are not listed, whatever the words. -/
theorem C90_dataset_undescribed (names : Dataset → Step S (List Str)) (as : List Str) :
    main { T with featureNames := names } as = main T as := by
  have hd : ∀ a, describe { T with featureNames := names } a = describe T a := by
    intro a
    rw [describe, describe]
    cases hn : dataName a with
    | none => rfl
    | some x =>
      obtain ⟨database, path⟩ := x
      have hp : path ≠ [] := by
        have := (C46_canonical a database path hn).1
        rintro rfl
        cases this
      simp only [hp, ne_eq, not_false_eq_true, if_true]
      rfl
  unfold main
  cases as with
  | nil => rfl
  | cons a as =>
    have : describeCommand { T with featureNames := names } as = describeCommand T as := by
      rw [describeCommand, describeCommand, hd]
      rfl
    simp only [this]
    rfl

/-- Asked for a dataset, the command looks for a feature or attribute named `/`. -/
example : main demo ["describe".toList, "d".toList] ⟨[], [], []⟩ =
    (.success, ⟨"Datapath does not point to a feature or attribute\n".toList, [], []⟩) :=
  (C90_describe demo _ "d".toList "/".toList (by decide) _ _ _ _ () false (by decide +kernel) rfl rfl rfl).2.2 rfl _ rfl

/-- A name that is no data name (empty, or beginning with a colon) makes an assertion fail. -/
theorem C90_describe_abort (a : Str) (h : a = [] ∨ a.head? = some ':') (w : World S) :
    main T ["describe".toList, a] w = (.abort, w) := by
  have hh : a ≠ "--help".toList := by
    rintro rfl
    rcases h with h | h
    · cases h
    · exact absurd h (by decide)
  rw [describe_run T a hh, describe, C46_rejected a h]
  rfl

/-- Whatever the words: standard error only grows, and a failing status comes with a text there. -/
theorem C90_failure_told (h : AllAdd T) (as : List Str) (w : World S) :
    ∃ s, (main T as w).2.err = w.err ++ s ∧ ((main T as w).1 = .failure → s ≠ []) := by
  unfold main
  split
  · exact handled_tells T (tells_next h.interpreter fun _ => tells_true) w
  · split
    · exact ⟨[], by simp [World.say], fun e => by cases e⟩
    · split
      · exact ⟨[], by simp [World.say], fun e => by cases e⟩
      · split
        · exact ⟨[], by simp [World.say], fun e => by cases e⟩
        · split
          · exact handled_tells T (tells_compile T h _) w
          · split
            · exact handled_tells T (tells_describe T h _) w
            · split
              · exact handled_tells T (tells_execute T h _) w
              · split
                · exact handled_tells T (tells_import T _) w
                · exact ⟨[], by simp [World.say], fun e => by cases e⟩

example (as : List Str) (w : World (List (Str × Str))) : (main demo as w).1 = .failure → (main demo as w).2.err ≠ w.err := by
  obtain ⟨s, h₁, h₂⟩ := C90_failure_told demo demo_adds as w
  intro e
  simp [h₁, h₂ e]

end Fern.Command
