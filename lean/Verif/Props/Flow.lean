import Verif.Lemmas.FlowShow
import Verif.Lemmas.FlowLoops
import Verif.Props.Dot

/-!
# C100: the graph of the flow of data
-/

namespace Fern.Dot

open Fern.Spec Spec

variable {V : Type} {fmt : FloatFormat} {t : Links} {k : Nat} {m : Module} {i : List Item}
  {s : IdentifyState}

theorem flowItems_graph (h : flowItems fmt t k m = some i) :
    ∃ a r, i = a ++ r.1 ∧ flowDeclareStmts fmt t m.statements = some a ∧
      r = flowConnectStmts t k m.statements ∧
      Declares a ((flowsAll m.statements).flatMap (flowVertices t)) ∧
      Flows k r ((flowsAll m.statements).flatMap (stmtFlow t)) := by
  obtain ⟨a, ha, rfl⟩ := Option.map_eq_some_iff.1 h
  exact ⟨a, _, rfl, ha, rfl, flowDeclareStmts_declares _ a ha, flowConnectStmts_flows k _⟩

theorem flow_nodes (h : flowItems fmt t k m = some i) :
    nodes i = (flowsAll m.statements).flatMap (flowVertices t) := by
  obtain ⟨a, r, rfl, -, -, h1, h2⟩ := flowItems_graph h
  rw [nodes_append, h1.1, h2.nodes, List.append_nil]

theorem mem_flow_edges (h : flowItems fmt t k m = some i) (a b : Vid) :
    (a, b) ∈ edges plain i ↔ ∃ x, (x, b) ∈ consumed m ∧ a ∈ origins t x := by
  obtain ⟨c, r, rfl, -, -, h1, h2⟩ := flowItems_graph h
  rw [edges_append, h1.2.1, h2.edges, List.nil_append, consumed]
  simp only [List.mem_flatMap, stmtFlow, List.mem_map, Prod.mk.injEq]
  constructor
  · rintro ⟨s, hs, p, hp, c, hc, rfl, rfl⟩
    exact ⟨p.1, ⟨s, hs, hp⟩, hc⟩
  · rintro ⟨x, ⟨s, hs, hx⟩, ha⟩
    exact ⟨s, hs, (x, b), hx, a, ha, rfl, rfl⟩

/-- When a graph is drawn: if all operators in it exist. -/
theorem C100_drawn_iff (fmt : FloatFormat) (t : Links) (k : Nat) (m : Module) :
    (flowItems fmt t k m).isSome ↔ FlowSymbols m := by
  rw [flowItems, isSome_map, flowDeclareStmts_isSome]
  rfl

/-- The command draws a graph wherever the module can be annotated. -/
theorem C100_annotated (c : InterpreterContext V) (it : Interpreter V) (fmt : FloatFormat) (addr : Vid → Str)
    (k : Nat) (m : Module) (hs : FlowSymbols m) :
    (compileFlowgraph c it fmt addr k m).isSome ↔ (drawnLinks c it m).isSome := by
  rw [compileFlowgraph]
  cases drawnLinks c it m with
  | none => simp
  | some t =>
    simp only [Option.bind_some, Option.isSome_some, iff_true, flowScript, Option.isSome_map]
    exact (C100_drawn_iff fmt t k m).2 hs

/-- The vertices: `if` statements, targets, and expressions that are no names of something defined before;
each once. -/
theorem C100_nodes (h : flowItems fmt t k m = some i) (hn : m.vids.Nodup) (hs : identifyModule m = some s)
    (ht : t.definitions = s.definitions) :
    (∀ v, v ∈ nodes i ↔ FlowVertex m v) ∧ (nodes i).Nodup := by
  rw [flow_nodes h]
  constructor
  · intro v
    rw [List.mem_flatMap]
    have hterm : ∀ q ∈ flowsAll m.statements, ∀ y ∈ partTerms q, y.vid = v →
        (drawnTerm t y = true ↔ ∀ n, y = .name v n → ∀ d, ¬ RefersTo (stmtsTokens m.statements) v d) := by
      rintro q hq y hy rfl
      cases y with
      | name w n =>
        obtain ⟨h1, h2⟩ := definitions_iff hs hn (part_name_use hq hy) w
        simp only [drawnTerm, ht, decide_eq_true_eq, h1, h2]
        constructor
        · rintro (g | g) n' -
          · exact g
          · exact absurd g (not_refersTo_self hn w)
        · exact fun g => .inl (g n rfl)
      | _ => simp [drawnTerm]
    have htarget : ∀ w n e, .assign w v n e ∈ flowsAll m.statements → drawnTerm t (.name v n) = true := by
      intro w n e hm
      have hd : v ∈ defineIds (stmtsTokens m.statements) :=
        List.mem_filterMap.2 ⟨.define n v, flowsAll_tokens _ _ hm _ (by simp [stmtTokens]), rfl⟩
      have := C56_define m s hs (tokens_nodup hn) v hd
      simp [drawnTerm, ht, this]
    simp only [mem_flowVertices]
    constructor
    · rintro ⟨q, hq, ⟨z, c, tv, ts, th, fv, fs, el, rfl⟩ | ⟨y, hy, hd, hv⟩ | ⟨w, n, e, rfl, hd⟩⟩
      · exact .inl ⟨_, _, _, _, _, _, _, _, hq⟩
      · exact .inr (.inr ⟨q, hq, y, hy, hv, (hterm q hq y hy hv).1 hd⟩)
      · exact .inr (.inl ⟨_, _, _, hq⟩)
    · rintro (⟨z, c, tv, ts, th, fv, fs, el, hq⟩ | ⟨w, n, e, hq⟩ | ⟨q, hq, y, hy, hv, hd⟩)
      · exact ⟨_, hq, .inl ⟨_, _, _, _, _, _, _, _, rfl⟩⟩
      · exact ⟨_, hq, .inr (.inr ⟨_, _, _, rfl, htarget w n e hq⟩)⟩
      · exact ⟨q, hq, .inr (.inl ⟨y, hy, (hterm q hq y hy hv).2 hd, hv⟩)⟩
  · rw [List.nodup_iff_count_le_one]
    intro x
    have h1 := flowsAll_count (t := t) x m.statements
    have h2 := List.nodup_iff_count_le_one.1 hn x
    rw [Module.vids] at h2
    simp only [List.count_cons] at h2
    omega

/-- The edges: from where the value of an operand comes from to the operation, and from where the value
assigned comes from to the target. -/
theorem C100_edges (h : flowItems fmt t k m = some i) (hn : m.vids.Nodup) (hs : identifyModule m = some s)
    (ht : t.definitions = s.definitions) (a b : Vid) :
    (a, b) ∈ edges plain i ↔ ∃ x, (x, b) ∈ consumed m ∧ Origin m x a := by
  rw [mem_flow_edges h]
  exact exists_congr fun x => and_congr_right fun hx => origins_iff hs hn ht hx a

/-- Every edge goes forward in the order of evaluation. -/
theorem C100_order (h : flowItems fmt t k m = some i) (hn : m.vids.Nodup) (hs : identifyModule m = some s)
    (ht : t.definitions = s.definitions) (a b : Vid) (he : (a, b) ∈ edges plain i) :
    [a, b].Sublist (stmtsOrder m.statements) := by
  obtain ⟨x, hx, ho⟩ := (C100_edges h hn hs ht a b).1 he
  exact origin_order hn hx ho

/-- There are no cycles. -/
theorem C100_acyclic (h : flowItems fmt t k m = some i) (hn : m.vids.Nodup) (hs : identifyModule m = some s)
    (ht : t.definitions = s.definitions) (a : Vid) : ¬ Leads i a a := by
  have key : ∀ a b, Leads i a b → [a, b].Sublist (stmtsOrder m.statements) := by
    intro a b hl
    induction hl with
    | single hl => exact C100_order h hn hs ht _ _ hl
    | tail _ hl ih => exact before_trans (order_nodup hn) ih (C100_order h hn hs ht _ _ hl)
  exact fun hl => before_irrefl (order_nodup hn) (key a a hl)

theorem refersTo_assign {ss : List Stmt} {v d : Vid} (h : RefersTo (stmtsTokens ss) v d) :
    ∃ w n e, .assign w d n e ∈ stmtsAll ss := by
  obtain ⟨n, a, b, c, e, -⟩ := h
  obtain ⟨w, x, hm⟩ := define_stmtsTokens (n := n) (d := d) ss (by rw [e]; simp)
  exact ⟨w, n, x, hm⟩

/-- Without attributes an edge connects vertices that are drawn. -/
theorem C100_declared (h : flowItems fmt t k m = some i) (hn : m.vids.Nodup) (hs : identifyModule m = some s)
    (ht : t.definitions = s.definitions) (ha : NoAttributesInFlow m) (a b : Vid)
    (he : (a, b) ∈ edges plain i) : a ∈ nodes i ∧ b ∈ nodes i := by
  rw [(C100_nodes h hn hs ht).1, (C100_nodes h hn hs ht).1]
  obtain ⟨x, hx, ho⟩ := (C100_edges h hn hs ht a b).1 he
  obtain ⟨q, hq, hx⟩ := List.mem_flatMap.1 hx
  have hmem : x ∈ partTerms q := by
    rcases mem_consumers.1 hx with ⟨w, n, rfl⟩ | ⟨y, hy, hxy, rfl⟩
    · simpa [partTerms, parts, expression?] using self_mem_exprTerms x (ha _ hq x (by simp [parts, expression?]))
    · obtain ⟨e, he', hy⟩ := List.mem_flatMap.1 hy
      exact List.mem_flatMap.2 ⟨e, he', operand_term e (ha q hq e he') hy hxy⟩
  constructor
  · cases x with
    | name v n =>
      rcases ho with ho | ⟨rfl, ho⟩
      · obtain ⟨w, n, e, hm⟩ := refersTo_drawn (tokens_nodup hn) hq hmem ho
        exact .inr (.inl ⟨w, n, e, hm⟩)
      · exact .inr (.inr ⟨q, hq, _, hmem, rfl, fun _ _ => ho⟩)
    | _ => exact .inr (.inr ⟨q, hq, _, hmem, (show a = _ from ho).symm, fun _ h => by cases h⟩)
  · rcases mem_consumers.1 hx with ⟨w, n, rfl⟩ | ⟨y, hy, hxy, rfl⟩
    · exact .inr (.inl ⟨w, n, x, hq⟩)
    · refine .inr (.inr ⟨q, hq, y, hy, rfl, fun n e => ?_⟩)
      rw [e] at hxy
      cases hxy

/-- The numbers of boxes go on from those used before; all are different and all boxes are closed. -/
theorem C100_boxes (h : flowItems fmt t k m = some i) :
    boxNumbers i = List.range' k (boxNumbers i).length ∧ ∃ b, boxes [] i = some (b, []) := by
  obtain ⟨a, r, rfl, ha, -, h1, h2⟩ := flowItems_graph h
  have h0 : boxNumbers a = [] := flowDeclareStmts_boxNumbers _ a ha
  constructor
  · rw [boxNumbers_append, h0, List.nil_append, h2.numbers, List.length_range']
  · rw [h1.2.2]
    obtain ⟨b, hb⟩ := h2.closed [] []
    rw [List.append_nil] at hb
    rw [hb]
    exact ⟨_, rfl⟩

/-- Labels and shapes: an expression that is drawn shows its name, value or symbol; constants are boxes,
operations triangles. -/
theorem C100_labels (h : flowItems fmt t k m = some i) (hn : m.vids.Nodup) (hs : identifyModule m = some s)
    (ht : t.definitions = s.definitions) (q : Stmt) (hq : q ∈ flowsAll m.statements) (y : Expr)
    (hy : y ∈ partTerms q) (hd : ∀ n, y = .name y.vid n → ∀ d, ¬ RefersTo (stmtsTokens m.statements) y.vid d) :
    ∃ rest, .node y.vid (flowCaption fmt y) rest ∈ i ∧ flowShape y <:+: rest := by
  obtain ⟨a, r, rfl, ha, -, -, -⟩ := flowItems_graph h
  refine ((flowDeclareStmts_shown _ a ha q hq).1 y hy ?_).left
  cases y with
  | name w n =>
    obtain ⟨-, h2⟩ := definitions_iff hs hn (part_name_use hq hy) w
    simp only [drawnTerm, ht, decide_eq_true_eq, h2]
    exact .inl (hd n rfl)
  | _ => rfl

/-- The target of an assignment shows its name, an `if` statement that it is one. -/
theorem C100_labels_statement (h : flowItems fmt t k m = some i) (hn : m.vids.Nodup)
    (hs : identifyModule m = some s) (ht : t.definitions = s.definitions) :
    (∀ w v n e, .assign w v n e ∈ flowsAll m.statements → ∃ rest, .node v n rest ∈ i) ∧
    ∀ v z c tv ts th fv fs el, .ifElse v z c tv ts th fv fs el ∈ flowsAll m.statements →
      ∃ rest, .node v "If".toList rest ∈ i ∧ "shape=diamond".toList <:+: rest := by
  obtain ⟨a, r, rfl, ha, -, -, -⟩ := flowItems_graph h
  constructor
  · intro w v n e hq
    have hd : v ∈ defineIds (stmtsTokens m.statements) :=
      List.mem_filterMap.2 ⟨.define n v, flowsAll_tokens _ _ hq _ (by simp [stmtTokens]), rfl⟩
    have := C56_define m s hs (tokens_nodup hn) v hd
    obtain ⟨rest, hm, -⟩ := ((flowDeclareStmts_shown _ a ha _ hq).2.1 w v n e rfl (by
      simp [drawnTerm, ht, this])).left (j := r.1)
    exact ⟨rest, hm⟩
  · intro v z c tv ts th fv fs el hq
    exact ⟨_, List.mem_append_left _ ((flowDeclareStmts_shown _ a ha _ hq).2.2 v z c tv ts th fv fs el rfl),
      by decide +kernel⟩

/-! ### What the graph says about values -/

/-- The value that is assigned depends only on the inputs from which a way leads to the target: if
environments agree on the names of these, the values are the same. -/
theorem C100_influence (h : flowItems fmt t k m = some i) (hn : m.vids.Nodup) (hs : identifyModule m = some s)
    (ht : t.definitions = s.definitions) (hf : NoAttributesInFlow m) (c : ExecuteContext V) (a b : List Stmt)
    (w d : Vid) (n : Str) (e : Expr) (hm : m.statements = a ++ .assign w d n e :: b)
    (env1 env2 : Str → Option V) (r1 r2 : (Str → Option V) × List V)
    (h1 : evalStmts c env1 a = some r1) (h2 : evalStmts c env2 a = some r2)
    (he : ∀ u x, Token.use x u ∈ stmtsTokens m.statements →
      (∀ d, ¬ RefersTo (stmtsTokens m.statements) u d) → Leads i u d → env1 x = env2 x) :
    evalExpr c r1.1 e = evalExpr c r2.1 e := by
  induction hl : a.length using Nat.strong_induction_on generalizing a b w d n e r1 r2 with
  | _ l ih =>
    have hq : Stmt.assign w d n e ∈ flowsAll m.statements := by
      rw [hm, flowsAll_append, flowsAll]; simp [flowAll]
    have hedge : ∀ x y, (x, y) ∈ consumed m → ∀ o, Origin m x o → (o, y) ∈ edges plain i :=
      fun x y hx o ho => (C100_edges h hn hs ht o y).2 ⟨x, hx, ho⟩
    have hways := expr_leads (E := fun x y => (x, y) ∈ edges plain i) (O := Origin m)
      (fun e he => by cases e <;> first | rfl | exact absurd rfl (he _ _)) e d
      (hedge e d (List.mem_flatMap.2 ⟨_, hq, mem_consumers.2 (.inl ⟨w, n, rfl⟩)⟩))
      (fun y hy x hx => hedge x y.vid (List.mem_flatMap.2 ⟨_, hq, mem_consumers.2 (.inr ⟨y, by
        simpa [partTerms, parts, expression?] using hy, hx, rfl⟩)⟩))
      (hf _ hq e (by simp [parts, expression?]))
    refine evalExpr_congr c e fun v x hv => ?_
    have huse : Token.use x v ∈ exprTokens e := term_use e hv
    obtain ⟨p, p', hp⟩ := List.append_of_mem huse
    have htok : stmtsTokens m.statements =
        stmtsTokens a ++ (p ++ .use x v :: (p' ++ (.define n d :: stmtsTokens b))) := by
      rw [hm, stmtsTokens_append, stmtsTokens, stmtTokens, hp]
      simp
    have hpclean : ∀ d', Token.define x d' ∉ p := fun d' hd' =>
      define_exprTokens (n := x) (d := d') e (by rw [hp]; exact List.mem_append_left _ hd')
    have hpopen : ∀ q ∈ p, q ≠ .begin ∧ q ≠ .finish := by
      intro q hq'
      exact exprTokens_plain e q (by rw [hp]; exact List.mem_append_left _ hq')
    rcases last_assign x a with hno | ⟨a1, w', d', e', a2, rfl, hno⟩
    · have hnone : ∀ d, ¬ RefersTo (stmtsTokens m.statements) v d := by
        rintro d' ⟨x', A, B, C, heq, -, -⟩
        have hnd := tokens_nodup hn
        rw [htok, ← List.append_assoc] at heq hnd
        rw [show A ++ .define x' d' :: (B ++ .use x' v :: C) = (A ++ .define x' d' :: B) ++ .use x' v :: C by
          simp] at heq
        obtain ⟨hA, hx, -⟩ := split_unique heq rfl rfl hnd
        cases hx
        have hmem : Token.define x d' ∈ stmtsTokens a ++ p := by rw [hA]; simp
        rcases List.mem_append.1 hmem with hmem | hmem
        · obtain ⟨w', e', hmem⟩ := define_mem h1 hmem
          exact hno w' d' e' hmem
        · exact hpclean d' hmem
      rw [evalStmts_keeps c x a env1 r1 h1 hno, evalStmts_keeps c x a env2 r2 h2 hno]
      refine he v x ?_ hnone (hways v x hv v (.inr ⟨rfl, hnone⟩))
      rw [htok]; simp
    · have href : RefersTo (stmtsTokens m.statements) v d' := by
        have hz := h1
        obtain ⟨q1, z1, -, hz, -⟩ := evalStmts_append c a1 _ env1 r1 hz
        have hz' := hz
        rw [evalStmts] at hz'
        obtain ⟨y1, -, hz'⟩ := Option.bind_eq_some_iff.1 hz'
        refine ⟨x, stmtsTokens a1 ++ exprTokens e', stmtsTokens a2 ++ p,
          p' ++ (.define n d :: stmtsTokens b), ?_, ?_, ?_⟩
        · rw [htok, stmtsTokens_append, stmtsTokens, stmtTokens]
          simp
        · refine stillOpen_of fun q hq' => ?_
          rcases List.mem_append.1 hq' with hq' | hq'
          · exact evalStmts_plain c a2 _ z1 hz' q hq'
          · exact hpopen q hq'
        · intro b1 d'' b2 hb
          have hmem : Token.define x d'' ∈ stmtsTokens a2 ++ p := by rw [hb]; simp
          rcases List.mem_append.1 hmem with hmem | hmem
          · obtain ⟨w'', e'', hmem⟩ := define_mem hz' hmem
            exact absurd hmem (hno w'' d'' e'')
          · exact absurd hmem (hpclean d'')
      obtain ⟨q1, z1, hq1, hz1, e1⟩ := evalStmts_append c a1 _ env1 r1 h1
      obtain ⟨q2, z2, hq2, hz2, e2⟩ := evalStmts_append c a1 _ env2 r2 h2
      have hlead : Leads i d' d := hways v x hv d' (.inl href)
      have := ih a1.length (by rw [← hl]; simp) a1 (a2 ++ .assign w d n e :: b) w' d' x e'
        (by rw [hm]; simp) q1 q2 hq1 hq2
        (fun u y hu hr hl => he u y hu hr (hl.trans hlead)) rfl
      rw [evalStmts] at hz1 hz2
      obtain ⟨y1, hy1, hz1⟩ := Option.bind_eq_some_iff.1 hz1
      obtain ⟨y2, hy2, hz2⟩ := Option.bind_eq_some_iff.1 hz2
      rw [e1, e2, evalStmts_keeps c x a2 _ z1 hz1 hno, evalStmts_keeps c x a2 _ z2 hz2 hno]
      simp only [bindName, if_true]
      rw [← hy1, ← hy2, this]

/-! ### What the graph does not show -/

/-- No edge starts at an `if` statement or leads to one. -/
theorem C100_if_isolated (h : flowItems fmt t k m = some i) (hn : m.vids.Nodup)
    (hs : identifyModule m = some s) (ht : t.definitions = s.definitions) (v z : Vid) (c : Expr)
    (tv ts : Vid) (th : List Stmt) (fv fs : Vid) (el : List Stmt)
    (hq : .ifElse v z c tv ts th fv fs el ∈ flowsAll m.statements) (a : Vid) :
    (v, a) ∉ edges plain i ∧ (a, v) ∉ edges plain i := by
  have hv := if_not_mem_order hn hq
  exact ⟨fun he => hv ((C100_order h hn hs ht _ _ he).subset (by simp)),
    fun he => hv ((C100_order h hn hs ht _ _ he).subset (by simp))⟩

/-- The graph of the command: the links are those of identification. -/
def drawn (m : Module) : Option (List Vid × List (Vid × Vid) × List Nat) :=
  (identifyModule m).bind fun s =>
  (flowItems exampleFormat ⟨fun _ => [], fun _ => [], s.uses, s.definitions⟩ 0 m).map fun i =>
    (nodes i, edges plain i, boxNumbers i)

/-- `a = b + 1`, `if a: c = a`: the name `b`, the constant and the sum lead to `a`, `a` leads to `c`. -/
example : drawn exampleModule =
    some ([12, 13, 14, 11, 20, 26], [(12, 11), (13, 12), (14, 12), (11, 26)], [0]) := by decide +kernel

example : exampleModule.vids.Nodup ∧ FlowSymbols exampleModule ∧
    NoAttributesInFlow exampleModule := by
  refine ⟨by decide +kernel, ?_, ?_⟩
  · intro q hq y hy
    exact exampleModule_ok.2.1 y (List.mem_flatMap.2 ⟨q, hq, by
      simp only [exampleModule, flowsAll, flowAll, List.append_nil, List.cons_append, List.nil_append,
        List.mem_cons, List.not_mem_nil, or_false] at hq
      rcases hq with rfl | rfl | rfl <;> simpa [partTerms, parts] using hy⟩)
  · intro q hq e he
    simp only [exampleModule, flowsAll, flowAll, List.append_nil, List.cons_append, List.nil_append,
      List.mem_cons, List.not_mem_nil, or_false] at hq
    rcases hq with rfl | rfl | rfl <;>
      (cases List.mem_singleton.1 he; decide +kernel)

/-- A condition does not lead to what is assigned in the branches: `if a: b = 1`, the value of `b` depends on
`a`, there is no edge from `a`. -/
theorem C100_condition_false : ∃ m e, m.vids.Nodup ∧ drawn m = some e ∧ 12 ∈ e.1 ∧ 16 ∈ e.1 ∧
    m.statements = [.ifElse 10 11 (.name 12 "a".toList) 13 14
      [.assign 15 16 "b".toList (.number 17 (.int .i64 1))] 18 19 []] ∧ ∀ x, (12, x) ∉ e.2.1 := by
  refine ⟨⟨0, 1, 2, [.ifElse 10 11 (.name 12 "a".toList) 13 14
      [.assign 15 16 "b".toList (.number 17 (.int .i64 1))] 18 19 []]⟩,
    ([10, 12, 17, 16], [(17, 16)], [0]), by decide +kernel, by decide +kernel, by decide +kernel,
    by decide +kernel, rfl, fun x hx => ?_⟩
  cases List.mem_singleton.1 hx

/-- What is assigned in a branch does not lead to what is used behind it: `a = 1`, `if b: a = 2`, `c = a`; the
edge to `c` comes from the first assignment. -/
theorem C100_branch_false : ∃ m e, m.vids.Nodup ∧ drawn m = some e ∧
    m.statements = [.assign 3 4 "a".toList (.number 5 (.int .i64 1)),
      .ifElse 10 11 (.name 12 "b".toList) 13 14 [.assign 15 16 "a".toList (.number 17 (.int .i64 2))] 18 19 [],
      .assign 20 21 "c".toList (.name 22 "a".toList)] ∧ (4, 21) ∈ e.2.1 ∧ ∀ x, (16, x) ∉ e.2.1 := by
  refine ⟨⟨0, 1, 2, [.assign 3 4 "a".toList (.number 5 (.int .i64 1)),
      .ifElse 10 11 (.name 12 "b".toList) 13 14 [.assign 15 16 "a".toList (.number 17 (.int .i64 2))] 18 19 [],
      .assign 20 21 "c".toList (.name 22 "a".toList)]⟩,
    ([5, 4, 10, 12, 17, 16, 21], [(5, 4), (17, 16), (4, 21)], [0]), by decide +kernel, by decide +kernel, rfl,
    by decide +kernel, fun x hx => ?_⟩
  simp at hx

/-- An attribute has no vertex, an edge starts at it nevertheless, and none leads to it: `a = b.c`. -/
theorem C100_attribute_false : ∃ m e, m.vids.Nodup ∧ drawn m = some e ∧
    m.statements = [.assign 10 11 "a".toList (.attribute 12 (.name 13 "b".toList) "c".toList)] ∧
    (12, 11) ∈ e.2.1 ∧ 12 ∉ e.1 ∧ 13 ∈ e.1 ∧ ∀ x, (13, x) ∉ e.2.1 := by
  refine ⟨⟨0, 1, 2, [.assign 10 11 "a".toList (.attribute 12 (.name 13 "b".toList) "c".toList)]⟩,
    ([13, 11], [(12, 11)], []), by decide +kernel, by decide +kernel, rfl, by decide +kernel,
    by decide +kernel, by decide +kernel, fun x hx => ?_⟩
  simp at hx

/-- Loops are left out altogether. -/
theorem C100_loop_false (fmt : FloatFormat) (t : Links) (k : Nat) (a b z : Vid) (c : Expr) (v s v' s' : Vid)
    (th el : List Stmt) (x y : Vid) :
    flowItems fmt t k ⟨a, b, z, [.while x y c v s th v' s' el]⟩ = some [] := rfl

end Fern.Dot
