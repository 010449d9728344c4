import Verif.Lemmas.ThreadBasic
import Verif.Lemmas.ThreadConverseStatements

/-!
# Threading

C60: threading orders the vertices of a module without functions by evaluation order.
C65: threading modules with functions.

`Module.vids m` being `Nodup` says that the vertices of the tree are different objects.
-/

namespace Fern

/-! ### Modules of expressions, assignments and `if` statements -/

/-- Threading does not fail an assertion, and following the successors of the module passes the vertices
in the order that the syntax prescribes: the possible walks from the module until it is reached again are
exactly the traces of the specification. -/
theorem C60_order (m : Module) (hn : m.vids.Nodup) (hb : Stmt.listBasic m.statements = true) :
    ∃ s, threadModule m = some s ∧ ∀ l, FirstPath s.succ m.v m.v l ↔ moduleTraces m l := by
  have hnp := Stmt.namedParameters_of_basic.2 m.statements hb
  obtain ⟨s, h⟩ := threadModule_success m hn hnp (Stmt.listFits_of_basic _ _ hb)
    (by rw [calls_of_basic m hb]; exact List.nodup_nil)
  exact ⟨s, h, threadModule_paths m hn hnp s h⟩

/-- No walk passes a vertex twice, and it passes only vertices of the module. -/
theorem C60_at_most_once (m : Module) (hn : m.vids.Nodup) (hb : Stmt.listBasic m.statements = true)
    (s : ThreadState) (h : threadModule m = some s) (l : List Vid) (hl : FirstPath s.succ m.v m.v l) :
    l.Nodup ∧ (∀ x ∈ l, x ∈ m.vids) ∧ l.getLast? = some m.v := by
  have hnp := Stmt.namedParameters_of_basic.2 m.statements hb
  rw [threadModule_paths m hn hnp s h, moduleTraces_basic m hb] at hl
  obtain ⟨x, hx, rfl⟩ := hl
  have hn' := hn
  rw [Module.vids] at hn'
  have hn2 := (List.nodup_cons.1 (List.nodup_cons.1 (List.nodup_cons.1 hn').2).2).2
  have hs := (Stmt.listOrderly m.statements hb hn2).subperm x hx
  have hp : (m.scope :: (x ++ [m.sentinel, m.v])).Perm (m.v :: m.scope :: m.sentinel :: x) := by
    have h1 : (x ++ [m.sentinel, m.v]).Perm (m.v :: m.sentinel :: x) :=
      List.perm_append_comm.trans (List.Perm.swap _ _ _)
    exact (h1.cons _).trans (List.Perm.swap _ _ _)
  have hs' : (m.scope :: (x ++ [m.sentinel, m.v])).Subperm m.vids := by
    refine hp.subperm.trans ?_
    rw [Module.vids]
    exact (List.subperm_cons _).2 ((List.subperm_cons _).2 ((List.subperm_cons _).2 hs))
  refine ⟨?_, fun y hy => hs'.subset hy, ?_⟩
  · obtain ⟨l', h1, h2⟩ := hs'
    exact h1.nodup_iff.1 (hn.sublist h2)
  · rw [← List.cons_append, List.getLast?_append]
    rfl

/-- Every vertex of an expression or a statement is passed on some walk. -/
theorem C60_reached (m : Module) (hn : m.vids.Nodup) (hb : Stmt.listBasic m.statements = true)
    (s : ThreadState) (h : threadModule m = some s) (v : Vid) (hv : v ∈ Stmt.listNodes m.statements) :
    ∃ l, FirstPath s.succ m.v m.v l ∧ v ∈ l := by
  have hnp := Stmt.namedParameters_of_basic.2 m.statements hb
  rw [Module.vids] at hn
  have hn2 := (List.nodup_cons.1 (List.nodup_cons.1 (List.nodup_cons.1 hn).2).2).2
  obtain ⟨x, hx, hvx⟩ := (Stmt.listOrderly m.statements hb hn2).nodes v hv
  exact ⟨_, (threadModule_paths m hn hnp s h _).2 ((moduleTraces_basic m hb _).2 ⟨x, hx, rfl⟩),
    by simp [hvx]⟩

/-- Operands are passed before operations, the expression of an assignment before its target and its
target before the assignment, the condition of an `if` statement before the statement and the statement
before what is in its scopes. -/
theorem C60_operands_first (m : Module) (hn : m.vids.Nodup) (hb : Stmt.listBasic m.statements = true)
    (s : ThreadState) (h : threadModule m = some s) (l : List Vid) (hl : FirstPath s.succ m.v m.v l)
    (x y : Vid) (hxy : (x, y) ∈ Stmt.listNeeds m.statements) (hy : y ∈ l) : [x, y].Sublist l := by
  have hnp := Stmt.namedParameters_of_basic.2 m.statements hb
  rw [threadModule_paths m hn hnp s h, moduleTraces_basic m hb] at hl
  obtain ⟨w, hw, rfl⟩ := hl
  rw [Module.vids] at hn
  simp only [List.nodup_cons, List.mem_cons, not_or] at hn
  have ho := Stmt.listOrderly m.statements hb hn.2.2.2
  refine (ho.needs w hw _ hxy ?_).trans
    ((List.sublist_append_left _ _).trans (List.sublist_cons_self _ _))
  have hy' := ho.needsSub _ hxy
  simp only [List.mem_cons, List.mem_append, List.not_mem_nil, or_false] at hy
  rcases hy with rfl | hy | rfl | rfl
  · exact absurd hy' hn.2.1.2
  · exact hy
  · exact absurd hy' hn.2.2.1
  · exact absurd hy' hn.1.2.2

/-- Statements are passed in source order. -/
theorem C60_source_order (m : Module) (hn : m.vids.Nodup) (hb : Stmt.listBasic m.statements = true)
    (s : ThreadState) (h : threadModule m = some s) (l : List Vid) (hl : FirstPath s.succ m.v m.v l)
    (x y : Vid) (hxy : (x, y) ∈ Stmt.listOrder m.statements) (hx : x ∈ l) (hy : y ∈ l) :
    [x, y].Sublist l := by
  have hnp := Stmt.namedParameters_of_basic.2 m.statements hb
  rw [threadModule_paths m hn hnp s h, moduleTraces_basic m hb] at hl
  obtain ⟨w, hw, rfl⟩ := hl
  rw [Module.vids] at hn
  simp only [List.nodup_cons, List.mem_cons, not_or] at hn
  have ho := Stmt.listOrderly m.statements hb hn.2.2.2
  have mem : ∀ z, z ∈ Stmt.listVids m.statements → z ∈ m.scope :: (w ++ [m.sentinel, m.v]) → z ∈ w := by
    intro z hz hz'
    simp only [List.mem_cons, List.mem_append, List.not_mem_nil, or_false] at hz'
    rcases hz' with rfl | hy | rfl | rfl
    · exact absurd hz hn.2.1.2
    · exact hy
    · exact absurd hz hn.2.2.1
    · exact absurd hz hn.1.2.2
  obtain ⟨k1, k2⟩ := ho.orderSub _ hxy
  exact (ho.order w hw _ hxy (mem _ k1 hx) (mem _ k2 hy)).trans
    ((List.sublist_append_left _ _).trans (List.sublist_cons_self _ _))

/-- Without `if` statements there is exactly one walk, and it passes every vertex exactly once. -/
theorem C60_straight (m : Module) (hn : m.vids.Nodup) (hs : m.statements.all Stmt.straight = true) :
    ∃ s l, threadModule m = some s ∧ l.Perm m.vids ∧
      ∀ l', FirstPath s.succ m.v m.v l' ↔ l' = l := by
  have hb := Stmt.listBasic_of_straight hs
  obtain ⟨s, h, hp⟩ := C60_order m hn hb
  obtain ⟨x, hx, ex⟩ := bodyTraces_straight m.statements hs
  refine ⟨s, m.scope :: (x ++ [m.sentinel, m.v]), h, ?_, fun l' => ?_⟩
  · have h1 : (x ++ [m.sentinel, m.v]).Perm (m.v :: m.sentinel :: x) :=
      List.perm_append_comm.trans (List.Perm.swap _ _ _)
    exact ((h1.cons _).trans (List.Perm.swap _ _ _)).trans (((hx.cons _).cons _).cons _)
  · rw [hp, moduleTraces_basic m hb]
    constructor
    · rintro ⟨y, hy, rfl⟩
      rw [(ex y).1 hy]
    · rintro rfl
      exact ⟨x, (ex x).2 rfl, rfl⟩

/-- `a = b + c; if a: d = a; else: d = b` and then `d`. -/
def exampleIf : Module :=
  ⟨0, 1, 2, [
    .assign 10 11 "a".toList (.operator 12 "add".toList [.name 13 "b".toList, .name 14 "c".toList]),
    .ifElse 20 21 (.name 22 "a".toList) 30 31 [.assign 32 33 "d".toList (.name 34 "a".toList)]
      40 41 [.assign 42 43 "d".toList (.name 44 "b".toList)],
    .expr (.name 50 "d".toList)]⟩

example : exampleIf.vids.Nodup ∧ Stmt.listBasic exampleIf.statements = true ∧
    (12, 11) ∈ Stmt.listNeeds exampleIf.statements ∧ (10, 50) ∈ Stmt.listOrder exampleIf.statements ∧
    43 ∈ Stmt.listNodes exampleIf.statements := by decide +kernel

/-- Its successors: 20 is the `if` statement, 21 its sentinel, where the scopes join. -/
example : ((threadModule exampleIf).map fun s =>
    [0, 1, 13, 14, 12, 11, 10, 22, 20, 30, 34, 33, 32, 31, 40, 44, 43, 42, 41, 21, 50, 2].map s.succ) =
    some [[1], [13], [14], [12], [11], [10], [22], [20], [30, 40], [34], [33], [32], [31], [21],
      [44], [43], [42], [41], [21], [50], [2], [0]] := by decide +kernel

/-- `a = b` and then `f(a)`. -/
example : (Module.vids ⟨0, 1, 2, [.assign 10 11 "a".toList (.name 12 "b".toList),
      .expr (.call 20 "f".toList [.name 21 "a".toList])]⟩).Nodup ∧
    [Stmt.assign 10 11 "a".toList (.name 12 "b".toList),
      .expr (.call 20 "f".toList [.name 21 "a".toList])].all Stmt.straight = true := by decide +kernel

/-! ### Modules with functions -/

/-- If every user-defined function is called at most once, and there are no loops and no unusual return
statements (see `Stmt.fits`), then threading does not fail an assertion, and control passes the vertices
in the order that the syntax prescribes, going through the definition of a function where it is called. -/
theorem C65_called_once (m : Module) (hn : m.vids.Nodup)
    (hnp : Stmt.listNamedParameters m.statements) (hf : Stmt.listFits false m.statements = true)
    (hc : m.calls.Nodup) :
    ∃ s, threadModule m = some s ∧ ∀ l, FirstPath s.succ m.v m.v l ↔ moduleTraces m l := by
  obtain ⟨s, h⟩ := threadModule_success m hn hnp hf hc
  exact ⟨s, h, threadModule_paths m hn hnp s h⟩

/-- Whenever threading does not fail an assertion the order is right. -/
theorem C65_order (m : Module) (hn : m.vids.Nodup) (hnp : Stmt.listNamedParameters m.statements)
    (s : ThreadState) (h : threadModule m = some s) (l : List Vid) :
    FirstPath s.succ m.v m.v l ↔ moduleTraces m l :=
  threadModule_paths m hn hnp s h l

/-- `def f(x): return x`, `a = f(b)`. -/
def exampleFunction : Module :=
  ⟨0, 1, 2, [
    .function 10 "f".toList [.name 11 "x".toList] 12 13 [.ret 14 (some (.name 15 "x".toList))],
    .assign 20 21 "a".toList (.call 22 "f".toList [.name 23 "b".toList])]⟩

example : exampleFunction.vids.Nodup ∧ Stmt.listFits false exampleFunction.statements = true ∧
    exampleFunction.calls = [13] := by decide +kernel

example : Stmt.listNamedParameters exampleFunction.statements := by
  simp [exampleFunction, Stmt.listNamedParameters, Stmt.namedParameters]

example : ((threadModule exampleFunction).map fun s => [0, 1, 23, 22, 10, 11, 12, 15, 14, 13, 21, 20, 2].map s.succ) =
    some [[1], [23], [22], [10], [11], [12], [15], [14], [13], [21], [20], [2], [0]] := by decide +kernel

/-- `def f(x): return x`, `a = f(b)`, `c = f(a)`. -/
def exampleTwice : Module :=
  ⟨0, 1, 2, [
    .function 10 "f".toList [.name 11 "x".toList] 12 13 [.ret 14 (some (.name 15 "x".toList))],
    .assign 20 21 "a".toList (.call 22 "f".toList [.name 23 "b".toList]),
    .assign 30 31 "c".toList (.call 32 "f".toList [.name 33 "a".toList])]⟩

/-- Calling a function twice fails an assertion. -/
theorem C65_called_twice : ∃ m : Module, m.vids.Nodup ∧ Stmt.listFits false m.statements = true ∧
    m.calls = [13, 13] ∧ (threadModule m).isNone = true :=
  ⟨exampleTwice, by decide +kernel⟩

/-- Exactly the modules in which every user-defined function is called at most once, in which there are no
loops, and in which return statements are only directly in functions and not directly in front of function
definitions, can be threaded; all others fail an assertion. -/
theorem C65_threads (m : Module) (hn : m.vids.Nodup) (hnp : Stmt.listNamedParameters m.statements) :
    (threadModule m).isSome = true ↔ m.calls.Nodup ∧ Stmt.listFits false m.statements = true := by
  constructor
  · intro h
    obtain ⟨s, h⟩ := Option.isSome_iff_exists.1 h
    exact threadModule_converse m hn hnp s h
  · rintro ⟨hc, hf⟩
    obtain ⟨s, h⟩ := threadModule_success m hn hnp hf hc
    rw [h]
    rfl

/-- Whatever else is in a module: if there are two calls of the same function then threading fails an
assertion. -/
theorem C65_second_call (m : Module) (hn : m.vids.Nodup) (hnp : Stmt.listNamedParameters m.statements)
    (f : Vid) (a b c : List Vid) (hc : m.calls = a ++ f :: (b ++ f :: c)) : threadModule m = none := by
  cases h : threadModule m with
  | none => rfl
  | some s =>
    have := (threadModule_converse m hn hnp s h).1
    rw [hc, List.nodup_append'] at this
    exact absurd (by simp) (List.nodup_cons.1 this.2.1).1

example : exampleTwice.vids.Nodup ∧ exampleTwice.calls = [] ++ 13 :: ([] ++ 13 :: []) := by decide +kernel

example : Stmt.listNamedParameters exampleTwice.statements := by
  simp [exampleTwice, Stmt.listNamedParameters, Stmt.namedParameters]

/-- A return statement in an `if` statement in a function fails an assertion. -/
theorem C65_return_in_if :
    (threadModule ⟨0, 1, 2, [.function 10 "f".toList [] 12 13
      [.ifElse 20 21 (.name 22 "a".toList) 23 24 [.ret 25 none] 26 27 []]]⟩).isNone = true := by
  decide +kernel

/-- A definition directly behind a return statement fails an assertion. -/
theorem C65_function_behind_return :
    (threadModule ⟨0, 1, 2, [.function 10 "f".toList [] 12 13
      [.ret 14 none, .function 20 "g".toList [] 21 22 [.ret 23 none]]]⟩).isNone = true := by
  decide +kernel

/-- A loop fails an assertion. -/
theorem C65_while : (threadModule ⟨0, 1, 2, [.while 10 11 (.name 12 "a".toList) 13 14
    [.expr (.name 15 "a".toList)] 16 17 []]⟩).isNone = true := by decide +kernel

/-- A recursive call does not enter the function: control goes from the call (15) to the sentinel of the
function (13), not to its definition (10). -/
theorem C65_recursion : ((threadModule ⟨0, 1, 2, [
      .function 10 "f".toList [] 12 13 [.expr (.call 15 "f".toList [])],
      .expr (.call 20 "f".toList [])]⟩).map fun s => (s.succ 15, s.succ 20)) = some ([13], [10]) := by
  decide +kernel

end Fern
