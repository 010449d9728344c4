import Verif.Spec.Parsing
import Verif.Props.Messages

/-!
# C103: references, errors and files of the parser
-/

namespace Fern.Parsing

open Fern.Parsing.Spec

/-! ### References -/

theorem without_perm {l : List (Nat × Option Nat)} {x : Nat} {h : Option Nat} (hl : l.lookup x = some h) :
    l.Perm ((x, h) :: without l x) := by
  induction l with
  | nil => cases hl
  | cons y l ih =>
    obtain ⟨a, b⟩ := y
    rw [List.lookup_cons] at hl
    by_cases e : x = a
    · subst e
      simp only [beq_self_eq_true, Option.some.injEq] at hl
      subst hl
      rw [without, List.eraseP_cons_of_pos (by simp)]
    · have e' : (x == a) = false := by simpa using e
      simp only [e'] at hl
      rw [without, List.eraseP_cons_of_neg (by simpa using Ne.symm e)]
      exact ((ih hl).cons _).trans (List.Perm.swap _ _ _)

theorem held_without {s : Refs} {x : Nat} {h : Option Nat} (hl : s.refs.lookup x = some h) (o : Nat) :
    held s o = (without s.refs x).countP (fun y => y.2 = some o) + if h = some o then 1 else 0 := by
  rw [held, (without_perm hl).countP_eq, List.countP_cons]
  simp

theorem more_apply (f : Nat → Nat) (o : Option Nat) (x : Nat) : more f o x = f x + if o = some x then 1 else 0 := by
  rw [more]
  by_cases h : o = some x
  · rw [if_pos h.symm, if_pos h]
  · rw [if_neg (Ne.symm h), if_neg h]; rfl

theorem less_some {f : Nat → Nat} {o : Option Nat} (h : ∀ y, o = some y → 0 < f y) :
    ∃ g, less f o = some g ∧ ∀ x, g x = f x - if o = some x then 1 else 0 := by
  cases o with
  | none => exact ⟨f, rfl, fun x => by simp⟩
  | some y =>
    refine ⟨_, if_neg (by have := h y rfl; omega), fun x => ?_⟩
    by_cases e : x = y
    · subst e; simp
    · simp [e, Ne.symm e]

theorem less_eq {f g : Nat → Nat} {o : Option Nat} (h : less f o = some g) :
    ∀ x, f x = g x + if o = some x then 1 else 0 := by
  intro x
  cases o with
  | none => cases h; simp
  | some y =>
    rw [less] at h
    split at h
    · cases h
    · cases h
      by_cases e : x = y
      · subst e; simp; omega
      · simp [e, Ne.symm e]

/-- One operation: it succeeds and keeps the balance. -/
theorem step_balanced {s : Refs} (h : Balanced s) (p : Op) (hp : Sensible s p) (hn : NotAgain s p) :
    ∃ s', s.step p = some s' ∧ Balanced s' := by
  cases p with
  | declare x =>
    refine ⟨_, rfl, fun o => ?_⟩
    have := h o
    simpa [held, List.countP_cons] using this
  | construct x y =>
    refine ⟨_, rfl, fun o => ?_⟩
    have := h o
    simp only [more_apply, held, List.countP_cons, decide_eq_true_eq] at this ⊢
    omega
  | borrowed x y =>
    refine ⟨_, rfl, fun o => ?_⟩
    have := h o
    simp only [more_apply, held, List.countP_cons, decide_eq_true_eq] at this ⊢
    omega
  | assign x y =>
    obtain ⟨k, hk⟩ := Option.isSome_iff_exists.1 hp
    rw [Refs.step, hk, Option.bind_some]
    by_cases e : k = y
    · cases y with
      | some y => exact absurd (hk.trans (by rw [e])) (hn y rfl)
      | none =>
        refine ⟨_, if_pos e, fun o => ?_⟩
        have := h o
        simpa [more_apply, held] using this
    · simp only [if_neg e]
      obtain ⟨g, hg, hg'⟩ := less_some (f := more s.count y) (o := k) (by
        rintro z rfl
        have h1 := h z
        rw [held_without hk, if_pos rfl] at h1
        rw [more_apply]; omega)
      rw [hg]
      refine ⟨_, rfl, fun o => ?_⟩
      have h1 := h o
      rw [held_without hk] at h1
      simp only [hg', more_apply, held, List.countP_cons, decide_eq_true_eq]
      split at h1 <;> split <;> simp_all; omega
  | fill x y =>
    have hk : s.refs.lookup x = some none := hp
    refine ⟨_, by rw [Refs.step, hk, Option.bind_some, if_pos rfl], fun o => ?_⟩
    have h1 := h o
    rw [held_without hk] at h1
    simp only [more_apply, held, List.countP_cons, decide_eq_true_eq, reduceCtorEq, if_false] at h1 ⊢
    omega
  | destroy x =>
    obtain ⟨k, hk⟩ := Option.isSome_iff_exists.1 hp
    obtain ⟨g, hg, hg'⟩ := less_some (f := s.count) (o := k) (by
      rintro z rfl
      have h1 := h z
      rw [held_without hk, if_pos rfl] at h1
      omega)
    refine ⟨_, by rw [Refs.step, hk, Option.bind_some, hg]; rfl, fun o => ?_⟩
    have h1 := h o
    rw [held_without hk] at h1
    simp only [hg', held]
    omega
  | hold y =>
    refine ⟨_, rfl, fun o => ?_⟩
    have := h o
    simp only [more_apply, held] at this ⊢
    omega
  | release y =>
    have hp' : 0 < s.outside y := hp
    obtain ⟨g, hg, hg'⟩ := less_some (f := s.outside) (o := some y) (by rintro z e; cases e; exact hp)
    obtain ⟨c, hc, hc'⟩ := less_some (f := s.count) (o := some y) (by
      rintro z e; cases e
      have := h y
      omega)
    refine ⟨_, by rw [Refs.step, hg, Option.bind_some, hc]; rfl, fun o => ?_⟩
    have := h o
    simp only [hg', hc', held] at this ⊢
    split
    · rename_i e; cases e; omega
    · omega

/-- If no reference is assigned the object that it has, then after any history each object has as many references as
the program and others hold: none is lost, and none released too early. -/
theorem C103_balanced (s : Refs) (h : Balanced s) (l : List Op) (hs : All Sensible s l) (hn : All NotAgain s l) :
    ∃ s', s.run l = some s' ∧ Balanced s' := by
  induction l generalizing s with
  | nil => exact ⟨s, rfl, h⟩
  | cons p l ih =>
    cases hs with
    | cons _ _ _ h1 h2 =>
      cases hn with
      | cons _ _ _ h3 h4 =>
        obtain ⟨s1, h5, h6⟩ := step_balanced h p h1 h3
        obtain ⟨s2, h7, h8⟩ := ih s1 h6 (h2 _ h5) (h4 _ h5)
        refine ⟨s2, ?_, h8⟩
        rw [Refs.run, List.foldlM_cons, h5]
        exact h7

/-- An object that is referred to by the program has not been deleted; and when all references are gone, the program
keeps nothing alive. -/
theorem C103_alive (s : Refs) (h : Balanced s) (o : Nat) :
    ((∃ x, (x, some o) ∈ s.refs) → 0 < s.count o) ∧ (s.refs = [] → s.count o = s.outside o) := by
  constructor
  · rintro ⟨x, hx⟩
    have h1 := h o
    have : 0 < held s o := by
      rw [held, List.countP_pos_iff]
      exact ⟨_, hx, by simp⟩
    omega
  · intro e
    have h1 := h o
    simpa [held, e] using h1

/-- Assigning the object that a reference has already loses a reference: there is one that nobody will release. -/
theorem C103_leak (s : Refs) (h : Balanced s) (x o : Nat) (hx : s.refs.lookup x = some (some o)) :
    ∃ s', s.step (.assign x (some o)) = some s' ∧ s'.count o = s'.outside o + held s' o + 1 := by
  refine ⟨{ s with count := more s.count (some o) }, by rw [Refs.step, hx]; simp, ?_⟩
  have := h o
  simp only [more_apply, held] at this ⊢
  simp; omega

/-- No object yet. -/
def noObjects : Refs := ⟨fun _ => 0, fun _ => 0, []⟩

example : Balanced noObjects := fun _ => rfl

/-- The references of an error that is fetched and reported. -/
def exampleOps : List Op :=
  [.declare 0, .declare 1, .declare 2, .fill 0 (some 10), .fill 1 (some 11), .fill 2 none, .construct 3 (some 12),
   .construct 4 (some 13), .assign 3 (some 14), .destroy 4, .destroy 3, .destroy 2, .destroy 1, .destroy 0]

example : ((noObjects.run exampleOps).map fun s => [10, 11, 12, 13, 14].map s.count) = some [0, 0, 0, 0, 0] ∧
    ((noObjects.run (exampleOps.take 9)).map fun s => [10, 11, 12, 13, 14].map s.count) = some [1, 1, 0, 1, 1] := by
  decide

example : All Sensible noObjects exampleOps ∧ All NotAgain noObjects exampleOps := by
  constructor
  · repeat' first
      | exact .nil _
      | (refine .cons _ _ _ (by simp [Sensible, noObjects, without, List.lookup]) ?_; rintro s' ⟨⟩)
  · repeat' first
      | exact .nil _
      | (refine .cons _ _ _ (by simp [NotAgain, noObjects, without, List.lookup]) ?_; rintro s' ⟨⟩)

/-- The same object twice: it stays forever. -/
theorem C103_leak_example : ((noObjects.run [.construct 0 (some 7), .assign 0 (some 7), .destroy 0]).map fun s =>
    (s.count 7, s.outside 7, s.refs)) = some (1, 0, []) := by decide

/-! ### Errors -/

theorem takeWhile_text {s : Str} (h : Text s) : s.takeWhile (· != '\x00') = s := by
  rw [List.takeWhile_eq_self_iff]
  intro c hc
  simp only [bne_iff_ne, ne_eq]
  rintro rfl
  exact h hc

theorem asInt_eq {v : PyValue} {i : Int} (h : asInt v = some i) : v = .int i := by
  cases v with
  | int j => exact congrArg _ (Option.some.inj h)
  | null => cases h
  | str _ => cases h
  | tuple _ => cases h
  | other => cases h

theorem asString_eq {v : PyValue} {t : Str} (h : asString v = some t) :
    ∃ s, v = .str s ∧ t = s.takeWhile (· != '\x00') := by
  cases v with
  | str s => exact ⟨s, rfl, (Option.some.inj h).symm⟩
  | null => cases h
  | int _ => cases h
  | tuple _ => cases h
  | other => cases h

/-- A sequence with an item that is no text is a tuple. -/
theorem items_eq {v : PyValue} {l : List PyValue} (h : items v = some l) {x : PyValue} (hx : x ∈ l)
    (hs : ∀ s, x ≠ .str s) : v = .tuple l := by
  cases v with
  | tuple k => exact congrArg _ (Option.some.inj h)
  | str s =>
    rw [← Option.some.inj h] at hx
    obtain ⟨c, -, e⟩ := List.mem_map.1 hx
    exact absurd e.symm (hs _)
  | null => cases h
  | int _ => cases h
  | other => cases h

/-- A syntax error with a message, a line, a column and a statement is reported with these; any other error makes an
assertion fail. -/
theorem C103_reported (source : Str) (isSyntaxError : Bool) (value : PyValue) (e : Messages.Low) :
    throwException source isSyntaxError value = some e ↔ isSyntaxError = true ∧ ∃ line col statement message,
      Reportable value line col statement message ∧
      e = .syntaxError source line col (statement.takeWhile (· != '\x00')) (message.takeWhile (· != '\x00')) := by
  constructor
  · intro h
    rw [throwException] at h
    split at h
    · refine ⟨‹_›, ?_⟩
      rw [throwSyntaxError] at h
      obtain ⟨l, hl, h⟩ := Option.bind_eq_some_iff.1 h
      split at h
      · rename_i m d
        obtain ⟨m', hm, h⟩ := Option.bind_eq_some_iff.1 h
        obtain ⟨q, hq, h⟩ := Option.bind_eq_some_iff.1 h
        split at h
        · rename_i a b c t
          obtain ⟨ln, hb, h⟩ := Option.bind_eq_some_iff.1 h
          obtain ⟨cl, hc, h⟩ := Option.bind_eq_some_iff.1 h
          obtain ⟨st, ht, rfl⟩ := Option.map_eq_some_iff.1 h
          have hb' := asInt_eq hb
          have hc' := asInt_eq hc
          obtain ⟨stat, ht', e1⟩ := asString_eq ht
          obtain ⟨msg, hm', e2⟩ := asString_eq hm
          subst hb' hc' ht' hm'
          have hd := items_eq hq (x := .int ln) (by simp) (by simp)
          subst hd
          have hv := items_eq hl (x := .tuple [a, .int ln, .int cl, .str stat]) (by simp) (by simp)
          subst hv
          rw [e1, e2]
          exact ⟨ln, cl, stat, msg, .mk _ _ _ _ _, rfl⟩
        · cases h
      · cases h
    · cases h
  · rintro ⟨rfl, line, col, statement, message, hr, rfl⟩
    cases hr
    rfl

/-- What the user reads: the place, the statement and the message. -/
theorem C103_text (source : Str) (value : PyValue) (line col : Int) (statement message : Str)
    (h : Reportable value line col statement message) (hs : Text statement) (hm : Text message) (hn : source ≠ [])
    (hl : ∃ c ∈ statement, c ≠ '\n') (asserts : Bool) :
    ∃ e, throwException source true value = some e ∧
      e.text asserts = .text (Messages.Spec.described (.syntaxError source line col statement message)) := by
  refine ⟨.syntaxError source line col statement message, ?_, ?_⟩
  · rw [C103_reported]
    exact ⟨rfl, line, col, statement, message, h, by rw [takeWhile_text hs, takeWhile_text hm]⟩
  · exact Messages.C89_described asserts _ hn hl

example : throwException "<string>".toList true (.tuple [.str "invalid syntax".toList,
    .tuple [.other, .int 1, .int 2, .str "a b\n".toList]]) =
    some (.syntaxError "<string>".toList 1 2 "a b\n".toList "invalid syntax".toList) := rfl

/-- Errors that are no syntax errors, and those without a column, are not reported. -/
theorem C103_unreported (source : Str) (value : PyValue) (a b d m : PyValue) :
    throwException source false value = none ∧ throwException source true .null = none ∧
    throwException source true .other = none ∧
    throwException source true (.tuple [m, .tuple [a, b, .other, d]]) = none := by
  refine ⟨rfl, rfl, rfl, ?_⟩
  cases h : throwException source true (.tuple [m, .tuple [a, b, .other, d]]) with
  | none => rfl
  | some e =>
    obtain ⟨-, _, _, _, _, hr, -⟩ := (C103_reported _ _ _ _).1 h
    cases hr

/-! ### Files -/

theorem parseFile_none (p : Process) (filename : Str) (a : Answer) : parseFile p filename none a =
    if p.openFiles < p.limit then ({ p with openFiles := p.openFiles + 1 }, a.parsed filename)
    else (p, .thrown (.fileOpen filename "Too many open files".toList)) := by
  by_cases h : p.openFiles < p.limit
  · rw [if_pos h]; exact if_pos h
  · rw [if_neg h]; exact if_neg h

/-- What parsing gives: the tree, or the error with the name of the source, which is `<string>` for texts; an assertion
fails if the error can't be reported. -/
inductive Outcome (source : Str) : Answer → Parsed → Prop
  | tree (xml : Str) : Outcome source (.tree xml) (.xml xml)
  | error {value : PyValue} {line col : Int} {statement message : Str}
      (h : Reportable value line col statement message) :
    Outcome source (.error true value)
      (.thrown (.syntaxError source line col (statement.takeWhile (· != '\x00')) (message.takeWhile (· != '\x00'))))
  | unreportable {value : PyValue} (h : ∀ line col statement message, ¬ Reportable value line col statement message) :
    Outcome source (.error true value) .assertion
  | other (value : PyValue) : Outcome source (.error false value) .assertion

theorem outcome (source : Str) (a : Answer) : Outcome source a (a.parsed source) := by
  cases a with
  | tree xml => exact .tree xml
  | error b v =>
    cases h : throwException source b v with
    | some e =>
      have hp : Answer.parsed source (.error b v) = .thrown e := by simp only [Answer.parsed, h]
      rw [hp]
      obtain ⟨rfl, line, col, statement, message, hr, rfl⟩ := (C103_reported _ _ _ _).1 h
      exact .error hr
    | none =>
      have hp : Answer.parsed source (.error b v) = .assertion := by simp only [Answer.parsed, h]
      rw [hp]
      cases b with
      | false => exact .other v
      | true =>
        refine .unreportable fun line col statement message hr => ?_
        have := (C103_reported source true v _).2 ⟨rfl, line, col, statement, message, hr, rfl⟩
        rw [h] at this
        cases this

/-- The results of parsing a text, and a file that can be opened. -/
theorem C103_parsed (p : Process) (filename : Str) (a : Answer) :
    Outcome "<string>".toList a (parseString p a).2 ∧
    (p.openFiles < p.limit → Outcome filename a (parseFile p filename none a).2) := by
  refine ⟨outcome _ a, fun h => ?_⟩
  unfold parseFile
  simp only [h, if_true]
  exact outcome _ a

/-- Parsing a text leaves everything as it was; parsing a file leaves the file open. -/
theorem C103_files (p : Process) (filename : Str) (error : Option Str) (a : Answer) :
    (parseString p a).1 = p ∧ (parseFile p filename error a).1 =
      { p with openFiles := p.openFiles + if error = none ∧ p.openFiles < p.limit then 1 else 0 } := by
  constructor
  · cases p; rfl
  · cases error with
    | some e => cases p; rfl
    | none =>
      rw [parseFile_none]
      by_cases h : p.openFiles < p.limit
      · rw [if_pos h, if_pos ⟨rfl, h⟩]
      · rw [if_neg h, if_neg fun e => h e.2]; rfl

/-- A number of files, one after the other. -/
def parseFiles (p : Process) : List (Str × Answer) → Process × List Parsed
  | [] => (p, [])
  | (f, a) :: l =>
    let r := parseFile p f none a
    let q := parseFiles r.1 l
    (q.1, r.2 :: q.2)

/-- So only as many scripts can be parsed as there can be open files; all others are reported not to be readable,
although they are. -/
theorem C103_exhausted (p : Process) (l : List (Str × Answer)) (i : Nat) (hi : i < l.length) :
    (parseFiles p l).2[i]? = some (if p.openFiles + i < p.limit then l[i].2.parsed l[i].1
      else .thrown (.fileOpen l[i].1 "Too many open files".toList)) := by
  induction l generalizing p i with
  | nil => cases hi
  | cons x l ih =>
    obtain ⟨f, a⟩ := x
    rw [parseFiles]
    cases i with
    | zero =>
      rw [parseFile_none]
      rw [List.getElem?_cons_zero, List.getElem_cons_zero]
      by_cases h : p.openFiles < p.limit
      · rw [if_pos h]; exact congrArg some (if_pos h).symm
      · rw [if_neg h]; exact congrArg some (if_neg h).symm
    | succ i =>
      rw [List.getElem?_cons_succ, List.getElem_cons_succ, ih _ i (Nat.lt_of_succ_lt_succ hi), (C103_files p f none a).2]
      congr 1
      refine if_congr ?_ rfl rfl
      dsimp only
      split
      · omega
      · rename_i h
        have h' : ¬ p.openFiles < p.limit := fun e => h ⟨rfl, e⟩
        omega

example : (parseFiles ⟨3, 4, 0⟩ [("a".toList, .tree []), ("b".toList, .tree [])]).2.length = 2 := rfl

end Fern.Parsing
