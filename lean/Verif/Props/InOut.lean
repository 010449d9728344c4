import Verif.Lemmas.InOut
import Mathlib.Data.List.Perm.Basic
import Mathlib.Data.List.Nodup

/-!
# C62: inputs and outputs of a module

Properties of the model in `Verif.Model.InOut`.
-/

namespace Fern

open Spec

/-- The tokens of a module. -/
def moduleTokens (m : Module) : List Token := stmtsTokens m.statements

theorem ioModule_eq (m : Module) : ∃ s, ioModule m = some s ∧
    ioRun ⟨[], [], []⟩ (moduleTokens m) = some s ∧ IOInv (moduleTokens m) s := by
  obtain ⟨s, hs, hi⟩ := ioInv_run (moduleTokens m)
  refine ⟨s, ?_, hs, hi⟩
  rw [ioModule, ioStmts_eq]
  change (ioRun _ (moduleTokens m)).bind _ = _
  rw [hs, Option.bind_some, if_pos hi.length.symm]

/-- Determining the inputs and outputs accesses nothing outside the vectors and meets no failing
assertion, for every module. -/
theorem C62_succeeds (m : Module) : (ioModule m).isSome := by
  obtain ⟨s, hs, _⟩ := ioModule_eq m
  rw [hs]; rfl

/-- The inputs are the distinct names used, in the order of their first uses. -/
theorem C62_inputs (m : Module) (s : IOState) (h : ioModule m = some s) :
    s.inputs = firsts (usedNames (stmtsTokens m.statements)) := by
  obtain ⟨s', hs, _, hi⟩ := ioModule_eq m
  rw [hs] at h
  cases h
  exact hi.inputs

/-- A name is an input iff it is used, and no name is an input twice. -/
theorem C62_inputs_mem (m : Module) (s : IOState) (h : ioModule m = some s) (n : Str) :
    (n ∈ s.inputs ↔ ∃ v, Token.use n v ∈ stmtsTokens m.statements) ∧ s.inputs.Nodup := by
  rw [C62_inputs m s h, mem_firsts]
  refine ⟨?_, nodup_firsts _⟩
  rw [usedNames, List.mem_filterMap]
  constructor
  · rintro ⟨t, ht, he⟩
    cases t <;> simp at he
    subst he
    exact ⟨_, ht⟩
  · rintro ⟨v, hv⟩
    exact ⟨_, hv, rfl⟩

/-- There are as many outputs as distinct names assigned to, for every module. -/
theorem C62_count (m : Module) (s : IOState) (h : ioModule m = some s) :
    s.outputs.length =
      (firsts ((Spec.definitions (stmtsTokens m.statements)).map (·.n))).length := by
  obtain ⟨s', hs, _, hi⟩ := ioModule_eq m
  rw [hs] at h
  cases h
  rw [hi.length]
  have hp : (Scope.names s.outputIds).Perm
      (firsts ((Spec.definitions (stmtsTokens m.statements)).map (·.n))) := by
    refine (List.perm_ext_iff_of_nodup hi.nodup (nodup_firsts _)).2 fun n => ?_
    rw [Scope.mem_names, mem_firsts]
    exact hi.ids n
  have := hp.length_eq
  rw [Scope.names, List.length_map] at this
  exact this

/-- Every output is an assignment of the module. -/
theorem C62_outputs_assigned (m : Module) (s : IOState) (h : ioModule m = some s) :
    ∀ d ∈ s.outputs, Token.define d.n d.v ∈ stmtsTokens m.statements := by
  obtain ⟨s', hs, _, hi⟩ := ioModule_eq m
  rw [hs] at h
  cases h
  intro d hd
  have := hi.outputs d hd
  rw [Spec.definitions, List.mem_filterMap] at this
  obtain ⟨t, ht, he⟩ := this
  cases t <;> simp at he
  subst he
  exact ht

/-! ### At most one name is assigned to more than once -/

theorem eraseIdx_eq_filter {a : Str} {l : List NameRef} (hl : (l.map (·.n)).Nodup) {i : Nat}
    {d : NameRef} (hd : l[i]? = some d) (hn : d.n = a) :
    l.eraseIdx i = l.filter fun x => decide (x.n ≠ a) := by
  induction l generalizing i with
  | nil => simp at hd
  | cons x l ih =>
    rw [List.map_cons, List.nodup_cons] at hl
    cases i with
    | zero =>
      rw [List.getElem?_cons_zero] at hd
      cases hd
      rw [List.eraseIdx_cons_zero, List.filter_cons_of_neg (by simp [hn])]
      refine (List.filter_eq_self.2 fun y hy => ?_).symm
      rw [decide_eq_true_eq]
      rintro rfl
      exact hl.1 (hn ▸ List.mem_map_of_mem hy)
    | succ i =>
      rw [List.getElem?_cons_succ] at hd
      have : x.n ≠ a := by
        rintro rfl
        exact hl.1 (hn ▸ List.mem_map_of_mem (List.mem_of_getElem? hd))
      rw [List.eraseIdx_cons_succ, ih hl.2 hd, List.filter_cons_of_pos (by simpa using this)]

theorem filter_ne_self {n : Str} {l : List NameRef} (h : n ∉ l.map (·.n)) :
    (l.filter fun x => decide (x.n ≠ n)) = l := by
  refine List.filter_eq_self.2 fun y hy => ?_
  rw [decide_eq_true_eq]
  rintro rfl
  exact h (List.mem_map_of_mem hy)

theorem ioRun_single (a : Str) (ts : List Token)
    (h : (((Spec.definitions ts).map (·.n)).filter fun n => decide (n ≠ a)).Nodup) :
    ∃ s, ioRun ⟨[], [], []⟩ ts = some s ∧ IOInv ts s ∧
      s.outputs = lastDefinitions (Spec.definitions ts) ∧
      ∀ i, s.outputIds.value a = some i → ∃ d, s.outputs[i]? = some d ∧ d.n = a := by
  induction ts using List.reverseRecOn with
  | nil =>
    obtain ⟨s, hs, hi⟩ := ioInv_run []
    refine ⟨s, hs, hi, ?_, ?_⟩ <;>
      (cases hs; simp [Spec.definitions, lastDefinitions, Scope.value_nil])
  | append_singleton ts t ih =>
    have hnd : (((Spec.definitions ts).map (·.n)).filter fun n => decide (n ≠ a)).Nodup := by
      rw [definitions_append, List.map_append, List.filter_append] at h
      exact h.sublist (List.sublist_append_left _ _)
    obtain ⟨s, hs, hi, ho, hid⟩ := ih hnd
    obtain ⟨s', hs', hi'⟩ := ioInv_step (t := t) hi
    refine ⟨s', ?_, hi', ?_⟩
    · rw [ioRun_append, hs, Option.bind_some, ioRun_cons, hs']; rfl
    rw [definitions_append]
    cases t with
    | «begin» => cases hs'; simpa [Spec.definitions] using ⟨ho, hid⟩
    | finish => cases hs'; simpa [Spec.definitions] using ⟨ho, hid⟩
    | use n v =>
      cases hs'
      have h1 : (s.useName n).outputs = s.outputs ∧ (s.useName n).outputIds = s.outputIds := by
        rw [IOState.useName]; split <;> simp
      rw [h1.1, h1.2]
      simpa [Spec.definitions] using ⟨ho, hid⟩
    | define n v =>
      have hone : Spec.definitions [Token.define n v] = [⟨v, n⟩] := rfl
      rw [hone, lastDefinitions_snoc, ← ho]
      -- erasing the previous definition removes exactly the ones of that name
      have he : s.erasePrevious n = some (s.outputs.filter fun x => decide (x.n ≠ n)) := by
        rw [IOState.erasePrevious]
        cases hv : s.outputIds.value n with
        | none =>
          have : n ∉ (Spec.definitions ts).map (·.n) := fun h => (hi.ids n).2 h hv
          rw [filter_ne_self]
          rwa [ho, mem_names_lastDefinitions]
        | some i =>
          have hn : n = a := by
            by_contra hn
            have hmem : n ∈ (Spec.definitions ts).map (·.n) := (hi.ids n).1 (by simp [hv])
            rw [definitions_append, hone, List.map_append, List.filter_append,
              List.nodup_append] at h
            exact h.2.2 n (List.mem_filter.2 ⟨hmem, by simpa using hn⟩) n (by simp [hn]) rfl
          subst hn
          obtain ⟨d, hd, hdn⟩ := hid i hv
          have hb : i < s.outputs.length := (List.getElem?_eq_some_iff.1 hd).1
          change (if i < s.outputs.length then some (s.outputs.eraseIdx i) else none) = _
          rw [if_pos hb, eraseIdx_eq_filter (by rw [ho]; exact names_lastDefinitions _) hd hdn]
      change s.defineName v n = some s' at hs'
      rw [IOState.defineName, he, Option.map_some] at hs'
      cases hs'
      refine ⟨rfl, fun i hv => ?_⟩
      simp only [Scope.setValue] at hv
      rw [Scope.value_assign] at hv
      by_cases hn : n = a
      · rw [if_pos hn] at hv
        cases hv
        exact ⟨⟨v, n⟩, by simp, hn⟩
      · rw [if_neg hn] at hv
        obtain ⟨d, hd, hdn⟩ := hid i hv
        refine ⟨d, ?_, hdn⟩
        have hnot : n ∉ (Spec.definitions ts).map (·.n) := by
          intro hmem
          rw [definitions_append, hone, List.map_append, List.filter_append,
            List.nodup_append] at h
          exact h.2.2 n (List.mem_filter.2 ⟨hmem, by simpa using hn⟩) n (by simp [hn]) rfl
        rw [filter_ne_self (by rwa [ho, mem_names_lastDefinitions]),
          List.getElem?_append_left (List.getElem?_eq_some_iff.1 hd).1, hd]

/-- When all names but at most one are assigned to at most once, the outputs are the assignments that
no assignment to the same name follows, in order. -/
theorem C62_outputs_single (m : Module) (s : IOState) (h : ioModule m = some s) (a : Str)
    (ha : (((Spec.definitions (stmtsTokens m.statements)).map (·.n)).filter
      fun n => decide (n ≠ a)).Nodup) :
    s.outputs = lastDefinitions (Spec.definitions (stmtsTokens m.statements)) := by
  obtain ⟨s', hs, hr, hi⟩ := ioModule_eq m
  rw [hs] at h
  cases h
  obtain ⟨s'', hs'', _, ho, _⟩ := ioRun_single a (moduleTokens m) ha
  rw [hr] at hs''
  cases hs''
  exact ho

theorem lastDefinitions_of_nodup {l : List NameRef} (h : (l.map (·.n)).Nodup) :
    lastDefinitions l = l := by
  induction l with
  | nil => rfl
  | cons d l ih =>
    rw [List.map_cons, List.nodup_cons] at h
    rw [lastDefinitions, if_neg, ih h.2]
    rintro ⟨d', h1, h2⟩
    exact h.1 (h2 ▸ List.mem_map_of_mem h1)

/-- When no name is assigned to twice the outputs are the assignments. -/
theorem C62_outputs_distinct (m : Module) (s : IOState) (h : ioModule m = some s)
    (hd : ((Spec.definitions (stmtsTokens m.statements)).map (·.n)).Nodup) :
    s.outputs = Spec.definitions (stmtsTokens m.statements) := by
  rw [C62_outputs_single m s h [] (hd.filter _), lastDefinitions_of_nodup hd]

/-! ### Witnesses -/

/-- `a = x`, for vertices `v`, `v + 1` and `v + 2`. -/
def assignName (v : Vid) (a x : Str) : Stmt := .assign v (v + 1) a (.name (v + 2) x)

/-- `a = x; b = x; a = x; b = x`. -/
def ioWitness : Module where
  v := 0
  scope := 1
  sentinel := 2
  statements := [assignName 10 ['a'] ['x'], assignName 20 ['b'] ['x'], assignName 30 ['a'] ['x'],
    assignName 40 ['b'] ['x']]

/-- That the outputs are the last assignments is false of a module that assigns to two names twice:
after `a = x; b = x; a = x; b = x` both outputs are assignments to `b` and none is to `a`. -/
theorem C62_outputs_false :
    (ioModule ioWitness).map (·.outputs) = some [⟨21, ['b']⟩, ⟨41, ['b']⟩] ∧
    lastDefinitions (Spec.definitions (stmtsTokens ioWitness.statements)) =
      [⟨31, ['a']⟩, ⟨41, ['b']⟩] := by
  decide +kernel

/-- `a = x; b = a`. -/
def ioUsedWitness : Module where
  v := 0
  scope := 1
  sentinel := 2
  statements := [assignName 10 ['a'] ['x'], assignName 20 ['b'] ['a']]

/-- Inputs are documented to be the undefined identifiers; a name that is defined before it is used is
reported as well: the inputs of `a = x; b = a` are `x` and `a`, although the use of `a` refers to the
assignment in front of it. -/
theorem C62_inputs_defined :
    (ioModule ioUsedWitness).map (·.inputs) = some [['x'], ['a']] ∧
    RefersTo (stmtsTokens ioUsedWitness.statements) 22 11 := by
  refine ⟨by decide +kernel, ['a'], [.use ['x'] 12], [], [.define ['b'] 21], by decide +kernel, ?_, ?_⟩
  · intro p h
    rw [List.prefix_nil] at h
    simp [h, begins, finishes]
  · intro b1 d' b2 h
    simp at h

example : (ioModule ioUsedWitness).isSome := C62_succeeds _

example : ((Spec.definitions (stmtsTokens ioUsedWitness.statements)).map (·.n)).Nodup := by
  decide +kernel

/-- `a = x; b = x; a = b`: one name is assigned to twice. -/
def ioSingle : Module where
  v := 0
  scope := 1
  sentinel := 2
  statements := [assignName 10 ['a'] ['x'], assignName 20 ['b'] ['x'], assignName 30 ['a'] ['b']]

example : (((Spec.definitions (stmtsTokens ioSingle.statements)).map (·.n)).filter
      fun n => decide (n ≠ ['a'])).Nodup ∧
    (ioModule ioSingle).map (·.outputs) = some [⟨21, ['b']⟩, ⟨31, ['a']⟩] := by
  decide +kernel

end Fern
