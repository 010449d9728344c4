import Verif.Lemmas.Identify

/-!
# Identification of names (C56)
-/

namespace Fern

open Spec

theorem identifyModule_spec (m : Module) (hnd : (tokenIds (stmtsTokens m.statements)).Nodup) :
    ∃ s u, identifyModule m = some s ∧ IdentifyInv (stmtsTokens m.statements) u ∧
      s.definitions = u.definitions ∧ s.uses = u.uses := by
  obtain ⟨u, hu, hi⟩ := identifyInv_run (stmtsTokens m.statements) hnd (by rw [scan_stmts]; rfl)
  obtain ⟨hl, hne⟩ := hi.level
  rw [scan_stmts] at hl
  obtain ⟨sc, tb, htb⟩ : ∃ sc tb, u.table = sc :: tb := by
    cases h : u.table with
    | nil => exact absurd h hne
    | cons sc tb => exact ⟨sc, tb, rfl⟩
  have htn : tb = [] := by
    rw [htb] at hl
    exact List.length_eq_zero_iff.1 (by simpa using hl.symm)
  subst htn
  refine ⟨{ u with table := [] }, u, ?_, hi, rfl, rfl⟩
  rw [identifyModule, identifyStmts_eq, hu]
  simp [IdentifyState.popScope, htb, SymbolTable.popScope, SymbolTable.empty, SymbolTable.size]

/-- No assertion fails. -/
theorem C56_succeeds (m : Module) (hnd : (tokenIds (stmtsTokens m.statements)).Nodup) :
    ∃ s, identifyModule m = some s := by
  obtain ⟨s, u, h, -⟩ := identifyModule_spec m hnd
  exact ⟨s, h⟩

/-- A use is linked to the definition it refers to, and to no other one. -/
theorem C56_definitions (m : Module) (s : IdentifyState) (h : identifyModule m = some s)
    (hnd : (tokenIds (stmtsTokens m.statements)).Nodup) (v : Vid)
    (hv : v ∈ useIds (stmtsTokens m.statements)) :
    (∀ d, RefersTo (stmtsTokens m.statements) v d → s.definitions v = [d]) ∧
      ((¬ ∃ d, RefersTo (stmtsTokens m.statements) v d) → s.definitions v = []) := by
  obtain ⟨s', u, h', hi, hd, -⟩ := identifyModule_spec m hnd
  rw [h] at h'
  cases h'
  rw [hd]
  generalize stmtsTokens m.statements = ts at *
  obtain ⟨n, hn⟩ := (mem_useIds _ _).1 hv
  obtain ⟨p, c, rfl⟩ := List.append_of_mem hn
  have hsplit : ∀ (q e : List Token) (k : Str), p ++ .use n v :: c = q ++ .use k v :: e → p = q ∧ n = k := by
    intro q e k hq
    obtain ⟨h1, h2, -⟩ := split_unique hq rfl rfl hnd
    exact ⟨h1, (Token.use.inj h2).1⟩
  have hdn : (defineIds (p ++ .use n v :: c)).filter (fun x => decide (x = v)) = [] := by
    rw [List.filter_eq_nil_iff]
    intro x hx
    simp only [decide_eq_true_eq]
    rintro rfl
    obtain ⟨k, hk⟩ := (mem_defineIds _ _).1 hx
    obtain ⟨q, e, hq⟩ := List.append_of_mem hk
    obtain ⟨-, h2, -⟩ := split_unique hq rfl rfl hnd
    cases h2
  have hl : (links [] (p ++ .use n v :: c)).filter (fun x => decide (x.1 = v)) =
      ((visibleDef n p.reverse 0).map (fun d => (v, d))).toList := by
    have h1 : tokenIds (p ++ .use n v :: c) = tokenIds p ++ v :: tokenIds c := by
      rw [tokenIds_append]; rfl
    rw [h1, List.nodup_append] at hnd
    rw [links_append, List.append_nil, links, List.filter_append, List.filter_append]
    have e1 : (links [] p).filter (fun x => decide (x.1 = v)) = [] :=
      (no_links p v fun h => hnd.2.2 v h v (by simp) rfl).1
    have e2 : (links (.use n v :: p.reverse) c).filter (fun x => decide (x.1 = v)) = [] := by
      rw [List.filter_eq_nil_iff]
      rintro ⟨a, b⟩ hab
      obtain ⟨k, q, e, rfl, -⟩ := links_mem _ _ _ _ hab
      simp only [decide_eq_true_eq]
      rintro rfl
      exact (List.nodup_cons.1 hnd.2.1).1 ((mem_tokenIds _ _).2 (.inl ⟨k, by simp⟩))
    rw [e1, e2, List.append_nil, List.nil_append]
    cases visibleDef n p.reverse 0 <;> simp
  rw [hi.definitions, hdn, hl, List.nil_append]
  constructor
  · intro d hr
    rw [refersTo_iff _ hnd] at hr
    obtain ⟨k, q, e, hq, hvd⟩ := links_mem _ _ _ _ hr
    obtain ⟨rfl, rfl⟩ := hsplit _ _ _ hq
    rw [List.append_nil] at hvd
    rw [hvd]
    rfl
  · intro hr
    cases hvd : visibleDef n p.reverse 0 with
    | none => rfl
    | some d => exact absurd ⟨d, (refersTo_iff _ hnd _ _).2 (mem_links n p c v d hvd)⟩ hr

/-- The uses of a definition are those that refer to it, each once, in lexical order. -/
theorem C56_uses (m : Module) (s : IdentifyState) (h : identifyModule m = some s)
    (hnd : (tokenIds (stmtsTokens m.statements)).Nodup) (d : Vid) :
    (∀ v, v ∈ s.uses d ↔ RefersTo (stmtsTokens m.statements) v d) ∧
      (s.uses d).Sublist (useIds (stmtsTokens m.statements)) := by
  obtain ⟨s', u, h', hi, -, hu⟩ := identifyModule_spec m hnd
  rw [h] at h'
  cases h'
  rw [hu, hi.uses]
  constructor
  · intro v
    rw [refersTo_iff _ hnd]
    simp
  · have key : ∀ ts r, ((links r ts).map (·.1)).Sublist (useIds ts) := by
      intro ts
      induction ts with
      | nil => intro r; exact .slnil
      | cons t ts ih =>
        intro r
        cases t with
        | use n v =>
          rw [links, List.map_append]
          have h1 : useIds (Token.use n v :: ts) = [v] ++ useIds ts := rfl
          rw [h1]
          refine List.Sublist.append ?_ (ih _)
          cases visibleDef n r 0 <;> simp
        | define n v => exact ih _
        | «begin» => exact ih _
        | finish => exact ih _
    exact ((List.filter_sublist).map _).trans (key _ _)

/-- A definition is its own only definition. -/
theorem C56_define (m : Module) (s : IdentifyState) (h : identifyModule m = some s)
    (hnd : (tokenIds (stmtsTokens m.statements)).Nodup) (d : Vid)
    (hd : d ∈ defineIds (stmtsTokens m.statements)) : s.definitions d = [d] := by
  obtain ⟨s', u, h', hi, hd', -⟩ := identifyModule_spec m hnd
  rw [h] at h'
  cases h'
  rw [hd']
  exact define_definitions hi hnd d hd

/-- There is a definition that a use refers to as soon as one precedes it whose block is open. -/
theorem C56_exists (a b c : List Token) (n : Str) (v d : Vid) (hb : StillOpen b)
    (hnd : (tokenIds (a ++ .define n d :: (b ++ .use n v :: c))).Nodup) :
    ∃ d', RefersTo (a ++ .define n d :: (b ++ .use n v :: c)) v d' := by
  induction hl : b.length using Nat.strong_induction_on generalizing a b d with
  | _ k ih =>
    by_cases h : ∃ b1 d' b2, b = b1 ++ .define n d' :: b2 ∧ StillOpen b2
    · obtain ⟨b1, d', b2, rfl, h2⟩ := h
      have e : a ++ .define n d :: (b1 ++ .define n d' :: b2 ++ .use n v :: c) =
          (a ++ .define n d :: b1) ++ .define n d' :: (b2 ++ .use n v :: c) := by simp
      rw [e] at hnd ⊢
      exact ih b2.length (by rw [← hl]; simp; omega) _ b2 d' h2 hnd rfl
    · exact ⟨d, n, a, b, c, rfl, hb, fun b1 d' b2 e ho => h ⟨b1, d', b2, e, ho⟩⟩

/-- There is at most one. -/
theorem C56_unique (ts : List Token) (hnd : (tokenIds ts).Nodup) (v d d' : Vid)
    (h : RefersTo ts v d) (h' : RefersTo ts v d') : d = d' := by
  rw [refersTo_iff _ hnd] at h h'
  obtain ⟨n, p, c, rfl, hv⟩ := links_mem _ _ _ _ h
  obtain ⟨n', p', c', he, hv'⟩ := links_mem _ _ _ _ h'
  obtain ⟨rfl, h2, -⟩ := split_unique he rfl rfl hnd
  cases h2
  rw [hv] at hv'
  exact Option.some.inj hv'

theorem occurs_tokens {s : Stmt} {l : List Stmt} (h : Occurs s l) :
    ∃ a b, stmtsTokens l = a ++ stmtTokens s ++ b := by
  have mem : ∀ {t : Stmt} {l : List Stmt}, t ∈ l → ∃ a b, stmtsTokens l = a ++ stmtTokens t ++ b := by
    intro t l ht
    induction l with
    | nil => cases ht
    | cons x l ih =>
      rw [stmtsTokens]
      rcases List.mem_cons.1 ht with rfl | ht
      · exact ⟨[], stmtsTokens l, by simp⟩
      · obtain ⟨a, b, e⟩ := ih ht
        exact ⟨stmtTokens x ++ a, b, by rw [e]; simp⟩
  induction h with
  | here h => exact mem h
  | @ifTrue v sv c tv ts t fv fs f l h _ ih =>
    obtain ⟨a, b, e⟩ := mem h
    obtain ⟨a', b', e'⟩ := ih
    rw [e, stmtTokens, e']
    exact ⟨a ++ exprTokens c ++ [.begin] ++ a', b' ++ [.finish] ++
      ([.begin] ++ stmtsTokens f ++ [.finish]) ++ b, by simp⟩
  | @ifFalse v sv c tv ts t fv fs f l h _ ih =>
    obtain ⟨a, b, e⟩ := mem h
    obtain ⟨a', b', e'⟩ := ih
    rw [e, stmtTokens, e']
    exact ⟨a ++ exprTokens c ++ ([.begin] ++ stmtsTokens t ++ [.finish]) ++ [.begin] ++ a',
      b' ++ [.finish] ++ b, by simp⟩
  | @whileTrue v sv c tv ts t fv fs f l h _ ih =>
    obtain ⟨a, b, e⟩ := mem h
    obtain ⟨a', b', e'⟩ := ih
    rw [e, stmtTokens, e']
    exact ⟨a ++ exprTokens c ++ [.begin] ++ a', b' ++ [.finish] ++
      ([.begin] ++ stmtsTokens f ++ [.finish]) ++ b, by simp⟩
  | @whileFalse v sv c tv ts t fv fs f l h _ ih =>
    obtain ⟨a, b, e⟩ := mem h
    obtain ⟨a', b', e'⟩ := ih
    rw [e, stmtTokens, e']
    exact ⟨a ++ exprTokens c ++ ([.begin] ++ stmtsTokens t ++ [.finish]) ++ [.begin] ++ a',
      b' ++ [.finish] ++ b, by simp⟩
  | @body v n args bv bs bd l h _ ih =>
    obtain ⟨a, b, e⟩ := mem h
    obtain ⟨a', b', e'⟩ := ih
    rw [e, stmtTokens, e']
    exact ⟨a ++ exprsTokens args ++ a', b' ++ b, by simp⟩

/-- A use in the right hand side of an assignment is not linked to the assignment's target. -/
theorem C56_not_self (m : Module) (s : IdentifyState) (h : identifyModule m = some s)
    (hnd : (tokenIds (stmtsTokens m.statements)).Nodup) (w d : Vid) (n : Str) (e : Expr)
    (ho : Occurs (.assign w d n e) m.statements) (v : Vid) (hv : v ∈ useIds (exprTokens e)) :
    d ∉ s.definitions v ∧ v ∉ s.uses d := by
  have key : ¬ RefersTo (stmtsTokens m.statements) v d := by
    obtain ⟨a, b, he⟩ := occurs_tokens ho
    rw [stmtTokens] at he
    obtain ⟨k, hk⟩ := (mem_useIds _ _).1 hv
    obtain ⟨p, q, hp⟩ := List.append_of_mem hk
    rintro ⟨n', a', b', c', h1, -⟩
    rw [he, hp] at h1 hnd
    have e1 : a ++ (p ++ .use k v :: q ++ [.define n d]) ++ b =
        (a ++ p) ++ .use k v :: (q ++ .define n d :: b) := by simp
    rw [e1] at h1 hnd
    have e2 : a' ++ .define n' d :: (b' ++ .use n' v :: c') =
        (a' ++ .define n' d :: b') ++ .use n' v :: c' := by simp
    rw [e2] at h1
    obtain ⟨h2, -, -⟩ := split_unique h1 rfl rfl hnd
    rw [h2] at hnd
    have e3 : (a' ++ .define n' d :: b') ++ .use k v :: (q ++ .define n d :: b) =
        a' ++ .define n' d :: (b' ++ .use k v :: (q ++ .define n d :: b)) := by simp
    rw [e3] at hnd
    have h3 : (tokenIds (.define n' d :: (b' ++ .use k v :: (q ++ .define n d :: b)))).Nodup := by
      rw [tokenIds_append] at hnd
      exact (List.nodup_append.1 hnd).2.1
    have h4 := (List.nodup_cons.1 (show (d :: tokenIds
      (b' ++ .use k v :: (q ++ .define n d :: b))).Nodup from h3)).1
    exact h4 ((mem_tokenIds _ _).2 (.inr ⟨n, by simp⟩))
  have hu := (C56_uses m s h hnd d).1 v
  refine ⟨fun hd => key ?_, fun hd => key (hu.1 hd)⟩
  have hvu : v ∈ useIds (stmtsTokens m.statements) := by
    obtain ⟨a, b, he⟩ := occurs_tokens ho
    rw [he, stmtTokens, useIds_append, useIds_append, useIds_append]
    simp [hv]
  obtain ⟨h1, h2⟩ := C56_definitions m s h hnd v hvu
  by_cases hex : ∃ d', RefersTo (stmtsTokens m.statements) v d'
  · obtain ⟨d', hd'⟩ := hex
    rw [h1 d' hd'] at hd
    simp at hd
    rwa [hd]
  · rw [h2 hex] at hd
    simp at hd

/-- `a = 1; if a: a = a; b = a; end; c = a`: inside the block the use in `b = a` is linked to the
definition in the block, after it the use is linked to the outer definition. -/
def identifyExample : Module :=
  { v := 0, scope := 1, sentinel := 2
    statements :=
      [.assign 3 4 "a".toList (.number 5 (.int .i32 1)),
       .ifElse 6 7 (.name 8 "a".toList) 9 10
         [.assign 11 12 "a".toList (.name 13 "a".toList), .assign 14 15 "b".toList (.name 16 "a".toList)]
         17 18 [],
       .assign 19 20 "c".toList (.operator 21 "add".toList [.name 22 "a".toList, .name 23 "b".toList])] }

example : (tokenIds (stmtsTokens identifyExample.statements)).Nodup := by
  simp [identifyExample, stmtsTokens, stmtTokens, exprTokens, exprsTokens, tokenIds]

example : ∃ s, identifyModule identifyExample = some s ∧ s.definitions 8 = [4] ∧
    s.definitions 13 = [4] ∧ s.definitions 16 = [12] ∧ s.definitions 22 = [4] ∧
    s.definitions 23 = [] ∧ s.uses 4 = [8, 13, 22] ∧ s.uses 12 = [16] :=
  ⟨_, rfl, rfl, rfl, rfl, rfl, rfl, rfl, rfl⟩

end Fern
