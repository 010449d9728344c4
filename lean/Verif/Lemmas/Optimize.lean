import Verif.Lemmas.OptimizeLinks
import Verif.Props.Execute
import Mathlib.Data.List.Nodup

/-!
# What the optimizer makes of straight-line modules
-/

namespace Fern

open Spec

/-- The conditions under which the optimizer works. -/
structure Optimizable (c : OptimizeContext) (l : List Stmt) : Prop where
  simple : Simple l
  distinct : Distinct l
  whole : UsedWhole l
  noChain : NoChain l
  knows : LinksKnown c l

theorem filterMap_nodup_inj {α β : Type} {f : α → Option β} {l : List α} (h : (l.filterMap f).Nodup) {a b : α}
    {x : β} (ha : a ∈ l) (hb : b ∈ l) (hfa : f a = some x) (hfb : f b = some x) : a = b := by
  induction l with
  | nil => cases ha
  | cons y l ih =>
    rcases List.mem_cons.1 ha with rfl | ha
    · rcases List.mem_cons.1 hb with rfl | hb
      · rfl
      · rw [List.filterMap_cons_some hfa, List.nodup_cons] at h
        exact absurd (List.mem_filterMap.2 ⟨b, hb, hfb⟩) h.1
    · rcases List.mem_cons.1 hb with hb | hb
      · rw [← hb, List.filterMap_cons_some hfb, List.nodup_cons] at h
        exact absurd (List.mem_filterMap.2 ⟨a, ha, hfa⟩) h.1
      · refine ih ?_ ha hb
        rw [List.filterMap_cons] at h
        split at h
        · exact h
        · exact (List.nodup_cons.1 h).2

namespace Optimizable

variable {c : OptimizeContext} {l : List Stmt}

theorem same_assign (h : Optimizable c l) {v t v' t' : Vid} {n n' : Str} {e e' : Expr}
    (h1 : Stmt.assign v t n e ∈ l) (h2 : Stmt.assign v' t' n' e' ∈ l) (he : e.vid = e'.vid) :
    Stmt.assign v t n e = Stmt.assign v' t' n' e' :=
  filterMap_nodup_inj (x := e.vid) h.distinct.expressions h1 h2 rfl (by rw [he])

theorem use_mem (_ : Optimizable c l) {x : Stmt} {e : Expr} (hx : x ∈ l) (he : stmtExpr x = some e) {u : Vid}
    (hu : u ∈ useIds (exprTokens e)) : u ∈ useIds (stmtsTokens l) := by
  obtain ⟨a, b, rfl⟩ := List.append_of_mem hx
  obtain ⟨r, hr⟩ := stmtTokens_split he
  rw [stmtsTokens_append', stmtsTokens, hr]
  simp only [useIds_append, List.mem_append]
  exact .inr (.inl (.inl hu))

theorem expr_plain (h : Optimizable c l) {e : Expr} (hx : Stmt.expr e ∈ l) : Plain c e := by
  intro u hu
  have hm := h.use_mem hx rfl hu
  exact ⟨h.knows.linked h.simple h.distinct.names hm,
    h.knows.inlineOf_none h.simple h.distinct.names hm (h.whole.expr e hx u hu)⟩

theorem assign_plain (h : Optimizable c l) {v t : Vid} {n : Str} {e : Expr} (hx : Stmt.assign v t n e ∈ l)
    (hn : ∀ u k d, e = .name u k → ¬ OnlyUse (stmtsTokens l) u d) : Plain c e := by
  intro u hu
  have hm := h.use_mem hx rfl hu
  refine ⟨h.knows.linked h.simple h.distinct.names hm,
    h.knows.inlineOf_none h.simple h.distinct.names hm fun d ho => ?_⟩
  obtain ⟨k, rfl⟩ := h.whole.assign v t n e hx u hu d ho
  exact hn u k d rfl ho

/-- The defining expression of a name that is used once has no names used once in it. -/
theorem removed_plain (h : Optimizable c l) {v t : Vid} {n : Str} {e : Expr} (hx : Stmt.assign v t n e ∈ l)
    (hr : UsedOnce (stmtsTokens l) t) : Plain c e :=
  h.assign_plain hx fun u k d he => by subst he; exact h.noChain v t n u k hx hr d

theorem name_use {u : Vid} {k : Str} : u ∈ useIds (exprTokens (.name u k)) := by
  rw [exprTokens]; simp [useIds]

theorem clean (h : Optimizable c l) : ∀ t ∈ l, Clean c t := by
  intro x hx
  rcases h.simple x hx with ⟨e, rfl⟩ | ⟨v, t, n, e, rfl⟩
  · exact h.expr_plain hx
  · by_cases hn : ∃ u k d, e = .name u k ∧ OnlyUse (stmtsTokens l) u d
    · obtain ⟨u, k, d, rfl, ho⟩ := hn
      have hm := h.use_mem hx rfl (name_use (u := u) (k := k))
      obtain ⟨x, hx⟩ := h.knows.inlineOf_only h.simple h.distinct.names ho
      exact .inr ⟨u, k, x, rfl, h.knows.linked h.simple h.distinct.names hm, hx⟩
    · exact .inl (h.assign_plain hx fun u k d he ho => hn ⟨u, k, d, he, ho⟩)

theorem inlinedBy_some {x : Stmt} {y : Expr} (h : inlinedBy c x = some y) :
    ∃ v t n u k, x = .assign v t n (.name u k) ∧ inlineOf c u = some y := by
  cases x with
  | assign v t n e =>
    cases e with
    | name u k => exact ⟨v, t, n, u, k, rfl, h⟩
    | _ => cases h
  | _ => cases h

theorem removedExpr_some {x : Stmt} {y : Expr} (h : removedExpr c x = some y) :
    ∃ v t n, x = .assign v t n y ∧ c.removed t = true := by
  cases x with
  | assign v t n e =>
    rw [removedExpr] at h
    split at h
    · rename_i hr
      cases h; exact ⟨v, t, n, rfl, hr⟩
    · cases h
  | _ => cases h

theorem perm (h : Optimizable c l) :
    (l.filterMap (inlinedBy c)).Perm (l.filterMap (removedExpr c)) := by
  have hl : l.Nodup := List.Nodup.of_map _ h.distinct.statements
  rw [List.perm_ext_iff_of_nodup]
  · intro x
    rw [List.mem_filterMap, List.mem_filterMap]
    constructor
    · rintro ⟨y, hy, hx⟩
      obtain ⟨v, t, n, u, k, rfl, hi⟩ := inlinedBy_some hx
      obtain ⟨v', d, n', hm, ho⟩ := (h.knows.inlineOf_iff h.simple h.distinct.names
        (h.use_mem hy rfl name_use) x).1 hi
      refine ⟨_, hm, ?_⟩
      rw [removedExpr, if_pos ((h.knows.removed_iff d).2 ⟨u, ho⟩)]
    · rintro ⟨y, hy, hx⟩
      obtain ⟨v, t, n, rfl, hr⟩ := removedExpr_some hx
      obtain ⟨u, ho⟩ := (h.knows.removed_iff t).1 hr
      have hu := refersTo_use ho.1
      obtain ⟨k, hk⟩ := (mem_useIds _ _).1 hu
      rcases mem_simple_tokens h.simple hk with ⟨_, _, hkk, z, hz, e, he, hin⟩ | ⟨_, _, _, _, h', _⟩
      · have huin : u ∈ useIds (exprTokens e) := (mem_useIds _ _).2 ⟨k, hin⟩
        rcases h.simple z hz with ⟨e', rfl⟩ | ⟨v', t', n', e', rfl⟩
        · cases he
          exact absurd ho (h.whole.expr e hz u huin t)
        · cases he
          obtain ⟨k', rfl⟩ := h.whole.assign v' t' n' e hz u huin t ho
          exact ⟨_, hz, (h.knows.inlineOf_iff h.simple h.distinct.names hu x).2 ⟨v, t, n, hy, ho⟩⟩
      · cases h'
  · rw [List.Nodup, List.pairwise_filterMap]
    refine List.Pairwise.imp_of_mem ?_ hl
    intro a b ha hb hab x hx y hy
    rintro rfl
    apply hab
    obtain ⟨v, t, n, u, k, rfl, hi⟩ := inlinedBy_some hx
    obtain ⟨v', t', n', u', k', rfl, hi'⟩ := inlinedBy_some hy
    obtain ⟨w, d, m, hm, ho⟩ := (h.knows.inlineOf_iff h.simple h.distinct.names
      (h.use_mem ha rfl name_use) x).1 hi
    obtain ⟨w', d', m', hm', ho'⟩ := (h.knows.inlineOf_iff h.simple h.distinct.names
      (h.use_mem hb rfl name_use) x).1 hi'
    have := h.same_assign hm hm' rfl
    cases this
    have := ho.2 u' ho'.1
    subst this
    exact h.same_assign ha hb rfl
  · rw [List.Nodup, List.pairwise_filterMap]
    refine List.Pairwise.imp_of_mem ?_ hl
    intro a b ha hb hab x hx y hy
    rintro rfl
    apply hab
    obtain ⟨v, t, n, rfl, _⟩ := removedExpr_some hx
    obtain ⟨v', t', n', rfl, _⟩ := removedExpr_some hy
    exact h.same_assign ha hb rfl

/-- A definition does not follow the uses that refer to it. -/
theorem not_after (hnd : (tokenIds (stmtsTokens l)).Nodup) {a b : List Stmt}
    {v t : Vid} {n : Str} {u : Vid} {k : Str} (hl : l = a ++ .assign v t n (.name u k) :: b)
    {v' d : Vid} {n' : Str} {e : Expr} (hm : Stmt.assign v' d n' e ∈ b) :
    ¬ RefersTo (stmtsTokens l) u d := by
  rintro ⟨m, a', b', c', heq, -, -⟩
  have hT : stmtsTokens l = stmtsTokens a ++ .use k u :: (.define n t :: stmtsTokens b) := by
    rw [hl, stmtsTokens_append', stmtsTokens, stmtTokens, exprTokens]
    rfl
  rw [hT] at heq hnd
  have heq' : stmtsTokens a ++ .use k u :: (.define n t :: stmtsTokens b) =
      (a' ++ .define m d :: b') ++ .use m u :: c' := by rw [heq]; simp
  obtain ⟨ha, -, -⟩ := split_unique heq' rfl rfl hnd
  have h1 : d ∈ tokenIds (stmtsTokens a) := (mem_tokenIds _ _).2 (.inr ⟨m, by rw [ha]; simp⟩)
  have h2 : d ∈ tokenIds (.use k u :: (.define n t :: stmtsTokens b)) :=
    (mem_tokenIds _ _).2 (.inr ⟨n', by
      have := assign_tokens hm
      simp [this]⟩)
  rw [tokenIds_append] at hnd
  exact (List.nodup_append.1 hnd).2.2 d h1 d h2 rfl

theorem findable (h : Optimizable c l) : Findable c l := by
  have key : ∀ b a, l = a ++ b → Findable c b := by
    intro b
    induction b with
    | nil => intro a _; trivial
    | cons x b ih =>
      intro a hab
      have hb := ih (a ++ [x]) (by rw [hab]; simp)
      have hx : x ∈ l := by rw [hab]; simp
      rcases h.simple x hx with ⟨e, rfl⟩ | ⟨v, t, n, e, rfl⟩
      · exact hb
      · refine ⟨fun hr => replaceOf_plain (h.removed_plain hx ((h.knows.removed_iff t).1 hr)), ?_, hb⟩
        intro y hy hvid
        obtain ⟨z, hz, hzy⟩ := List.mem_filterMap.1 hy
        obtain ⟨v', t', n', rfl, hr'⟩ := removedExpr_some hzy
        have hz' : Stmt.assign v' t' n' y ∈ l := by rw [hab]; simp [hz]
        have hcl := h.clean _ hx
        rcases hcl with hp | ⟨u, k, w, rfl, -, hi⟩
        · rw [replaceOf_plain hp] at hvid
          have hnd := h.distinct.expressions
          have e1 : assignedIds l = assignedIds a ++ e.vid :: assignedIds b := by
            rw [hab, assignedIds, List.filterMap_append, List.filterMap_cons]
            rfl
          rw [e1, List.nodup_append] at hnd
          refine (List.nodup_cons.1 hnd.2.1).1 ?_
          rw [← hvid]
          exact List.mem_filterMap.2 ⟨_, hz, rfl⟩
        · rw [replaceOf, hi, Option.getD_some] at hvid
          obtain ⟨v2, d, n2, hm, ho⟩ := (h.knows.inlineOf_iff h.simple h.distinct.names
            (h.use_mem hx rfl name_use) w).1 hi
          have := h.same_assign hz' hm hvid
          cases this
          exact not_after h.distinct.names hab hz ho.1
  exact key l [] rfl

theorem optimized_plain (h : Optimizable c l) : ∀ t ∈ l.filterMap (optimizedStmt c), PlainStmt c t := by
  intro y hy
  obtain ⟨x, hx, hxy⟩ := List.mem_filterMap.1 hy
  rcases h.simple x hx with ⟨e, rfl⟩ | ⟨v, t, n, e, rfl⟩
  · cases hxy
    exact h.expr_plain hx
  · rw [optimizedStmt] at hxy
    split at hxy
    · cases hxy
    · cases hxy
      rcases h.clean _ hx with hp | ⟨u, k, w, rfl, -, hi⟩
      · rw [replaceOf_plain hp]; exact hp
      · rw [replaceOf, hi, Option.getD_some]
        obtain ⟨v2, d, n2, hm, ho⟩ := (h.knows.inlineOf_iff h.simple h.distinct.names
          (h.use_mem hx rfl name_use) w).1 hi
        exact h.removed_plain hm ⟨u, ho⟩

theorem rounds (h : Optimizable c l) (k : Nat) (hk : Stmt.counts l < k) :
    optimizeRounds c k l = some (l.filterMap (optimizedStmt c)) := by
  have h1 := optimizeRound_clean l h.clean h.distinct.statements h.findable h.perm
  have h2 := optimizeRound_plain _ h.optimized_plain
  obtain ⟨k, rfl⟩ : ∃ j, k = j + 1 := ⟨k - 1, by omega⟩
  rw [optimizeRounds, h1]
  cases hi : (l.filterMap (inlinedBy c)).isEmpty with
  | true => rfl
  | false =>
    simp only [Bool.not_false]
    have : 0 < Stmt.counts l := by
      cases l with
      | nil => simp at hi
      | cons t l => rw [Stmt.counts]; have := t.count_pos; omega
    obtain ⟨k, rfl⟩ : ∃ j, k = j + 1 := ⟨k - 1, by omega⟩
    rw [optimizeRounds, h2]

end Optimizable

/-! ### The values of names -/

variable {V : Type}

mutual

theorem evalExpr_names (cx : ExecuteContext V) (env env' : Str → Option V) (e : Expr)
    (h : ∀ m ∈ usedNames (exprTokens e), env m = env' m) : evalExpr cx env e = evalExpr cx env' e := by
  cases e with
  | name v n => rw [evalExpr, evalExpr]; exact h n (by rw [exprTokens]; simp [usedNames])
  | number v n => rw [evalExpr, evalExpr]
  | string v s => rw [evalExpr, evalExpr]
  | call v n args => rw [exprTokens] at h; rw [evalExpr, evalExpr, evalExprs_names cx env env' args h]
  | operator v n args => rw [exprTokens] at h; rw [evalExpr, evalExpr, evalExprs_names cx env env' args h]
  | subscript v e i => rw [evalExpr, evalExpr]
  | «attribute» v e m => rw [exprTokens] at h; rw [evalExpr, evalExpr, evalExpr_names cx env env' e h]

theorem evalExprs_names (cx : ExecuteContext V) (env env' : Str → Option V) (es : List Expr)
    (h : ∀ m ∈ usedNames (exprsTokens es), env m = env' m) :
    evalExprs cx env es = evalExprs cx env' es := by
  cases es with
  | nil => rw [evalExprs, evalExprs]
  | cons e es =>
    rw [exprsTokens, usedNames_append] at h
    rw [evalExprs, evalExprs, evalExpr_names cx env env' e fun m hm => h m (List.mem_append_left _ hm),
      evalExprs_names cx env env' es fun m hm => h m (List.mem_append_right _ hm)]

end

theorem use_unique {ts : List Token} (hnd : (tokenIds ts).Nodup) {n k : Str} {u : Vid}
    (h1 : Token.use n u ∈ ts) (h2 : Token.use k u ∈ ts) : n = k := by
  obtain ⟨a, b, rfl⟩ := List.append_of_mem h1
  obtain ⟨a', b', h⟩ := List.append_of_mem h2
  obtain ⟨-, h3, -⟩ := split_unique h rfl rfl hnd
  cases h3
  rfl

theorem assigned_eq_targets (l : List Stmt) : assigned l = targets l := by
  induction l with
  | nil => rfl
  | cons x l ih => cases x <;> simp [assigned, targets, ih]

theorem mem_usedNames {ts : List Token} {m : Str} : m ∈ usedNames ts ↔ ∃ u, Token.use m u ∈ ts := by
  rw [usedNames, List.mem_filterMap]
  constructor
  · rintro ⟨t, ht, h⟩
    cases t with
    | use n v => cases h; exact ⟨v, ht⟩
    | _ => cases h
  · rintro ⟨u, hu⟩; exact ⟨_, hu, rfl⟩

/-- The values after the statements `a` in the module and in the optimized module. -/
structure Agrees (cx : ExecuteContext V) (l a b : List Stmt) (env env' : Str → Option V) : Prop where
  agree : ∀ k, env k = env' k ∨ ∃ a1 v t e a2, a = a1 ++ .assign v t k e :: a2 ∧ k ∉ targets a2 ∧
    UsedOnce (stmtsTokens l) t
  pending : ∀ a1 v t n e a2 u, a = a1 ++ .assign v t n e :: a2 → OnlyUse (stmtsTokens l) u t →
    u ∈ useIds (stmtsTokens b) → evalExpr cx env' e = env n

/-- The outcomes agree on the names that remain. -/
def SameOutcome (l : List Stmt) : Option ((Str → Option V) × List V) →
    Option ((Str → Option V) × List V) → Prop
  | some r, some r' => r.2 = r'.2 ∧ ∀ n, Remains l n → r.1 n = r'.1 n
  | none, none => True
  | _, _ => False

namespace Optimizable

variable {c : OptimizeContext} {l : List Stmt}

theorem names_agree (h : Optimizable c l) {cx : ExecuteContext V} {a b : List Stmt} {x : Stmt} {e : Expr}
    {env env' : Str → Option V} (hl : l = a ++ x :: b) (hx : stmtExpr x = some e) (hp : Plain c e)
    (hi : Agrees cx l a (x :: b) env env') : ∀ m ∈ usedNames (exprTokens e), env m = env' m := by
  intro m hm
  rcases hi.agree m with h1 | ⟨a1, v, t, e', a2, ha, hn, w, ho⟩
  · exact h1
  exfalso
  obtain ⟨u, hu⟩ := mem_usedNames.1 hm
  have hl' : l = a1 ++ .assign v t m e' :: (a2 ++ x :: b) := by rw [hl, ha]; simp
  have hr : RefersTo (stmtsTokens l) u t := by
    have hs := h.simple
    rw [hl'] at hs ⊢
    exact refersTo_last hs hn hx hu
  have := ho.2 u hr
  subst this
  obtain ⟨y, hy⟩ := h.knows.inlineOf_only h.simple h.distinct.names ho
  rw [(hp u ((mem_useIds _ _).2 ⟨m, hu⟩)).2] at hy
  cases hy

theorem snoc_eq {α : Type} {a a1 a2 : List α} {x y : α} (h : a ++ [x] = a1 ++ y :: a2) :
    (a2 = [] ∧ a = a1 ∧ x = y) ∨ ∃ a2', a2 = a2' ++ [x] ∧ a = a1 ++ y :: a2' := by
  rcases List.eq_nil_or_concat a2 with rfl | ⟨a2', z, rfl⟩
  · obtain ⟨h1, h2⟩ := List.append_inj' h rfl
    exact .inl ⟨rfl, h1, by simpa using h2⟩
  · rw [List.concat_eq_append] at h
    have : a ++ [x] = (a1 ++ y :: a2') ++ [z] := by rw [h]; simp
    obtain ⟨h1, h2⟩ := List.append_inj' this rfl
    have : x = z := by simpa using h2
    subst this
    exact .inr ⟨a2', by simp, h1⟩

theorem optimized_targets {p : List Stmt} {m : Str} (hm : m ∈ targets (p.filterMap (optimizedStmt c))) :
    m ∈ targets p := by
  obtain ⟨v, t, e, h⟩ := mem_targets.1 hm
  obtain ⟨x, hx, hy⟩ := List.mem_filterMap.1 h
  cases x with
  | assign v' t' n' e' =>
    rw [optimizedStmt] at hy
    split at hy
    · cases hy
    · cases hy
      exact mem_targets.2 ⟨_, _, _, hx⟩
  | _ => cases hy

/-- The statement of the only use of a definition. -/
theorem use_statement (h : Optimizable c l) {b : List Stmt} (hb : ∀ x ∈ b, x ∈ l) {u t : Vid}
    (ho : OnlyUse (stmtsTokens l) u t) {n : Str} (hu : Token.use n u ∈ stmtsTokens b) :
    ∃ p q v' t' n' k, b = p ++ .assign v' t' n' (.name u k) :: q := by
  rcases mem_simple_tokens (l := b) (fun x hx => h.simple x (hb x hx)) hu with
    ⟨_, _, hkk, z, hz, ez, hez, hin⟩ | ⟨_, _, _, _, h', _⟩
  · have hzl : z ∈ l := hb z hz
    have huin : u ∈ useIds (exprTokens ez) := (mem_useIds _ _).2 ⟨n, hin⟩
    rcases h.simple z hzl with ⟨e', rfl⟩ | ⟨v', t', n', e', rfl⟩
    · cases hez
      exact absurd ho (h.whole.expr ez hzl u huin t)
    · cases hez
      obtain ⟨k', rfl⟩ := h.whole.assign v' t' n' ez hzl u huin t ho
      obtain ⟨p, q, hpq⟩ := List.append_of_mem hz
      exact ⟨p, q, v', t', n', k', hpq⟩
  · cases h'

theorem evalStmts_prefix_none {cx : ExecuteContext V} {env : Str → Option V} {p q : List Stmt} {v t : Vid}
    {n : Str} {e : Expr} (hn : ∀ m ∈ usedNames (exprTokens e), m ∉ targets p)
    (he : evalExpr cx env e = none) : evalStmts cx env (p ++ .assign v t n e :: q) = none := by
  rw [evalStmts_append]
  cases hp : evalStmts cx env p with
  | none => rfl
  | some r =>
    have : evalExpr cx r.1 e = none := by
      rw [← he]
      exact evalExpr_names cx _ _ e fun m hm =>
        evalStmts_unassigned hp (by rw [assigned_eq_targets]; exact hn m hm)
    rw [Option.bind_some, evalStmts, this]
    rfl

theorem simulate (h : Optimizable c l) (hna : NotReassigned l) (cx : ExecuteContext V) :
    ∀ b a env env', l = a ++ b → Agrees cx l a b env env' →
      SameOutcome l (evalStmts cx env b) (evalStmts cx env' (b.filterMap (optimizedStmt c))) := by
  intro b
  induction b with
  | nil =>
    intro a env env' hl hi
    rw [List.filterMap_nil, evalStmts, evalStmts]
    refine ⟨rfl, fun n hn => ?_⟩
    rcases hi.agree n with h1 | ⟨a1, v, t, e, a2, ha, hn2, ho⟩
    · exact h1
    · exact absurd ho (hn a1 v t e a2 (by rw [hl, List.append_nil, ha]) hn2)
  | cons x b ih =>
    intro a env env' hl hi
    have hx : x ∈ l := by rw [hl]; simp
    have hl' : l = (a ++ [x]) ++ b := by rw [hl]; simp
    have hsub : ∀ u ∈ useIds (stmtsTokens b), u ∈ useIds (stmtsTokens (x :: b)) := by
      intro u hu
      rw [stmtsTokens, useIds_append]
      exact List.mem_append_right _ hu
    -- an assignment behind a pending definition assigns neither the name nor those in its expression
    have hpend : ∀ a1 v t n e a2 u, a = a1 ++ .assign v t n e :: a2 → OnlyUse (stmtsTokens l) u t →
        u ∈ useIds (stmtsTokens b) → n ∉ targets [x] ∧ ∀ m ∈ usedNames (exprTokens e), m ∉ targets [x] := by
      intro a1 v t n e a2 u ha ho hu
      have e1 : l = a1 ++ .assign v t n e :: ((a2 ++ [x]) ++ b) := by rw [hl, ha]; simp
      have hs := h.simple
      have hnd := h.distinct.names
      have hr := ho.1
      rw [e1] at hs hnd hr
      obtain ⟨h1, h2⟩ := refersTo_between hs hnd hr hu
      rw [targets_append, List.mem_append, not_or] at h1
      refine ⟨h1.2, fun m hm => ?_⟩
      -- the statement of the use
      obtain ⟨p, q, v', t', n', k, hb⟩ := h.use_statement
        (fun z hz => by rw [hl']; exact List.mem_append_right _ hz) ho h2
      have e2 : l = a1 ++ .assign v t n e :: ((a2 ++ [x] ++ p) ++ .assign v' t' n' (.name u k) :: q) := by
        rw [e1, hb]; simp
      have := hna a1 v t n e (a2 ++ [x] ++ p) v' t' n' u k q e2 ho m hm
      rw [targets_append, targets_append, List.mem_append, List.mem_append, not_or, not_or] at this
      exact this.1.2
    rcases h.simple x hx with ⟨e, rfl⟩ | ⟨v, t, n, e, rfl⟩
    · have hpl := h.expr_plain hx
      have he := evalExpr_names cx env env' e (h.names_agree hl rfl hpl hi)
      rw [List.filterMap_cons_some (f := optimizedStmt c) (a := .expr e) (b := .expr e) rfl, evalStmts, evalStmts, ← he]
      cases hv : evalExpr cx env e with
      | none => trivial
      | some y =>
        rw [Option.bind_some, Option.bind_some]
        have := ih (a ++ [.expr e]) env env' hl' ⟨fun k => ?_, fun a1 v t n e' a2 u ha ho hu => ?_⟩
        · revert this
          cases evalStmts cx env b <;> cases evalStmts cx env' (b.filterMap (optimizedStmt c)) <;>
            intro this
          · trivial
          · exact this.elim
          · exact this.elim
          · exact ⟨by simp [this.1], this.2⟩
        · rcases hi.agree k with h1 | ⟨a1, v, t, e', a2, ha, hn, ho⟩
          · exact .inl h1
          · refine .inr ⟨a1, v, t, e', a2 ++ [.expr e], by rw [ha]; simp, ?_, ho⟩
            rw [targets_append]
            simpa [targets] using hn
        · rcases snoc_eq ha with ⟨_, _, h3⟩ | ⟨a2', rfl, ha'⟩
          · cases h3
          · exact hi.pending a1 v t n e' a2' u ha' ho (hsub u hu)
    · -- what becomes of the invariant when the assignment is made on both sides
      have both : ∀ y, ¬ UsedOnce (stmtsTokens l) t →
          Agrees cx l (a ++ [.assign v t n e]) b (bindName env n y) (bindName env' n y) := by
        intro y hno
        constructor
        · intro k
          by_cases hk : k = n
          · left; rw [bindName, bindName, if_pos hk, if_pos hk]
          · rw [bindName, bindName, if_neg hk, if_neg hk]
            rcases hi.agree k with h1 | ⟨a1, v', t', e', a2, ha, hn, ho⟩
            · exact .inl h1
            · refine .inr ⟨a1, v', t', e', a2 ++ [.assign v t n e], by rw [ha]; simp, ?_, ho⟩
              rw [targets_append]
              simp [targets, hn, hk]
        · intro a1 v' t' n' e' a2 u ha ho hu
          rcases snoc_eq ha with ⟨_, _, h3⟩ | ⟨a2', rfl, ha'⟩
          · cases h3
            exact absurd ⟨u, ho⟩ hno
          · obtain ⟨h1, h2⟩ := hpend a1 v' t' n' e' a2' u ha' ho hu
            have h3 := hi.pending a1 v' t' n' e' a2' u ha' ho (hsub u hu)
            rw [bindName, if_neg (by simpa [targets] using h1), ← h3]
            refine evalExpr_names cx _ _ e' fun m hm => ?_
            rw [bindName, if_neg (by simpa [targets] using h2 m hm)]
      by_cases hr : UsedOnce (stmtsTokens l) t
      · -- a superfluous definition
        have hrm : c.removed t = true := (h.knows.removed_iff t).2 hr
        have hpl := h.removed_plain hx hr
        have he := evalExpr_names cx env env' e (h.names_agree hl rfl hpl hi)
        rw [List.filterMap_cons_none (by rw [optimizedStmt, if_pos hrm]), evalStmts]
        have keep : ∀ y, evalExpr cx env e = some y →
            Agrees cx l (a ++ [.assign v t n e]) b (bindName env n y) env' := by
          intro y hy
          constructor
          · intro k
            by_cases hk : k = n
            · subst hk
              exact .inr ⟨a, v, t, e, [], rfl, by simp [targets], hr⟩
            · rw [bindName, if_neg hk]
              rcases hi.agree k with h1 | ⟨a1, v', t', e', a2, ha, hn, ho⟩
              · exact .inl h1
              · refine .inr ⟨a1, v', t', e', a2 ++ [.assign v t n e], by rw [ha]; simp, ?_, ho⟩
                rw [targets_append]
                simp [targets, hn, hk]
          · intro a1 v' t' n' e' a2 u ha ho hu
            rcases snoc_eq ha with ⟨_, _, h3⟩ | ⟨a2', rfl, ha'⟩
            · cases h3
              rw [bindName, if_pos rfl, ← he, hy]
            · obtain ⟨h1, h2⟩ := hpend a1 v' t' n' e' a2' u ha' ho hu
              rw [bindName, if_neg (by simpa [targets] using h1)]
              exact hi.pending a1 v' t' n' e' a2' u ha' ho (hsub u hu)
        cases hv : evalExpr cx env e with
        | some y =>
          rw [Option.bind_some]
          exact ih _ _ _ hl' (keep y hv)
        | none =>
          rw [Option.bind_none]
          -- the use fails as well
          obtain ⟨u, ho⟩ := hr
          have hu := refersTo_after h.distinct.names hl ho.1
          obtain ⟨k, hk⟩ := (mem_useIds _ _).1 hu
          obtain ⟨p, q, v', t', n', k', hb⟩ := h.use_statement
            (fun z hz => by rw [hl']; exact List.mem_append_right _ hz) ho hk
          have e2 : l = a ++ .assign v t n e :: (p ++ .assign v' t' n' (.name u k') :: q) := by
            rw [hl, hb]
          have hn := hna a v t n e p v' t' n' u k' q e2 ho
          have hx' : Stmt.assign v' t' n' (.name u k') ∈ l := by rw [e2]; simp
          have hno : ¬ c.removed t' = true := fun hc =>
            h.noChain v' t' n' u k' hx' ((h.knows.removed_iff t').1 hc) t ho
          have hin : inlineOf c u = some e :=
            (h.knows.inlineOf_iff h.simple h.distinct.names (refersTo_use ho.1) e).2 ⟨v, t, n, hx, ho⟩
          have hopt : optimizedStmt c (.assign v' t' n' (.name u k')) = some (.assign v' t' n' e) := by
            rw [optimizedStmt, if_neg hno, replaceOf, hin, Option.getD_some]
          rw [hb, List.filterMap_append, List.filterMap_cons_some hopt,
            evalStmts_prefix_none (fun m hm hc => hn m hm (optimized_targets hc)) (by rw [← he, hv])]
          trivial
      · have hrm : ¬ c.removed t = true := fun hc => hr ((h.knows.removed_iff t).1 hc)
        rw [List.filterMap_cons_some (b := .assign v t n (replaceOf c e))
          (by rw [optimizedStmt, if_neg hrm]), evalStmts, evalStmts]
        have he : evalExpr cx env e = evalExpr cx env' (replaceOf c e) := by
          rcases h.clean _ hx with hp | ⟨u, k, w, rfl, -, hinl⟩
          · rw [replaceOf_plain hp]
            exact evalExpr_names cx env env' e (h.names_agree hl rfl hp hi)
          · rw [replaceOf, hinl, Option.getD_some]
            obtain ⟨v2, d, n2, hm, ho⟩ := (h.knows.inlineOf_iff h.simple h.distinct.names
              (h.use_mem hx rfl name_use) w).1 hinl
            -- the definition is in front
            obtain ⟨a', v3, n3, e3, b', hpos, hu⟩ := refersTo_position h.simple h.distinct.names ho.1
            have hD : Stmt.assign v3 d n3 e3 ∈ l := by rw [hpos]; simp
            have hw : e3 = w := by
              have h1 := h.knows.value _ _ _ _ hm
              rw [h.knows.value _ _ _ _ hD] at h1
              exact Option.some.inj h1
            subst hw
            have hne : Stmt.assign v3 d n3 e3 ≠ Stmt.assign v t n (.name u k) := by
              intro heq
              cases heq
              exact hr ⟨u, ho⟩
            obtain ⟨a2, ha2⟩ : ∃ a2, a = a' ++ .assign v3 d n3 e3 :: a2 := by
              have h1 := hl
              rw [hpos] at h1
              rcases List.append_eq_append_iff.1 h1 with ⟨s, hs1, hs2⟩ | ⟨s, hs1, hs2⟩
              · cases s with
                | nil => exact absurd (List.cons.inj hs2).1 hne
                | cons y s =>
                  rw [List.cons_append, List.cons.injEq] at hs2
                  exact ⟨s, by rw [hs1, hs2.1]⟩
              · cases s with
                | nil => exact absurd (List.cons.inj hs2).1.symm hne
                | cons y s =>
                  rw [List.cons_append, List.cons.injEq] at hs2
                  exact absurd ho.1 (not_after h.distinct.names hl
                    (v' := v3) (n' := n3) (e := e3) (by rw [hs2.2]; simp))
            have hut : Token.use k u ∈ stmtsTokens (.assign v t n (.name u k) :: b) := by
              rw [stmtsTokens, stmtTokens, exprTokens]; simp
            have hui : u ∈ useIds (stmtsTokens (.assign v t n (.name u k) :: b)) :=
              (mem_useIds _ _).2 ⟨k, hut⟩
            have e1 : l = a' ++ .assign v3 d n3 e3 :: (a2 ++ .assign v t n (.name u k) :: b) := by
              rw [hl, ha2]; simp
            have hk : n3 = k := by
              have hs := h.simple
              have hnd := h.distinct.names
              have hro := ho.1
              rw [e1] at hs hnd hro
              obtain ⟨-, h2⟩ := refersTo_between hs hnd hro hui
              refine use_unique h.distinct.names (u := u) ?_ ?_
              · rw [hl, stmtsTokens_append']; exact List.mem_append_right _ h2
              · rw [hl, stmtsTokens_append']; exact List.mem_append_right _ hut
            subst hk
            rw [evalExpr]
            exact (hi.pending a' v3 d n3 e3 a2 u ha2 ho hui).symm
        rw [← he]
        cases hv : evalExpr cx env e with
        | none => trivial
        | some y =>
          rw [Option.bind_some, Option.bind_some]
          exact ih _ _ _ hl' (both y hr)

end Optimizable

end Fern
