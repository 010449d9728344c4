import Verif.Lemmas.Library
import Verif.Lemmas.Execute

/-!
Lemmas about the execution of scripts made of the operations of the library.
-/

namespace Fern.Library

open _root_.Fern.Spec _root_.Fern.Library.Spec

variable {V : Type} {execute : Str → List V → Option (List V)} {c : ExecuteContext V} {hasTy : V → Ty → Prop}

theorem operation_done {n : Str} {op : Operation V} {s : ExecuteState V} {xs : List V} {rest : List V} {rs : List V}
    (hop : c.ops n = some op) (ha : xs.length = op.parameters.length) (hs : s.stack = xs.reverse ++ rest)
    (he : op.execute xs = some rs) (k : Nat) (hk : k = xs.length) :
    s.finishOperation c n k = some { s with stack := rs.reverse ++ rest } := by
  subst hk
  have h1 : s.stack.take xs.length = xs.reverse := by rw [hs]; simp
  have h2 : s.stack.drop xs.length = rest := by rw [hs]; simp
  have h3 : op.arity ≤ s.stack.length ∧ xs.length ≤ s.stack.length := by
    rw [Operation.arity, ← ha, hs]; simp
  rw [ExecuteState.finishOperation, hop, Option.bind_some, if_pos h3, h1, List.reverse_reverse, he, h2]
  rfl

theorem ready_of_stack {env : Str → Option Ty} {s : ExecuteState V} (h : Ready c hasTy env s) (l : List V) :
    Ready c hasTy env { s with stack := l } := h

theorem ready_name {env : Str → Option Ty} {s : ExecuteState V} (h : Ready c hasTy env s) {n : Str} {T : Ty}
    (hn : env n = some T) :
    ∃ s' x, s.useName c n = some s' ∧ s'.stack = x :: s.stack ∧ hasTy x T ∧ Ready c hasTy env s' := by
  obtain ⟨x, hx, hT⟩ := h.2 n T hn
  unfold ExecuteState.useName
  cases hv : s.table.value n with
  | some y =>
    rw [hv, Option.some_or] at hx
    cases hx
    exact ⟨_, x, rfl, rfl, hT, ready_of_stack h _⟩
  | none =>
    rw [hv, Option.none_or] at hx
    obtain ⟨t, h1, h2, h3⟩ := SymbolTable.addValue_some h.1 n x
    refine ⟨{ s with stack := x :: s.stack, table := t, reads := s.reads ++ [n] }, x, ?_, rfl, hT, h2, ?_⟩
    · simp [hx, h1]
    · intro m U hm
      by_cases hmn : m = n
      · subst hmn
        rw [hn] at hm; cases hm
        exact ⟨x, by simp [h3], hT⟩
      · obtain ⟨y, hy, hU⟩ := h.2 m U hm
        exact ⟨y, by simpa [h3, hmn] using hy, hU⟩

/-- What is asked of the expressions. -/
def Fit (c : ExecuteContext V) (hasTy : V → Ty → Prop) (l : List Expr) : Prop :=
  Avoids l ∧ Numbers c.number hasTy l

theorem fit_append {l r : List Expr} (h : Fit c hasTy (l ++ r)) : Fit c hasTy l ∧ Fit c hasTy r :=
  ⟨⟨fun v n args hm => h.1 v n args (hm.imp (List.mem_append_left _) (List.mem_append_left _)),
    fun v n hm => h.2 v n (List.mem_append_left _ hm)⟩,
   ⟨fun v n args hm => h.1 v n args (hm.imp (List.mem_append_right _) (List.mem_append_right _)),
    fun v n hm => h.2 v n (List.mem_append_right _ hm)⟩⟩

/-- The operations that remain. -/
theorem remaining {n : Str} {Ts : List Ty} {T : Ty} (h : resultType n Ts = some T) (h1 : n ≠ "add".toList)
    (h2 : n ≠ "int32".toList) :
    (n = "abs".toList ∧ Ts = [T] ∧ T.IsNumber) ∨ (n = "read".toList ∧ Ts = [constantText] ∧ T = .numberField) := by
  unfold resultType at h
  rw [if_neg h2, if_neg h1] at h
  split at h
  · rename_i hn
    left
    refine ⟨hn, ?_⟩
    split at h
    · rename_i t
      by_cases ht : t.IsNumber
      · simp only [ht, if_true, Option.some.injEq] at h; subst h; exact ⟨rfl, ht⟩
      · simp [ht] at h
    · cases h
  · split at h
    · rename_i hn
      right
      split at h
      · rename_i hT; cases h; exact ⟨hn, hT, rfl⟩
      · cases h
    · cases h

theorem no_result_of_write (o : Option (List Ty)) : o.bind (resultType "write".toList) = none := by
  cases o with
  | none => rfl
  | some l => rw [Option.bind_some]; unfold resultType; rw [if_neg (by decide), if_neg (by decide), if_neg (by decide), if_neg (by decide)]

variable (hc : c.ops = library execute) (hw : Works c.string execute hasTy)

include hc hw

theorem run_operation {env : Str → Option Ty} {s s1 : ExecuteState V} {n : Str} {xs : List V} {Ts : List Ty} {T : Ty}
    {k : Nat} (h : resultType n Ts = some T) (h1 : n ≠ "add".toList) (h2 : n ≠ "int32".toList)
    (hs : s1.stack = xs.reverse ++ s.stack) (hx : List.Forall₂ hasTy xs Ts) (hk : k = xs.length)
    (hr : Ready c hasTy env s1) :
    ∃ s' x, s1.finishOperation c n k = some s' ∧ s'.stack = x :: s.stack ∧ hasTy x T ∧ Ready c hasTy env s' := by
  rcases remaining h h1 h2 with ⟨rfl, rfl, hT⟩ | ⟨rfl, rfl, rfl⟩
  · cases hx with
    | cons hx hn =>
      cases hn
      obtain ⟨r, hr1, hr2⟩ := hw.abs _ T hx hT
      exact ⟨_, r, operation_done (c := c) ((congrFun hc _).trans (library_abs execute)) rfl hs hr1 k hk, rfl, hr2, ready_of_stack hr _⟩
  · cases hx with
    | cons hx hn =>
      cases hn
      obtain ⟨r, hr1, hr2⟩ := hw.read _ hx
      exact ⟨_, r, operation_done (c := c) ((congrFun hc _).trans (library_read execute)) rfl hs hr1 k hk, rfl, hr2, ready_of_stack hr _⟩

mutual

theorem run_expr (env : Str → Option Ty) (e : Expr) (s : ExecuteState V) (T : Ty) (h : tyOf env e = some T)
    (ha : Fit c hasTy (subterms e)) (hr : Ready c hasTy env s) :
    ∃ s' x, executeExpr c s e = some s' ∧ s'.stack = x :: s.stack ∧ hasTy x T ∧ Ready c hasTy env s' := by
  cases e with
  | name v n =>
    rw [tyOf] at h
    rw [executeExpr]
    exact ready_name hr h
  | number v n =>
    rw [tyOf] at h; cases h
    exact ⟨_, _, by rw [executeExpr], rfl, ha.2 v n (by simp [subterms]), ready_of_stack hr _⟩
  | string v x =>
    rw [tyOf] at h; cases h
    exact ⟨_, _, by rw [executeExpr], rfl, hw.string x, ready_of_stack hr _⟩
  | call v n args =>
    rw [tyOf] at h
    obtain ⟨Ts, h1, h2⟩ := Option.bind_eq_some_iff.1 h
    rw [subterms] at ha
    have hn := (fit_append ha).2.1 v n args (.inl List.mem_cons_self)
    obtain ⟨s1, xs, he, hl, hs, hx, hr1⟩ := run_exprs env args s Ts h1 (fit_append ha).1 hr
    rw [executeExpr, he, Option.bind_some]
    exact run_operation hc hw h2 hn.1 hn.2 hs hx hl.symm hr1
  | operator v n args =>
    rw [tyOf] at h
    obtain ⟨Ts, h1, h2⟩ := Option.bind_eq_some_iff.1 h
    rw [subterms] at ha
    have hn := (fit_append ha).2.1 v n args (.inr List.mem_cons_self)
    obtain ⟨s1, xs, he, hl, hs, hx, hr1⟩ := run_exprs env args s Ts h1 (fit_append ha).1 hr
    rw [executeExpr, he, Option.bind_some]
    exact run_operation hc hw h2 hn.1 hn.2 hs hx hl.symm hr1
  | subscript v e i => rw [tyOf] at h; cases h
  | «attribute» v e m => rw [tyOf] at h; cases h

theorem run_exprs (env : Str → Option Ty) (es : List Expr) (s : ExecuteState V) (Ts : List Ty)
    (h : tysOf env es = some Ts) (ha : Fit c hasTy (subtermsList es)) (hr : Ready c hasTy env s) :
    ∃ s' xs, executeExprs c s es = some s' ∧ xs.length = es.length ∧ s'.stack = xs.reverse ++ s.stack ∧
      List.Forall₂ hasTy xs Ts ∧ Ready c hasTy env s' := by
  cases es with
  | nil =>
    rw [tysOf] at h; cases h
    exact ⟨s, [], by rw [executeExprs], rfl, rfl, .nil, hr⟩
  | cons e es =>
    rw [tysOf] at h
    obtain ⟨T, h1, h2⟩ := Option.bind_eq_some_iff.1 h
    obtain ⟨Ts', h3, rfl⟩ := Option.map_eq_some_iff.1 h2
    rw [subtermsList] at ha
    obtain ⟨s1, x, he1, hs1, hx, hr1⟩ := run_expr env e s T h1 (fit_append ha).1 hr
    obtain ⟨s2, xs, he2, hl, hs2, hxs, hr2⟩ := run_exprs env es s1 Ts' h3 (fit_append ha).2 hr1
    refine ⟨s2, x :: xs, by rw [executeExprs, he1, Option.bind_some, he2], by simp [hl], ?_, .cons hx hxs, hr2⟩
    rw [hs2, hs1]; simp

end

theorem run_write (env : Str → Option Ty) (n : Str) (args : List Expr) (s : ExecuteState V) (t : Ty)
    (hn : n = "write".toList) (h : tysOf env args = some [t, constantText, constantText]) (ht : t.IsNumber)
    (ha : Fit c hasTy (subtermsList args)) (hr : Ready c hasTy env s) :
    ∃ s', ((executeExprs c s args).bind fun s => s.finishOperation c n args.length) = some s' ∧ s'.stack = s.stack ∧
      Ready c hasTy env s' := by
  subst hn
  obtain ⟨s1, xs, he, hl, hs, hx, hr1⟩ := run_exprs hc hw env args s _ h ha hr
  rw [he, Option.bind_some]
  cases hx with
  | cons h1 hx =>
    cases hx with
    | cons h2 hx =>
      cases hx with
      | cons h3 hx =>
        cases hx
        exact ⟨_, operation_done (c := c) ((congrFun hc _).trans (library_write execute)) rfl hs (hw.write _ _ _ t h1 ht h2 h3) _ hl.symm, rfl,
          ready_of_stack hr1 _⟩

theorem run_stmts (env : Str → Option Ty) (l : List Stmt) (s : ExecuteState V) (h : Typed env l)
    (ha : Fit c hasTy (stmtsTerms l)) (hr : Ready c hasTy env s) :
    ∃ s' xs, executeStmts c s l = some s' ∧ s'.stack = xs.reverse ++ s.stack ∧ List.Forall₂ hasTy xs (shown env l) ∧
      Ready c hasTy (tysAfter env l) s' := by
  induction l generalizing env s with
  | nil => exact ⟨s, [], by rw [executeStmts], rfl, .nil, hr⟩
  | cons t l ih =>
    rw [stmtsTerms] at ha
    have ha' := fit_append ha
    cases t with
    | expr e =>
      rw [Typed] at h
      rw [stmtTerms] at ha'
      rw [executeStmts, executeStmt]
      have : ∃ s1 ys, executeExpr c s e = some s1 ∧ s1.stack = ys.reverse ++ s.stack ∧
          List.Forall₂ hasTy ys (tyOf env e).toList ∧ Ready c hasTy env s1 := by
        rcases h.1 with h | h
        · obtain ⟨T, hT⟩ := Option.isSome_iff_exists.1 h
          obtain ⟨s1, x, h1, h2, hx, h3⟩ := run_expr hc hw env e s T hT ha'.1 hr
          exact ⟨s1, [x], h1, h2, by rw [hT]; exact .cons hx .nil, h3⟩
        · cases e with
          | call v n args =>
            obtain ⟨hn, t, ht, hN⟩ := h
            rw [subterms] at ha'
            obtain ⟨s1, h1, h2, h3⟩ := run_write hc hw env n args s t hn ht hN (fit_append ha'.1).1 hr
            exact ⟨s1, [], by rw [executeExpr]; exact h1, h2, by rw [tyOf, hn, no_result_of_write]; exact .nil, h3⟩
          | operator v n args =>
            obtain ⟨hn, t, ht, hN⟩ := h
            rw [subterms] at ha'
            obtain ⟨s1, h1, h2, h3⟩ := run_write hc hw env n args s t hn ht hN (fit_append ha'.1).1 hr
            exact ⟨s1, [], by rw [executeExpr]; exact h1, h2, by rw [tyOf, hn, no_result_of_write]; exact .nil, h3⟩
          | _ => exact absurd h (by simp [Writes])
      obtain ⟨s1, ys, h1, h2, hy, h3⟩ := this
      obtain ⟨s2, zs, h4, h5, hz, h6⟩ := ih env s1 h.2 ha'.2 h3
      exact ⟨s2, ys ++ zs, by rw [h1, Option.bind_some, h4],
        by rw [h5, h2, List.reverse_append, List.append_assoc], by rw [shown]; exact List.rel_append hy hz, h6⟩
    | assign v w n e =>
      rw [Typed] at h
      obtain ⟨T, hT, h⟩ := h
      rw [stmtTerms] at ha'
      obtain ⟨s1, x, h1, h2, hx, h3⟩ := run_expr hc hw env e s T hT (fit_append ha'.1).1 hr
      obtain ⟨t, k1, k2, k3⟩ := SymbolTable.addValue_some h3.1 n x
      rw [executeStmts, executeStmt, h1, Option.bind_some, tysAfter, shown, hT]
      have hf : ∃ s2, s1.finishAssign c w n = some s2 ∧ s2.stack = s.stack ∧ s2.table = t := by
        unfold ExecuteState.finishAssign
        rw [h2]
        simp [k1]
      obtain ⟨s2, h4, h5, h6⟩ := hf
      have hr2 : Ready c hasTy (fun m => if m = n then some T else env m) s2 := by
        refine ⟨by rw [h6]; exact k2, fun m U hm => ?_⟩
        by_cases hmn : m = n
        · simp only [hmn, if_true, Option.some.injEq] at hm
          subst hm
          exact ⟨x, by rw [h6, k3]; simp [hmn], hx⟩
        · simp only [hmn, if_false] at hm
          obtain ⟨y, hy, hU⟩ := h3.2 m U hm
          exact ⟨y, by rw [h6, k3]; simpa [hmn] using hy, hU⟩
      obtain ⟨s3, zs, h7, h8, hz, h9⟩ := ih _ s2 h ha'.2 hr2
      exact ⟨s3, zs, by rw [h4, Option.bind_some, h7], by rw [h8, h5], hz, h9⟩
    | _ => exact absurd h (by simp [Typed])

end Fern.Library
