import Verif.Spec.Typing
import Verif.Lemmas.Scope
import Mathlib.Data.List.Basic
import Mathlib.Data.List.Nodup

/-!
Lemmas about annotation.
-/

namespace Fern

open Spec

variable {V : Type}

theorem mem_exprIds_self (e : Expr) : e.vid ∈ exprIds e := by
  cases e <;> simp [exprIds, subterms, Expr.vid]

theorem exprsIds_cons (e : Expr) (es : List Expr) : exprsIds (e :: es) = exprIds e ++ exprsIds es := by
  simp [exprsIds, exprIds, subtermsList]

theorem exprIds_call (v : Vid) (n : Str) (args : List Expr) :
    exprIds (.call v n args) = exprsIds args ++ [v] := by
  simp [exprsIds, exprIds, subterms, Expr.vid]

theorem exprIds_operator (v : Vid) (n : Str) (args : List Expr) :
    exprIds (.operator v n args) = exprsIds args ++ [v] := by
  simp [exprsIds, exprIds, subterms, Expr.vid]

theorem exprIds_subscript (v : Vid) (e i : Expr) :
    exprIds (.subscript v e i) = exprIds e ++ (exprIds i ++ [v]) := by
  simp [exprIds, subterms, Expr.vid]

theorem exprIds_attribute (v : Vid) (e : Expr) (m : Str) :
    exprIds (.attribute v e m) = exprIds e ++ [v] := by
  simp [exprIds, subterms, Expr.vid]

theorem exprIds_leaf_name (v : Vid) (n : Str) : exprIds (.name v n) = [v] := rfl

/-! ### The number of types pushed -/

mutual

theorem one_le_pushes (e : Expr) : 1 ≤ pushes e := by
  cases e with
  | name v n => rw [pushes]
  | number v n => rw [pushes]
  | string v n => rw [pushes]
  | call v n args => rw [pushes]; omega
  | operator v n args => rw [pushes]; omega
  | subscript v e i => rw [pushes]; have := one_le_pushes e; omega
  | «attribute» v e m => rw [pushes]; exact one_le_pushes e

theorem length_le_pushesList (es : List Expr) : es.length ≤ pushesList es := by
  cases es with
  | nil => simp
  | cons e es =>
    rw [pushesList, List.length_cons]
    have := one_le_pushes e
    have := length_le_pushesList es
    omega

end

mutual

theorem pushes_of_noSubscript (e : Expr) (h : NoSubscript e) : pushes e = 1 := by
  cases e with
  | name v n => rw [pushes]
  | number v n => rw [pushes]
  | string v n => rw [pushes]
  | call v n args =>
    rw [NoSubscript] at h
    rw [pushes, pushesList_of_noSubscripts args h]; omega
  | operator v n args =>
    rw [NoSubscript] at h
    rw [pushes, pushesList_of_noSubscripts args h]; omega
  | subscript v e i => rw [NoSubscript] at h; exact h.elim
  | «attribute» v e m => rw [NoSubscript] at h; rw [pushes]; exact pushes_of_noSubscript e h

theorem pushesList_of_noSubscripts (es : List Expr) (h : NoSubscripts es) :
    pushesList es = es.length := by
  cases es with
  | nil => rw [pushesList]; rfl
  | cons e es =>
    rw [NoSubscripts] at h
    rw [pushesList, pushes_of_noSubscript e h.1, pushesList_of_noSubscripts es h.2,
      List.length_cons]
    omega

end

/-! ### The frame of a visit -/

/-- What a visit of vertices `ids` that leaves `k` types does to the rest. -/
structure AnnotateFrame (ids : List Vid) (k : Nat) (s s' : AnnotateState V) : Prop where
  stack : ∃ ts : List ExpressionType, ts.length = k ∧ s'.stack = ts ++ s.stack
  table : s'.table = s.table
  types : ∀ v, v ∉ ids → s'.types v = s.types v
  operation : ∀ v, v ∉ ids → s'.operation v = s.operation v

theorem updateAt_of_ne {A : Type} {f : Vid → A} {v w : Vid} {x : A} (h : w ≠ v) :
    updateAt f v x w = f w := if_neg h

theorem updateAt_self {A : Type} {f : Vid → A} {v : Vid} {x : A} : updateAt f v x v = x := if_pos rfl

theorem AnnotateState.leaf_frame {s s' : AnnotateState V} {v : Vid} {t : ExpressionType}
    (h : s.leaf v t = some s') : AnnotateFrame [v] 1 s s' := by
  rw [AnnotateState.leaf] at h
  split at h
  · cases h
    exact ⟨⟨[t], rfl, rfl⟩, rfl, fun w hw => updateAt_of_ne (by simpa using hw), fun w _ => rfl⟩
  · cases h

theorem AnnotateState.finishOperation_eq (ops : Operations V) {s : AnnotateState V} {v : Vid} {n : Str}
    {ts stack : List ExpressionType} (hs : s.stack = ts ++ stack) (hv : s.types v = [])
    (ho : s.operation v = none) :
    s.finishOperation ops v n ts.length =
      (operationType ops n ts).map fun t =>
        { s with stack := t :: stack, types := updateAt s.types v [t],
                 operation := updateAt s.operation v (ops n) } := by
  rw [AnnotateState.finishOperation, AnnotateState.popTypes, if_pos (by rw [hs]; simp),
    Option.bind_some]
  simp only [hs, List.take_left, List.drop_left]
  rw [operationType]
  cases hop : ops n with
  | none =>
    have : updateAt s.operation v none = s.operation := by
      funext w
      by_cases hw : w = v
      · rw [hw, updateAt_self, ho]
      · exact updateAt_of_ne hw
    simp [this]
  | some op =>
    simp only [ho, hv, Option.isSome_none, Bool.false_eq_true, ne_eq, not_true_eq_false, or_self,
      if_false, Operation.arity]
    by_cases hk : ts.length = op.parameters.length
    · simp only [hk, if_true]
      cases op.exprType ts <;> rfl
    · simp only [hk, if_false]
      rfl

theorem AnnotateState.finishOperation_frame (ops : Operations V) {s s' : AnnotateState V} {v : Vid}
    {n : Str} {k : Nat} (h : s.finishOperation ops v n k = some s') :
    (∃ t, s'.stack = t :: s.stack.drop k) ∧ s'.table = s.table ∧
      (∀ w, w ≠ v → s'.types w = s.types w) ∧ (∀ w, w ≠ v → s'.operation w = s.operation w) := by
  rw [AnnotateState.finishOperation, AnnotateState.popTypes] at h
  split at h
  · rw [Option.bind_some] at h
    cases hop : ops n with
    | none =>
      simp only [hop] at h
      cases h
      exact ⟨⟨_, rfl⟩, rfl, fun w hw => updateAt_of_ne hw, fun w _ => rfl⟩
    | some op =>
      simp only [hop] at h
      split at h
      · cases h
      · split at h
        · cases ht : op.exprType (List.take k s.stack) with
          | none => rw [ht] at h; cases h
          | some t =>
            rw [ht] at h
            cases h
            exact ⟨⟨_, rfl⟩, rfl, fun w hw => updateAt_of_ne hw, fun w hw => updateAt_of_ne hw⟩
        · cases h
          exact ⟨⟨_, rfl⟩, rfl, fun w hw => updateAt_of_ne hw, fun w hw => updateAt_of_ne hw⟩
  · cases h

theorem AnnotateFrame.operation_of {args : List Expr} {ops : Operations V} {s s1 s2 : AnnotateState V}
    {v : Vid} {n : Str} (h1 : AnnotateFrame (exprsIds args) (pushesList args) s s1)
    (h2 : s1.finishOperation ops v n args.length = some s2) :
    AnnotateFrame (exprsIds args ++ [v]) (pushesList args - args.length + 1) s s2 := by
  obtain ⟨⟨t, hst⟩, htab, hty, hop⟩ := AnnotateState.finishOperation_frame ops h2
  obtain ⟨ts, hlen, hs1⟩ := h1.stack
  have hle := length_le_pushesList args
  constructor
  · refine ⟨t :: ts.drop args.length, by simp [hlen], ?_⟩
    rw [hst, hs1, List.drop_append_of_le_length (by omega)]
    rfl
  · rw [htab, h1.table]
  · intro w hw
    simp only [List.mem_append, List.mem_singleton, not_or] at hw
    rw [hty w hw.2, h1.types w hw.1]
  · intro w hw
    simp only [List.mem_append, List.mem_singleton, not_or] at hw
    rw [hop w hw.2, h1.operation w hw.1]

theorem AnnotateFrame.mono {ids ids' : List Vid} {k : Nat} {s s' : AnnotateState V}
    (h : AnnotateFrame ids k s s') (hi : ∀ v ∈ ids, v ∈ ids') : AnnotateFrame ids' k s s' :=
  ⟨h.stack, h.table, fun v hv => h.types v fun h => hv (hi v h),
    fun v hv => h.operation v fun h => hv (hi v h)⟩

theorem AnnotateFrame.trans {ids ids' : List Vid} {k k' : Nat} {s s' s'' : AnnotateState V}
    (h : AnnotateFrame ids k s s') (h' : AnnotateFrame ids' k' s' s'') :
    AnnotateFrame (ids ++ ids') (k + k') s s'' := by
  obtain ⟨ts, hl, hs⟩ := h.stack
  obtain ⟨ts', hl', hs'⟩ := h'.stack
  constructor
  · exact ⟨ts' ++ ts, by rw [List.length_append]; omega, by rw [hs', hs, List.append_assoc]⟩
  · rw [h'.table, h.table]
  · intro v hv
    rw [List.mem_append, not_or] at hv
    rw [h'.types v hv.2, h.types v hv.1]
  · intro v hv
    rw [List.mem_append, not_or] at hv
    rw [h'.operation v hv.2, h.operation v hv.1]

mutual

theorem annotateExpr_frame (ops : Operations V) (s s' : AnnotateState V) (e : Expr)
    (h : annotateExpr ops s e = some s') : AnnotateFrame (exprIds e) (pushes e) s s' := by
  cases e with
  | name v n => rw [annotateExpr] at h; rw [pushes]; exact AnnotateState.leaf_frame h
  | number v n => rw [annotateExpr] at h; rw [pushes]; exact AnnotateState.leaf_frame h
  | string v n => rw [annotateExpr] at h; rw [pushes]; exact AnnotateState.leaf_frame h
  | call v n args =>
    rw [annotateExpr] at h
    split at h
    · obtain ⟨s1, h1, h2⟩ := Option.bind_eq_some_iff.1 h
      rw [exprIds_call, pushes]
      exact (annotateExprs_frame ops s s1 args h1).operation_of h2
    · cases h
  | operator v n args =>
    rw [annotateExpr] at h
    split at h
    · obtain ⟨s1, h1, h2⟩ := Option.bind_eq_some_iff.1 h
      rw [exprIds_operator, pushes]
      exact (annotateExprs_frame ops s s1 args h1).operation_of h2
    · cases h
  | subscript v e i =>
    rw [annotateExpr] at h
    obtain ⟨s1, h1, h2⟩ := Option.bind_eq_some_iff.1 h
    rw [exprIds_subscript, pushes]
    refine ((annotateExpr_frame ops s s1 e h1).trans (annotateExpr_frame ops s1 s' i h2)).mono
      fun w hw => ?_
    simp only [List.mem_append] at hw ⊢
    tauto
  | «attribute» v e m =>
    rw [annotateExpr] at h
    rw [exprIds_attribute, pushes]
    exact (annotateExpr_frame ops s s' e h).mono fun w hw => by simp [hw]

theorem annotateExprs_frame (ops : Operations V) (s s' : AnnotateState V) (es : List Expr)
    (h : annotateExprs ops s es = some s') : AnnotateFrame (exprsIds es) (pushesList es) s s' := by
  cases es with
  | nil =>
    rw [annotateExprs] at h
    cases h
    rw [pushesList]
    exact ⟨⟨[], rfl, rfl⟩, rfl, fun _ _ => rfl, fun _ _ => rfl⟩
  | cons e es =>
    rw [annotateExprs] at h
    obtain ⟨s1, h1, h2⟩ := Option.bind_eq_some_iff.1 h
    rw [exprsIds_cons, pushesList]
    exact (annotateExpr_frame ops s s1 e h1).trans (annotateExprs_frame ops s1 s' es h2)

end

/-! ### Success -/

/-- The vertices have no types and operations yet. -/
def Unannotated (s : AnnotateState V) (ids : List Vid) : Prop :=
  ∀ v ∈ ids, s.types v = [] ∧ s.operation v = none

theorem Unannotated.after {s s' : AnnotateState V} {ids ids' : List Vid} {k : Nat}
    (h : Unannotated s ids') (hf : AnnotateFrame ids k s s') (hd : ∀ v ∈ ids', v ∉ ids) : Unannotated s' ids' := by
  intro v hv
  rw [hf.types v (hd v hv), hf.operation v (hd v hv)]
  exact h v hv

theorem Unannotated.left {s : AnnotateState V} {a b : List Vid} (h : Unannotated s (a ++ b)) : Unannotated s a :=
  fun v hv => h v (List.mem_append_left _ hv)

theorem Unannotated.right {s : AnnotateState V} {a b : List Vid} (h : Unannotated s (a ++ b)) : Unannotated s b :=
  fun v hv => h v (List.mem_append_right _ hv)

theorem nodup_disjoint {a b : List Vid} (h : (a ++ b).Nodup) : ∀ v ∈ b, v ∉ a := by
  rw [List.nodup_append] at h
  exact fun v hv ha => h.2.2 v ha v hv rfl

theorem AnnotateState.leaf_eq {s : AnnotateState V} {v : Vid} {t : ExpressionType}
    (h : Unannotated s [v]) :
    s.leaf v t = some { s with stack := t :: s.stack, types := updateAt s.types v [t] } :=
  if_pos (h v (by simp)).1

theorem operationType_isSome {ops : Operations V}
    (ht : ∀ n op, ops n = some op → ∀ l, l.length = op.parameters.length → (op.exprType l).isSome)
    (n : Str) (l : List ExpressionType) : (operationType ops n l).isSome := by
  rw [operationType]
  cases hop : ops n with
  | none => rfl
  | some op =>
    dsimp only
    split
    · rename_i hl; exact ht n op hop l hl
    · rfl

theorem finishOperation_isSome {ops : Operations V}
    (ht : ∀ n op, ops n = some op → ∀ l, l.length = op.parameters.length → (op.exprType l).isSome)
    {args : List Expr} {s s1 : AnnotateState V} {v : Vid} (n : Str)
    (hf : AnnotateFrame (exprsIds args) (pushesList args) s s1)
    (hn : (exprsIds args ++ [v]).Nodup) (hfresh : Unannotated s (exprsIds args ++ [v])) :
    (s1.finishOperation ops v n args.length).isSome := by
  have hv := hfresh.right.after hf (nodup_disjoint hn) v (by simp)
  obtain ⟨ts, hl, hs⟩ := hf.stack
  have hle := length_le_pushesList args
  have := AnnotateState.finishOperation_eq ops (n := n) (ts := ts.take args.length)
    (stack := ts.drop args.length ++ s.stack)
    (by rw [hs, ← List.append_assoc, List.take_append_drop]) hv.1 hv.2
  rw [List.length_take, min_eq_left (by omega)] at this
  rw [this, Option.isSome_map]
  exact operationType_isSome ht n _

mutual

theorem annotateExpr_isSome {ops : Operations V}
    (ht : ∀ n op, ops n = some op → ∀ l, l.length = op.parameters.length → (op.exprType l).isSome)
    (s : AnnotateState V) (e : Expr) (hn : (exprIds e).Nodup) (hf : Unannotated s (exprIds e)) :
    (annotateExpr ops s e).isSome := by
  cases e with
  | name v n => rw [annotateExpr, AnnotateState.leaf_eq (v := v) hf]; rfl
  | number v n => rw [annotateExpr, AnnotateState.leaf_eq (v := v) hf]; rfl
  | string v n => rw [annotateExpr, AnnotateState.leaf_eq (v := v) hf]; rfl
  | call v n args =>
    rw [exprIds_call] at hn hf
    rw [annotateExpr, if_pos (hf v (by simp)).1]
    obtain ⟨s1, h1⟩ := Option.isSome_iff_exists.1
      (annotateExprs_isSome ht s args (List.nodup_append.1 hn).1 hf.left)
    rw [h1, Option.bind_some]
    exact finishOperation_isSome ht n (annotateExprs_frame ops s s1 args h1) hn hf
  | operator v n args =>
    rw [exprIds_operator] at hn hf
    rw [annotateExpr, if_pos (hf v (by simp)).1]
    obtain ⟨s1, h1⟩ := Option.isSome_iff_exists.1
      (annotateExprs_isSome ht s args (List.nodup_append.1 hn).1 hf.left)
    rw [h1, Option.bind_some]
    exact finishOperation_isSome ht n (annotateExprs_frame ops s s1 args h1) hn hf
  | subscript v e i =>
    rw [exprIds_subscript] at hn hf
    rw [annotateExpr]
    obtain ⟨s1, h1⟩ := Option.isSome_iff_exists.1
      (annotateExpr_isSome ht s e (List.nodup_append.1 hn).1 hf.left)
    rw [h1, Option.bind_some]
    have hfr := annotateExpr_frame ops s s1 e h1
    refine annotateExpr_isSome ht s1 i (List.nodup_append.1 (List.nodup_append.1 hn).2.1).1 ?_
    exact (hf.right.after hfr (nodup_disjoint hn)).left
  | «attribute» v e m =>
    rw [exprIds_attribute] at hn hf
    rw [annotateExpr]
    exact annotateExpr_isSome ht s e (List.nodup_append.1 hn).1 hf.left

theorem annotateExprs_isSome {ops : Operations V}
    (ht : ∀ n op, ops n = some op → ∀ l, l.length = op.parameters.length → (op.exprType l).isSome)
    (s : AnnotateState V) (es : List Expr) (hn : (exprsIds es).Nodup) (hf : Unannotated s (exprsIds es)) :
    (annotateExprs ops s es).isSome := by
  cases es with
  | nil => rw [annotateExprs]; rfl
  | cons e es =>
    rw [exprsIds_cons] at hn hf
    rw [annotateExprs]
    obtain ⟨s1, h1⟩ := Option.isSome_iff_exists.1
      (annotateExpr_isSome ht s e (List.nodup_append.1 hn).1 hf.left)
    rw [h1, Option.bind_some]
    exact annotateExprs_isSome ht s1 es (List.nodup_append.1 hn).2.1
      (hf.right.after (annotateExpr_frame ops s s1 e h1) (nodup_disjoint hn))

end

/-! ### Types -/

theorem operationType_reversed (ops : Operations V) (n : Str) (ts : List ExpressionType) :
    operationType (reversedRules ops) n ts = operationType ops n ts.reverse := by
  rw [operationType, operationType, reversedRules]
  cases ops n with
  | none => rfl
  | some op => simp

theorem typeExprs_length {ops : Operations V} {env : Str → ExpressionType} {es : List Expr}
    {ts : List ExpressionType} (h : typeExprs ops env es = some ts) : ts.length = es.length := by
  induction es generalizing ts with
  | nil => rw [typeExprs] at h; cases h; rfl
  | cons e es ih =>
    rw [typeExprs] at h
    obtain ⟨t, ht, h2⟩ := Option.bind_eq_some_iff.1 h
    obtain ⟨ts', h3, h4⟩ := Option.map_eq_some_iff.1 h2
    rw [← h4, List.length_cons, List.length_cons, ih h3]

/-- What annotation stores at a vertex. -/
def AnnotatedAs (ops : Operations V) (env : Str → ExpressionType) (s : AnnotateState V) : Expr → Prop
  | .attribute v _ _ => s.types v = []
  | .subscript v _ _ => s.types v = []
  | .call v n args => s.operation v = ops n ∧
      ∃ t, typeExpr (reversedRules ops) env (.call v n args) = some t ∧ s.types v = [t]
  | .operator v n args => s.operation v = ops n ∧
      ∃ t, typeExpr (reversedRules ops) env (.operator v n args) = some t ∧ s.types v = [t]
  | .name v n => s.types v = [env n]
  | .number v n => s.types v = [⟨DataTypes.constant, n.valueType.flag⟩]
  | .string v _ => s.types v = [⟨DataTypes.constant, ValueType.string.flag⟩]

theorem AnnotatedAs.of_eq {ops : Operations V} {env : Str → ExpressionType} {s s' : AnnotateState V}
    {e : Expr} (h : AnnotatedAs ops env s e) (ht : s'.types e.vid = s.types e.vid)
    (ho : s'.operation e.vid = s.operation e.vid) : AnnotatedAs ops env s' e := by
  cases e <;> simp only [AnnotatedAs, Expr.vid] at h ht ho ⊢ <;> simpa only [ht, ho] using h

theorem AnnotatedAs.frame {ops : Operations V} {env : Str → ExpressionType} {s s' : AnnotateState V}
    {l : List Expr} {ids : List Vid} {k : Nat} (h : ∀ e ∈ l, AnnotatedAs ops env s e)
    (hf : AnnotateFrame ids k s s') (hd : ∀ e ∈ l, e.vid ∉ ids) :
    ∀ e ∈ l, AnnotatedAs ops env s' e := fun e he =>
  (h e he).of_eq (hf.types _ (hd e he)) (hf.operation _ (hd e he))

/-- The two facts about a visit of an operation's arguments give those about the operation. -/
theorem finishOperation_typed (ops : Operations V) {args : List Expr} {s s1 : AnnotateState V} {v : Vid}
    (n : Str) {ts : List ExpressionType} (hlen : ts.length = args.length)
    (hs : s1.stack = ts.reverse ++ s.stack) (hv : s1.types v = [] ∧ s1.operation v = none) :
    s1.finishOperation ops v n args.length =
      (operationType (reversedRules ops) n ts).map fun t =>
        { s1 with stack := t :: s.stack, types := updateAt s1.types v [t],
                  operation := updateAt s1.operation v (ops n) } := by
  rw [operationType_reversed,
    ← AnnotateState.finishOperation_eq ops (n := n) hs hv.1 hv.2, List.length_reverse, hlen]

mutual

theorem annotateExpr_typed (ops : Operations V) (s : AnnotateState V) (e : Expr) (hs : NoSubscript e)
    (hn : (exprIds e).Nodup) (hf : Unannotated s (exprIds e)) :
    (annotateExpr ops s e).map (·.stack) =
        (typeExpr (reversedRules ops) s.nameType e).map (· :: s.stack) ∧
      ∀ s', annotateExpr ops s e = some s' → ∀ e' ∈ subterms e, AnnotatedAs ops s.nameType s' e' := by
  cases e with
  | name v n =>
    rw [annotateExpr, AnnotateState.leaf_eq (v := v) hf, typeExpr]
    refine ⟨rfl, fun s' h e' he' => ?_⟩
    cases h
    rw [subterms, List.mem_singleton] at he'
    subst he'
    exact updateAt_self
  | number v n =>
    rw [annotateExpr, AnnotateState.leaf_eq (v := v) hf, typeExpr]
    refine ⟨rfl, fun s' h e' he' => ?_⟩
    cases h
    rw [subterms, List.mem_singleton] at he'
    subst he'
    exact updateAt_self
  | string v n =>
    rw [annotateExpr, AnnotateState.leaf_eq (v := v) hf, typeExpr]
    refine ⟨rfl, fun s' h e' he' => ?_⟩
    cases h
    rw [subterms, List.mem_singleton] at he'
    subst he'
    exact updateAt_self
  | call v n args =>
    rw [NoSubscript] at hs
    rw [exprIds_call] at hn hf
    obtain ⟨h1, h2⟩ := annotateExprs_typed ops s args hs (List.nodup_append.1 hn).1 hf.left
    rw [annotateExpr, if_pos (hf v (by simp)).1, typeExpr]
    cases hty : typeExprs (reversedRules ops) s.nameType args with
    | none =>
      rw [hty, Option.map_none, Option.map_eq_none_iff] at h1
      rw [h1]
      exact ⟨rfl, fun s' h => by cases h⟩
    | some ts =>
      rw [hty, Option.map_some] at h1
      obtain ⟨s1, hs1, hst⟩ := Option.map_eq_some_iff.1 h1
      have hfr := annotateExprs_frame ops s s1 args hs1
      have hlen := typeExprs_length hty
      rw [hs1, Option.bind_some, Option.bind_some, finishOperation_typed ops n hlen hst
        (hf.right.after hfr (nodup_disjoint hn) v (by simp)), Option.map_map]
      refine ⟨rfl, fun s' h e' he' => ?_⟩
      obtain ⟨t, ht, rfl⟩ := Option.map_eq_some_iff.1 h
      rw [subterms, List.mem_append, List.mem_singleton] at he'
      rcases he' with he' | rfl
      · have hne : e'.vid ≠ v := by
          rintro rfl
          exact nodup_disjoint hn e'.vid (by simp) (List.mem_map_of_mem he')
        exact (h2 s1 hs1 e' he').of_eq (updateAt_of_ne hne) (updateAt_of_ne hne)
      · refine ⟨updateAt_self, t, ?_, updateAt_self⟩
        rw [typeExpr, hty, Option.bind_some, ht]
  | operator v n args =>
    rw [NoSubscript] at hs
    rw [exprIds_operator] at hn hf
    obtain ⟨h1, h2⟩ := annotateExprs_typed ops s args hs (List.nodup_append.1 hn).1 hf.left
    rw [annotateExpr, if_pos (hf v (by simp)).1, typeExpr]
    cases hty : typeExprs (reversedRules ops) s.nameType args with
    | none =>
      rw [hty, Option.map_none, Option.map_eq_none_iff] at h1
      rw [h1]
      exact ⟨rfl, fun s' h => by cases h⟩
    | some ts =>
      rw [hty, Option.map_some] at h1
      obtain ⟨s1, hs1, hst⟩ := Option.map_eq_some_iff.1 h1
      have hfr := annotateExprs_frame ops s s1 args hs1
      have hlen := typeExprs_length hty
      rw [hs1, Option.bind_some, Option.bind_some, finishOperation_typed ops n hlen hst
        (hf.right.after hfr (nodup_disjoint hn) v (by simp)), Option.map_map]
      refine ⟨rfl, fun s' h e' he' => ?_⟩
      obtain ⟨t, ht, rfl⟩ := Option.map_eq_some_iff.1 h
      rw [subterms, List.mem_append, List.mem_singleton] at he'
      rcases he' with he' | rfl
      · have hne : e'.vid ≠ v := by
          rintro rfl
          exact nodup_disjoint hn e'.vid (by simp) (List.mem_map_of_mem he')
        exact (h2 s1 hs1 e' he').of_eq (updateAt_of_ne hne) (updateAt_of_ne hne)
      · refine ⟨updateAt_self, t, ?_, updateAt_self⟩
        rw [typeExpr, hty, Option.bind_some, ht]
  | subscript v e i => rw [NoSubscript] at hs; exact hs.elim
  | «attribute» v e m =>
    rw [NoSubscript] at hs
    rw [exprIds_attribute] at hn hf
    obtain ⟨h1, h2⟩ := annotateExpr_typed ops s e hs (List.nodup_append.1 hn).1 hf.left
    rw [annotateExpr, typeExpr]
    refine ⟨h1, fun s' h e' he' => ?_⟩
    rw [subterms, List.mem_append, List.mem_singleton] at he'
    rcases he' with he' | rfl
    · exact h2 s' h e' he'
    · exact (hf.right.after (annotateExpr_frame ops s s' e h) (nodup_disjoint hn) v (by simp)).1

theorem annotateExprs_typed (ops : Operations V) (s : AnnotateState V) (es : List Expr)
    (hs : NoSubscripts es) (hn : (exprsIds es).Nodup) (hf : Unannotated s (exprsIds es)) :
    (annotateExprs ops s es).map (·.stack) =
        (typeExprs (reversedRules ops) s.nameType es).map (fun ts => ts.reverse ++ s.stack) ∧
      ∀ s', annotateExprs ops s es = some s' →
        ∀ e' ∈ subtermsList es, AnnotatedAs ops s.nameType s' e' := by
  cases es with
  | nil =>
    rw [annotateExprs, typeExprs]
    exact ⟨rfl, fun s' h e' he' => by rw [subtermsList] at he'; cases he'⟩
  | cons e es =>
    rw [NoSubscripts] at hs
    rw [exprsIds_cons] at hn hf
    obtain ⟨h1, h2⟩ := annotateExpr_typed ops s e hs.1 (List.nodup_append.1 hn).1 hf.left
    rw [annotateExprs, typeExprs]
    cases hty : typeExpr (reversedRules ops) s.nameType e with
    | none =>
      rw [hty, Option.map_none, Option.map_eq_none_iff] at h1
      rw [h1]
      exact ⟨rfl, fun s' h => by cases h⟩
    | some t =>
      rw [hty, Option.map_some] at h1
      obtain ⟨s1, hs1, hst⟩ := Option.map_eq_some_iff.1 h1
      have hfr := annotateExpr_frame ops s s1 e hs1
      have hname : s1.nameType = s.nameType := by
        funext n
        rw [AnnotateState.nameType, AnnotateState.nameType, hfr.table]
      obtain ⟨h3, h4⟩ := annotateExprs_typed ops s1 es hs.2 (List.nodup_append.1 hn).2.1
        (hf.right.after hfr (nodup_disjoint hn))
      rw [hname] at h3 h4
      rw [hs1, Option.bind_some, Option.bind_some, h3, hst, Option.map_map]
      refine ⟨by congr 1; funext ts; simp, fun s' h e' he' => ?_⟩
      rw [subtermsList, List.mem_append] at he'
      rcases he' with he' | he'
      · refine AnnotatedAs.frame (h2 s1 hs1) (annotateExprs_frame ops s1 s' es h) ?_ e' he'
        intro x hx hx'
        exact nodup_disjoint hn x.vid hx' (List.mem_map_of_mem hx)
      · exact h4 s' h e' he'

end

end Fern
