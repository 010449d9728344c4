import Verif.Lemmas.Flow

/-!
# The graph of the flow of data and the order of evaluation
-/

namespace Fern.Dot

open Fern.Spec Spec

/-! ### The order has every vertex once -/

mutual

theorem exprOrder_perm (x : Vid) : ∀ e, (exprOrder e).count x = e.vids.count x
  | .name v n => by rfl
  | .number v n => by rfl
  | .string v n => by rfl
  | .call v n args => by
    have := exprsOrder_perm x args
    simp only [exprOrder, Expr.vids, List.count_append, List.count_cons, List.count_nil]; omega
  | .operator v n args => by
    have := exprsOrder_perm x args
    simp only [exprOrder, Expr.vids, List.count_append, List.count_cons, List.count_nil]; omega
  | .subscript v e i => by
    have := exprOrder_perm x e
    have := exprOrder_perm x i
    simp only [exprOrder, Expr.vids, List.count_append, List.count_cons, List.count_nil]; omega
  | .attribute v e n => by
    have := exprOrder_perm x e
    simp only [exprOrder, Expr.vids, List.count_append, List.count_cons, List.count_nil]; omega

theorem exprsOrder_perm (x : Vid) : ∀ es, (exprsOrder es).count x = (Expr.listVids es).count x
  | [] => rfl
  | e :: es => by
    rw [exprsOrder, Expr.listVids, List.count_append, List.count_append, exprOrder_perm x e,
      exprsOrder_perm x es]

end

mutual

theorem stmtOrder_count (x : Vid) : ∀ s, (stmtOrder s).count x ≤ s.vids.count x
  | .expr e => Nat.le_of_eq (exprOrder_perm x e)
  | .assign v target n e => by
    have := exprOrder_perm x e
    simp only [stmtOrder, Stmt.vids, List.count_append, List.count_cons, List.count_nil]; omega
  | .ifElse v z c tv ts th fv fs el => by
    have := exprOrder_perm x c
    have := stmtsOrder_count x th
    have := stmtsOrder_count x el
    simp only [stmtOrder, Stmt.vids, List.count_append, List.count_cons, List.count_nil]; omega
  | .while v z c tv ts th fv fs el => by
    have := exprOrder_perm x c
    have := stmtsOrder_count x th
    have := stmtsOrder_count x el
    simp only [stmtOrder, Stmt.vids, List.count_append, List.count_cons, List.count_nil]; omega
  | .function v n args bv bs body => by
    have := exprsOrder_perm x args
    have := stmtsOrder_count x body
    simp only [stmtOrder, Stmt.vids, List.count_append, List.count_cons, List.count_nil]; omega
  | .ret v none => by simp [stmtOrder]
  | .ret v (some e) => by
    have := exprOrder_perm x e
    simp only [stmtOrder, Stmt.vids, List.count_cons]; omega

theorem stmtsOrder_count (x : Vid) : ∀ ss, (stmtsOrder ss).count x ≤ (Stmt.listVids ss).count x
  | [] => by simp [stmtsOrder]
  | s :: ss => by
    have := stmtOrder_count x s
    have := stmtsOrder_count x ss
    rw [stmtsOrder, Stmt.listVids, List.count_append, List.count_append]; omega

end

theorem order_nodup {m : Module} (h : m.vids.Nodup) : (stmtsOrder m.statements).Nodup := by
  rw [List.nodup_iff_count_le_one]
  intro x
  have h1 := stmtsOrder_count x m.statements
  have h2 := List.nodup_iff_count_le_one.1 h x
  rw [Module.vids] at h2
  simp only [List.count_cons] at h2
  omega

/-- In a list without duplicates coming before is transitive. -/
theorem before_trans {l : List Vid} (hn : l.Nodup) {a b c : Vid} (h : [a, b].Sublist l)
    (g : [b, c].Sublist l) : [a, c].Sublist l := by
  induction l with
  | nil => cases h
  | cons x l ih =>
    obtain ⟨hx, hn'⟩ := List.nodup_cons.1 hn
    cases h with
    | cons _ h =>
      cases g with
      | cons _ g => exact (ih hn' h g).cons _
      | cons_cons _ g => exact absurd (h.subset (by simp)) hx
    | cons_cons _ h =>
      cases g with
      | cons _ g => exact (List.Sublist.trans (List.sublist_cons_self b [c]) g).cons_cons _
      | cons_cons _ g => exact absurd (h.subset (by simp)) hx

theorem before_irrefl {l : List Vid} (hn : l.Nodup) {a : Vid} : ¬ [a, a].Sublist l := fun h =>
  absurd (hn.sublist h) (by simp)

/-! ### Operands come first -/

theorem vid_mem_exprOrder (e : Expr) : e.vid ∈ exprOrder e := by
  cases e <;> simp [exprOrder, Expr.vid]

theorem vid_mem_exprsOrder {e : Expr} : ∀ {es : List Expr}, e ∈ es → e.vid ∈ exprsOrder es
  | x :: es, h => by
    rw [exprsOrder, List.mem_append]
    rcases List.mem_cons.1 h with rfl | h
    · exact .inl (vid_mem_exprOrder _)
    · exact .inr (vid_mem_exprsOrder h)

theorem before_last {l : List Vid} {a b : Vid} (h : a ∈ l) : [a, b].Sublist (l ++ [b]) := by
  have := List.Sublist.append (List.singleton_sublist.2 h) (List.Sublist.refl [b])
  exact this

mutual

theorem operands_before {x y : Expr} : ∀ e, y ∈ exprTerms e → x ∈ operands y →
    [x.vid, y.vid].Sublist (exprOrder e)
  | .name v n, h, g => by cases List.mem_singleton.1 h; cases g
  | .number v n, h, g => by cases List.mem_singleton.1 h; cases g
  | .string v n, h, g => by cases List.mem_singleton.1 h; cases g
  | .call v n args, h, g => by
    rw [exprOrder]
    rcases List.mem_cons.1 h with rfl | h
    · exact before_last (vid_mem_exprsOrder g)
    · exact (operands_before_list args h g).trans (List.sublist_append_left _ _)
  | .operator v n args, h, g => by
    rw [exprOrder]
    rcases List.mem_cons.1 h with rfl | h
    · exact before_last (vid_mem_exprsOrder g)
    · exact (operands_before_list args h g).trans (List.sublist_append_left _ _)
  | .subscript v e i, h, g => by
    rw [exprOrder]
    rcases List.mem_cons.1 h with rfl | h
    · rw [← List.append_assoc]
      refine before_last (List.mem_append.2 ?_)
      simp only [operands, List.mem_cons, List.not_mem_nil, or_false] at g
      rcases g with rfl | rfl
      · exact .inl (vid_mem_exprOrder _)
      · exact .inr (vid_mem_exprOrder _)
    · rcases List.mem_append.1 h with h | h
      · exact (operands_before e h g).trans (List.sublist_append_left _ _)
      · exact ((operands_before i h g).trans (List.sublist_append_left _ _)).trans (List.sublist_append_right _ _)
  | .attribute v e n, h, g => by
    rw [exprOrder]
    exact (operands_before e h g).trans (List.sublist_append_left _ _)

theorem operands_before_list {x y : Expr} : ∀ es, y ∈ exprsTerms es → x ∈ operands y →
    [x.vid, y.vid].Sublist (exprsOrder es)
  | [], h, g => by cases h
  | e :: es, h, g => by
    rw [exprsOrder]
    rw [exprsTerms, List.mem_append] at h
    rcases h with h | h
    · exact (operands_before e h g).trans (List.sublist_append_left _ _)
    · exact (operands_before_list es h g).trans (List.sublist_append_right _ _)

end

mutual

theorem flowAll_order : ∀ s, ∀ x ∈ flowAll s, (stmtOrder x).Sublist (stmtOrder s)
  | .expr e, x, h => by cases List.mem_singleton.1 h; exact .refl _
  | .assign v y n e, x, h => by cases List.mem_singleton.1 h; exact .refl _
  | .ret v e, x, h => by cases List.mem_singleton.1 h; exact .refl _
  | .ifElse v z c tv ts th fv fs el, x, h => by
    rw [flowAll, List.mem_cons, List.mem_append] at h
    rcases h with rfl | h | h
    · exact .refl _
    · exact ((flowsAll_order th x h).trans (List.sublist_append_left _ _)).trans (List.sublist_append_right _ _)
    · exact ((flowsAll_order el x h).trans (List.sublist_append_right _ _)).trans (List.sublist_append_right _ _)
  | .while v z c tv ts th fv fs el, x, h => by cases h
  | .function v n args bv bs body, x, h => by
    rw [flowAll, List.mem_cons] at h
    rcases h with rfl | h
    · exact .refl _
    · exact (flowsAll_order body x h).trans (List.sublist_append_right _ _)

theorem flowsAll_order : ∀ ss, ∀ x ∈ flowsAll ss, (stmtOrder x).Sublist (stmtsOrder ss)
  | [], x, h => by cases h
  | s :: ss, x, h => by
    rw [flowsAll, List.mem_append] at h
    rw [stmtsOrder]
    rcases h with h | h
    · exact (flowAll_order s x h).trans (List.sublist_append_left _ _)
    · exact (flowsAll_order ss x h).trans (List.sublist_append_right _ _)

end

theorem part_order {s : Stmt} {x y : Expr} (hy : y ∈ partTerms s) (hx : x ∈ operands y) :
    [x.vid, y.vid].Sublist (stmtOrder s) := by
  rw [partTerms] at hy
  cases s with
  | expr e => exact operands_before e (by simpa [parts, expression?] using hy) hx
  | assign v z n e =>
    exact (operands_before e (by simpa [parts, expression?] using hy) hx).trans (List.sublist_append_left _ _)
  | ifElse v z c tv ts th fv fs el =>
    exact (operands_before c (by simpa [parts, expression?] using hy) hx).trans (List.sublist_append_left _ _)
  | «while» v z c tv ts th fv fs el =>
    exact (operands_before c (by simpa [parts, expression?] using hy) hx).trans (List.sublist_append_left _ _)
  | function v n args bv bs body =>
    refine (operands_before_list args ?_ hx).trans (List.sublist_append_left _ _)
    rwa [← exprsTerms_flatMap]
  | ret v e =>
    cases e with
    | none => simp [parts, expression?] at hy
    | some e => exact operands_before e (by simpa [parts, expression?] using hy) hx

theorem mem_consumers {s : Stmt} {x : Expr} {b : Vid} : (x, b) ∈ consumers s ↔
    (∃ v n, s = .assign v b n x) ∨ ∃ y ∈ partTerms s, x ∈ operands y ∧ b = y.vid := by
  have h : ∀ l : List (Expr × Vid), ((x, b) ∈ l ++ (partTerms s).flatMap fun y =>
      (operands y).map fun x => (x, y.vid)) ↔ (x, b) ∈ l ∨ ∃ y ∈ partTerms s, x ∈ operands y ∧ b = y.vid := by
    intro l
    rw [List.mem_append]
    refine or_congr_right ?_
    rw [List.mem_flatMap]
    refine exists_congr fun y => and_congr_right fun _ => ?_
    rw [List.mem_map]
    constructor
    · rintro ⟨z, hz, e⟩
      cases e
      exact ⟨hz, rfl⟩
    · rintro ⟨hz, rfl⟩
      exact ⟨x, hz, rfl⟩
  cases s with
  | assign v z n e =>
    rw [consumers, h]
    refine or_congr_left ?_
    rw [List.mem_singleton]
    constructor
    · intro e
      cases e
      exact ⟨v, n, rfl⟩
    · rintro ⟨_, _, e⟩
      cases e
      rfl
  | _ =>
    simp only [consumers, h]
    refine or_congr_left ?_
    simp

/-- What is used comes before what it is used for. -/
theorem consumed_order {m : Module} {x : Expr} {b : Vid} (h : (x, b) ∈ consumed m) :
    [x.vid, b].Sublist (stmtsOrder m.statements) := by
  obtain ⟨s, hs, h⟩ := List.mem_flatMap.1 h
  refine List.Sublist.trans ?_ (flowsAll_order _ s hs)
  rcases mem_consumers.1 h with ⟨v, n, rfl⟩ | ⟨y, hy, hz, rfl⟩
  · exact before_last (vid_mem_exprOrder _)
  · exact part_order hy hz

/-! ### Definitions come before uses -/

mutual

theorem exprTokens_order : ∀ e, (tokenIds (exprTokens e)).Sublist (exprOrder e)
  | .name v n => .refl _
  | .number v n => List.nil_sublist _
  | .string v n => List.nil_sublist _
  | .call v n args => (exprsTokens_order args).trans (List.sublist_append_left _ _)
  | .operator v n args => (exprsTokens_order args).trans (List.sublist_append_left _ _)
  | .subscript v e i => by
    rw [exprTokens, exprOrder, tokenIds_append]
    exact (exprTokens_order e).append ((exprTokens_order i).trans (List.sublist_append_left _ _))
  | .attribute v e n => (exprTokens_order e).trans (List.sublist_append_left _ _)

theorem exprsTokens_order : ∀ es, (tokenIds (exprsTokens es)).Sublist (exprsOrder es)
  | [] => .refl _
  | e :: es => by
    rw [exprsTokens, exprsOrder, tokenIds_append]
    exact (exprTokens_order e).append (exprsTokens_order es)

end

mutual

theorem stmtTokens_order : ∀ s, (tokenIds (stmtTokens s)).Sublist (stmtOrder s)
  | .expr e => exprTokens_order e
  | .assign v x n e => by
    rw [stmtTokens, stmtOrder, tokenIds_append]
    exact (exprTokens_order e).append (.refl _)
  | .ifElse v z c tv ts th fv fs el => by
    have e1 : tokenIds [Token.begin] = [] := rfl
    have e2 : tokenIds [Token.finish] = [] := rfl
    simp only [stmtTokens, stmtOrder, tokenIds_append, e1, e2, List.nil_append, List.append_nil,
      List.append_assoc]
    exact (exprTokens_order c).append ((stmtsTokens_order th).append (stmtsTokens_order el))
  | .while v z c tv ts th fv fs el => by
    have e1 : tokenIds [Token.begin] = [] := rfl
    have e2 : tokenIds [Token.finish] = [] := rfl
    simp only [stmtTokens, stmtOrder, tokenIds_append, e1, e2, List.nil_append, List.append_nil,
      List.append_assoc]
    exact (exprTokens_order c).append ((stmtsTokens_order th).append (stmtsTokens_order el))
  | .function v n args bv bs body => by
    rw [stmtTokens, stmtOrder, tokenIds_append]
    exact (exprsTokens_order args).append (stmtsTokens_order body)
  | .ret v none => .refl _
  | .ret v (some e) => exprTokens_order e

theorem stmtsTokens_order : ∀ ss, (tokenIds (stmtsTokens ss)).Sublist (stmtsOrder ss)
  | [] => .refl _
  | s :: ss => by
    rw [stmtsTokens, stmtsOrder, tokenIds_append]
    exact (stmtTokens_order s).append (stmtsTokens_order ss)

end

theorem refersTo_order {ss : List Stmt} {v d : Vid} (h : RefersTo (stmtsTokens ss) v d) :
    [d, v].Sublist (stmtsOrder ss) := by
  refine List.Sublist.trans ?_ (stmtsTokens_order ss)
  obtain ⟨n, a, b, c, e, -⟩ := h
  rw [e]
  have h1 : [d, v] = tokenIds [.define n d, .use n v] := rfl
  rw [h1]
  refine List.Sublist.filterMap _ ?_
  refine List.Sublist.trans ?_ (List.sublist_append_right _ _)
  refine List.Sublist.cons_cons _ ?_
  refine List.Sublist.trans ?_ (List.sublist_append_right _ _)
  exact List.Sublist.cons_cons _ (List.nil_sublist _)

/-! ### Names among the operands -/

mutual

theorem term_use {v : Vid} {n : Str} : ∀ e, .name v n ∈ exprTerms e → Token.use n v ∈ exprTokens e
  | .name w k, h => by cases List.mem_singleton.1 h; simp [exprTokens]
  | .number w k, h => by cases List.mem_singleton.1 h
  | .string w k, h => by cases List.mem_singleton.1 h
  | .call w k args, h => by
    rcases List.mem_cons.1 h with h | h
    · cases h
    · exact terms_use args h
  | .operator w k args, h => by
    rcases List.mem_cons.1 h with h | h
    · cases h
    · exact terms_use args h
  | .subscript w e i, h => by
    rw [exprTokens, List.mem_append]
    rcases List.mem_cons.1 h with h | h
    · cases h
    · rcases List.mem_append.1 h with h | h
      · exact .inl (term_use e h)
      · exact .inr (term_use i h)
  | .attribute w e k, h => term_use e h

theorem terms_use {v : Vid} {n : Str} : ∀ es, .name v n ∈ exprsTerms es → Token.use n v ∈ exprsTokens es
  | [], h => by cases h
  | e :: es, h => by
    rw [exprsTokens, List.mem_append]
    rw [exprsTerms, List.mem_append] at h
    rcases h with h | h
    · exact .inl (term_use e h)
    · exact .inr (terms_use es h)

end

/-- A drawn expression is the first of its terms. -/
theorem self_mem_exprTerms (e : Expr) (h : exprHidden e = []) : e ∈ exprTerms e := by
  cases e <;> first | exact List.mem_cons_self | cases h

theorem self_mem_exprsTerms {x : Expr} : ∀ {es : List Expr}, x ∈ es → exprHidden x = [] → x ∈ exprsTerms es
  | e :: es, h, g => by
    rw [exprsTerms, List.mem_append]
    rcases List.mem_cons.1 h with rfl | h
    · exact .inl (self_mem_exprTerms _ g)
    · exact .inr (self_mem_exprsTerms h g)

theorem name_mem_exprsTerms {v : Vid} {n : Str} {es : List Expr} (h : .name v n ∈ es) :
    .name v n ∈ exprsTerms es := self_mem_exprsTerms h rfl

mutual

/-- A name that is an operand of a term is itself a term. -/
theorem operand_name {v : Vid} {n : Str} {y : Expr} : ∀ e, y ∈ exprTerms e → .name v n ∈ operands y →
    .name v n ∈ exprTerms e
  | .name w k, h, g => by cases List.mem_singleton.1 h; cases g
  | .number w k, h, g => by cases List.mem_singleton.1 h; cases g
  | .string w k, h, g => by cases List.mem_singleton.1 h; cases g
  | .call w k args, h, g => by
    rcases List.mem_cons.1 h with rfl | h
    · exact List.mem_cons_of_mem _ (name_mem_exprsTerms g)
    · exact List.mem_cons_of_mem _ (operand_names args h g)
  | .operator w k args, h, g => by
    rcases List.mem_cons.1 h with rfl | h
    · exact List.mem_cons_of_mem _ (name_mem_exprsTerms g)
    · exact List.mem_cons_of_mem _ (operand_names args h g)
  | .subscript w e i, h, g => by
    rcases List.mem_cons.1 h with rfl | h
    · simp only [operands, List.mem_cons, List.not_mem_nil, or_false] at g
      rcases g with rfl | rfl
      · exact List.mem_cons_of_mem _ (List.mem_append_left _ List.mem_cons_self)
      · exact List.mem_cons_of_mem _ (List.mem_append_right _ List.mem_cons_self)
    · rcases List.mem_append.1 h with h | h
      · exact List.mem_cons_of_mem _ (List.mem_append_left _ (operand_name e h g))
      · exact List.mem_cons_of_mem _ (List.mem_append_right _ (operand_name i h g))
  | .attribute w e k, h, g => operand_name e h g

theorem operand_names {v : Vid} {n : Str} {y : Expr} : ∀ es, y ∈ exprsTerms es → .name v n ∈ operands y →
    .name v n ∈ exprsTerms es
  | [], h, g => by cases h
  | e :: es, h, g => by
    rw [exprsTerms, List.mem_append] at h ⊢
    rcases h with h | h
    · exact .inl (operand_name e h g)
    · exact .inr (operand_names es h g)

end

mutual

theorem flowAll_tokens : ∀ s, ∀ x ∈ flowAll s, ∀ k ∈ stmtTokens x, k ∈ stmtTokens s
  | .expr e, x, h, k, g => by cases List.mem_singleton.1 h; exact g
  | .assign v y n e, x, h, k, g => by cases List.mem_singleton.1 h; exact g
  | .ret v e, x, h, k, g => by cases List.mem_singleton.1 h; exact g
  | .ifElse v z c tv ts th fv fs el, x, h, k, g => by
    rw [flowAll, List.mem_cons, List.mem_append] at h
    rcases h with rfl | h | h
    · exact g
    · have := flowsAll_tokens th x h k g
      simp [stmtTokens, this]
    · have := flowsAll_tokens el x h k g
      simp [stmtTokens, this]
  | .while v z c tv ts th fv fs el, x, h, k, g => by cases h
  | .function v n args bv bs body, x, h, k, g => by
    rw [flowAll, List.mem_cons] at h
    rcases h with rfl | h
    · exact g
    · have := flowsAll_tokens body x h k g
      simp [stmtTokens, this]

theorem flowsAll_tokens : ∀ ss, ∀ x ∈ flowsAll ss, ∀ k ∈ stmtTokens x, k ∈ stmtsTokens ss
  | [], x, h, k, g => by cases h
  | s :: ss, x, h, k, g => by
    rw [flowsAll, List.mem_append] at h
    rw [stmtsTokens, List.mem_append]
    rcases h with h | h
    · exact .inl (flowAll_tokens s x h k g)
    · exact .inr (flowsAll_tokens ss x h k g)

end

theorem partTerms_tokens {s : Stmt} {v : Vid} {n : Str} (h : .name v n ∈ partTerms s) :
    Token.use n v ∈ stmtTokens s := by
  rw [partTerms] at h
  cases s with
  | expr e => exact term_use e (by simpa [parts, expression?] using h)
  | assign w z k e => exact List.mem_append_left _ (term_use e (by simpa [parts, expression?] using h))
  | ifElse w z c tv ts th fv fs el =>
    have := term_use c (by simpa [parts, expression?] using h)
    simp [stmtTokens, this]
  | «while» w z c tv ts th fv fs el =>
    have := term_use c (by simpa [parts, expression?] using h)
    simp [stmtTokens, this]
  | function w k args bv bs body =>
    refine List.mem_append_left _ (terms_use args ?_)
    rwa [← exprsTerms_flatMap]
  | ret w e =>
    cases e with
    | none => simp [parts, expression?] at h
    | some e => exact term_use e (by simpa [parts, expression?] using h)

theorem mem_useIds {ts : List Token} {n : Str} {v : Vid} (h : Token.use n v ∈ ts) : v ∈ useIds ts :=
  List.mem_filterMap.2 ⟨_, h, rfl⟩

theorem part_name_use {m : Module} {s : Stmt} (hs : s ∈ flowsAll m.statements) {v : Vid} {n : Str}
    (h : .name v n ∈ partTerms s) : v ∈ useIds (stmtsTokens m.statements) :=
  mem_useIds (flowsAll_tokens _ s hs _ (partTerms_tokens h))

theorem consumed_term {m : Module} {v : Vid} {n : Str} {b : Vid} (h : (.name v n, b) ∈ consumed m) :
    ∃ s ∈ flowsAll m.statements, .name v n ∈ partTerms s := by
  obtain ⟨s, hs, h⟩ := List.mem_flatMap.1 h
  refine ⟨s, hs, ?_⟩
  rcases mem_consumers.1 h with ⟨w, k, rfl⟩ | ⟨y, hy, hz, rfl⟩
  · simp [partTerms, parts, expression?, exprTerms]
  · obtain ⟨e, he, hy⟩ := List.mem_flatMap.1 hy
    exact List.mem_flatMap.2 ⟨e, he, operand_name e hy hz⟩

/-! ### Origins -/

theorem definitions_iff {m : Module} {s : IdentifyState} (hs : identifyModule m = some s) (hn : m.vids.Nodup)
    {v : Vid} (hv : v ∈ useIds (stmtsTokens m.statements)) (d : Vid) :
    (d ∈ s.definitions v ↔ RefersTo (stmtsTokens m.statements) v d) ∧
      (s.definitions v = [] ↔ ∀ d, ¬ RefersTo (stmtsTokens m.statements) v d) := by
  obtain ⟨h1, h2⟩ := C56_definitions m s hs (tokens_nodup hn) v hv
  by_cases h : ∃ d, RefersTo (stmtsTokens m.statements) v d
  · obtain ⟨d', hd⟩ := h
    rw [h1 d' hd]
    constructor
    · rw [List.mem_singleton]
      constructor
      · rintro rfl; exact hd
      · exact fun h => C56_unique _ (tokens_nodup hn) v d d' h hd
    · simp only [List.cons_ne_nil, false_iff]
      exact fun h => h d' hd
  · rw [h2 h]
    refine ⟨?_, ?_⟩
    · simp only [List.not_mem_nil, false_iff]
      exact fun hd => h ⟨d, hd⟩
    · simp only [true_iff]
      exact fun d hd => h ⟨d, hd⟩

theorem origins_iff {t : Links} {m : Module} {s : IdentifyState} (hs : identifyModule m = some s)
    (hn : m.vids.Nodup) (ht : t.definitions = s.definitions) {x : Expr} {b : Vid} (h : (x, b) ∈ consumed m)
    (a : Vid) : a ∈ origins t x ↔ Origin m x a := by
  cases x with
  | name v n =>
    obtain ⟨q, hq, hm⟩ := consumed_term h
    obtain ⟨h1, h2⟩ := definitions_iff hs hn (part_name_use hq hm) a
    simp only [origins, Origin, ht]
    split
    next e =>
      have h3 := h2.1 e
      rw [List.mem_singleton]
      exact ⟨fun e => .inr ⟨e, h3⟩, fun k => k.elim (fun k => absurd k (h3 a)) (·.1)⟩
    next e =>
      rw [h1]
      exact ⟨.inl, fun k => k.elim id fun k => absurd (h2.2 k.2) e⟩
  | _ => simp [origins, Origin]

theorem origin_order {m : Module} (hn : m.vids.Nodup) {x : Expr} {a b : Vid} (h : (x, b) ∈ consumed m)
    (ho : Origin m x a) : [a, b].Sublist (stmtsOrder m.statements) := by
  have hc := consumed_order h
  cases x with
  | name v n =>
    rcases ho with ho | ⟨rfl, -⟩
    · exact before_trans (order_nodup hn) (refersTo_order ho) hc
    · exact hc
  | _ => rw [show a = _ from ho]; exact hc

theorem not_refersTo_self {m : Module} (hn : m.vids.Nodup) (v : Vid) :
    ¬ RefersTo (stmtsTokens m.statements) v v := fun h =>
  before_irrefl (order_nodup hn) (refersTo_order h)

end Fern.Dot
