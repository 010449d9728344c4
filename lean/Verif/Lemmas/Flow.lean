import Verif.Spec.Flow
import Verif.Lemmas.DotUses
import Verif.Lemmas.DotShow

/-!
# Lemmas about the graph of the flow of data
-/

namespace Fern.Dot

open Fern.Spec Spec

variable {fmt : FloatFormat} {t : Links}

/-- The edges from the operands of expressions. -/
def termsFlow (t : Links) (l : List Expr) : List (Vid × Vid) :=
  l.flatMap fun y => (operands y).flatMap fun x => (origins t x).map fun a => (a, y.vid)

theorem flowEdges_lines (x : Expr) (b : Vid) :
    flowEdges t x b = lines plain ((origins t x).map fun a => (a, b)) := by
  cases x <;> simp only [flowEdges, origins]
  case name v n =>
    split
    · rfl
    · simp [lines, plain]
  all_goals rfl

theorem flatMap_flowEdges (es : List Expr) (v : Vid) :
    es.flatMap (flowEdges t · v) = lines plain (es.flatMap fun x => (origins t x).map fun a => (a, v)) := by
  induction es with
  | nil => rfl
  | cons e es ih => rw [List.flatMap_cons, List.flatMap_cons, lines_append, ih, flowEdges_lines]

mutual

theorem flowConnectExpr_lines : ∀ e, flowConnectExpr t e = lines plain (termsFlow t (exprTerms e))
  | .name v n => rfl
  | .number v n => rfl
  | .string v s => rfl
  | .call v n args => by
    rw [flowConnectExpr, flowConnectExprs_lines, flatMap_flowEdges, ← lines_append]; rfl
  | .operator v n args => by
    rw [flowConnectExpr, flowConnectExprs_lines, flatMap_flowEdges, ← lines_append]; rfl
  | .subscript v e i => by
    rw [flowConnectExpr, flowConnectExpr_lines e, flowConnectExpr_lines i, flowEdges_lines, flowEdges_lines,
      ← lines_append, ← lines_append, ← lines_append]
    simp [termsFlow, exprTerms, operands, Expr.vid]
  | .attribute v e n => by rw [flowConnectExpr, flowConnectExpr_lines e, exprTerms]

theorem flowConnectExprs_lines : ∀ es, flowConnectExprs t es = lines plain (termsFlow t (exprsTerms es))
  | [] => rfl
  | e :: es => by
    rw [flowConnectExprs, flowConnectExpr_lines e, flowConnectExprs_lines es, ← lines_append, exprsTerms]
    simp [termsFlow]

end

/-- The edges of a statement. -/
def stmtFlow (t : Links) (s : Stmt) : List (Vid × Vid) :=
  (consumers s).flatMap fun p => (origins t p.1).map fun a => (a, p.2)

theorem termsFlow_eq (l : List Expr) : termsFlow t l =
    (l.flatMap fun y => (operands y).map fun x => (x, y.vid)).flatMap
      fun p => (origins t p.1).map fun a => (a, p.2) := by
  simp only [termsFlow, List.flatMap_assoc, List.flatMap_map]

theorem stmtFlow_eq (s : Stmt) : stmtFlow t s = (match s with
    | .assign _ target _ e => (origins t e).map fun a => (a, target)
    | _ => []) ++ termsFlow t (partTerms s) := by
  cases s <;> simp [stmtFlow, consumers, termsFlow_eq]

theorem partTerms_some {s : Stmt} {e : Expr} (h : parts s = [e]) : partTerms s = exprTerms e := by
  simp [partTerms, h]

mutual

theorem exprsTerms_flatMap : ∀ es, es.flatMap exprTerms = exprsTerms es
  | [] => rfl
  | e :: es => by rw [List.flatMap_cons, exprsTerms, exprsTerms_flatMap es]

end


/-- What connecting adds: edges in order, no vertices, boxes with numbers in order that are closed. -/
structure Flows (k : Nat) (r : List Item × Nat) (l : List (Vid × Vid)) : Prop where
  edges : edges plain r.1 = l
  nodes : nodes r.1 = []
  le : k ≤ r.2
  numbers : boxNumbers r.1 = List.range' k (r.2 - k)
  closed : ∀ stack rest, ∃ b, boxes stack (r.1 ++ rest) = (boxes stack rest).map fun q => (b ++ q.1, q.2)

theorem boxNumbers_append (a b : List Item) : boxNumbers (a ++ b) = boxNumbers a ++ boxNumbers b :=
  List.filterMap_append

theorem boxNumbers_lines (x : Str) (l : List (Vid × Vid)) : boxNumbers (lines x l) = [] := by
  induction l with
  | nil => rfl
  | cons p l ih => exact ih

theorem Flows.lines (k : Nat) (l : List (Vid × Vid)) : Flows k (lines plain l, k) l := by
  refine ⟨edges_lines _ _, nodes_lines _ _, Nat.le_refl _, ?_, fun stack rest => ?_⟩
  · simp [boxNumbers_lines]
  · rw [boxes_lines]
    exact ⟨_, rfl⟩

theorem Flows.append {k : Nat} {a b : List Item × Nat} {l l' : List (Vid × Vid)} (h : Flows k a l)
    (g : Flows a.2 b l') : Flows k (a.1 ++ b.1, b.2) (l ++ l') := by
  refine ⟨?_, ?_, Nat.le_trans h.le g.le, ?_, fun stack rest => ?_⟩
  · rw [edges_append, h.edges, g.edges]
  · rw [nodes_append, h.nodes, g.nodes]; rfl
  · rw [boxNumbers_append, h.numbers, g.numbers]
    have h1 := h.le
    have h2 := g.le
    have := List.range'_append_1 (s := k) (m := a.2 - k) (n := b.2 - a.2)
    rw [show k + (a.2 - k) = a.2 by omega] at this
    rw [this]
    congr 1
    dsimp only
    omega
  · obtain ⟨x, hx⟩ := h.closed stack (b.1 ++ rest)
    obtain ⟨y, hy⟩ := g.closed stack rest
    refine ⟨x ++ y, ?_⟩
    rw [List.append_assoc, hx, hy, Option.map_map]
    congr 1
    funext q
    simp

theorem Flows.box {k : Nat} {a : List Item × Nat} {l : List (Vid × Vid)} (h : Flows (k + 1) a l) :
    Flows k (.box k :: (a.1 ++ [.close]), a.2) l := by
  refine ⟨?_, ?_, Nat.le_trans (Nat.le_succ k) h.le, ?_, fun stack rest => ?_⟩
  · simp [edges_append, h.edges, edges]
  · rw [nodes_box, nodes_append, h.nodes]; rfl
  · have h1 := h.le
    have e : a.2 - k = a.2 - (k + 1) + 1 := by omega
    rw [e, List.range'_succ, ← h.numbers]
    simp [boxNumbers]
  · obtain ⟨x, hx⟩ := h.closed ((k, []) :: stack) (.close :: rest)
    refine ⟨x, ?_⟩
    rw [List.cons_append, List.append_assoc, boxes, List.singleton_append, hx, boxes]

mutual

theorem flowConnectStmt_flows : ∀ k s, Flows k (flowConnectStmt t k s) ((flowAll s).flatMap (stmtFlow t))
  | k, .expr e => by
    rw [flowConnectStmt, flowConnectExpr_lines]
    simpa [flowAll, stmtFlow_eq, partTerms, parts, expression?] using Flows.lines k (termsFlow t (exprTerms e))
  | k, .assign v x n e => by
    rw [flowConnectStmt, flowConnectExpr_lines, flowEdges_lines, ← lines_append]
    simpa [flowAll, stmtFlow_eq, partTerms, parts, expression?] using
      Flows.lines k (((origins t e).map fun a => (a, x)) ++ termsFlow t (exprTerms e))
  | k, .ifElse v z c tv ts th fv fs el => by
    have h1 := (flowConnectStmts_flows (k + 1) th).box
    have h0 := (Flows.lines k (termsFlow t (exprTerms c))).append h1
    have e0 : stmtFlow t (.ifElse v z c tv ts th fv fs el) = termsFlow t (exprTerms c) := by
      simp [stmtFlow_eq, partTerms, parts, expression?]
    rw [flowConnectStmt, flowConnectExpr_lines, flowAll, List.flatMap_cons, List.flatMap_append, e0]
    cases el with
    | nil => simpa [flowsAll] using h0
    | cons s ss =>
      have h2 := (flowConnectStmts_flows ((flowConnectStmts t (k + 1) th).2 + 1) (s :: ss)).box
      have := h0.append h2
      simpa using this
  | k, .while v z c tv ts th fv fs el => Flows.lines k []
  | k, .function v n args bv bs body => by
    have h := (Flows.lines k (termsFlow t (exprsTerms args))).append (flowConnectStmts_flows k body)
    have e0 : stmtFlow t (.function v n args bv bs body) = termsFlow t (exprsTerms args) := by
      simp [stmtFlow_eq, partTerms, parts, exprsTerms_flatMap]
    rw [flowConnectStmt, flowConnectExprs_lines, flowAll, List.flatMap_cons, e0]
    exact h
  | k, .ret v none => by
    simpa [flowConnectStmt, flowAll, stmtFlow_eq, partTerms, parts, expression?, termsFlow, Dot.lines]
      using Flows.lines k []
  | k, .ret v (some e) => by
    rw [flowConnectStmt, flowConnectExpr_lines]
    simpa [flowAll, stmtFlow_eq, partTerms, parts, expression?] using Flows.lines k (termsFlow t (exprTerms e))

theorem flowConnectStmts_flows : ∀ k ss,
    Flows k (flowConnectStmts t k ss) ((flowsAll ss).flatMap (stmtFlow t))
  | k, [] => Flows.lines k []
  | k, s :: ss => by
    rw [flowConnectStmts, flowsAll, List.flatMap_append]
    exact (flowConnectStmt_flows k s).append (flowConnectStmts_flows _ ss)

end

/-! ### Declarations -/

theorem flowName_declares (v : Vid) (n : Str) :
    Declares (flowName t v n) (((exprTerms (.name v n)).filter (drawnTerm t)).map Expr.vid) := by
  rw [flowName]
  split
  next h =>
    have : drawnTerm t (.name v n) = true := by simpa [drawnTerm] using h
    simp only [exprTerms, List.filter_cons, this, if_true]
    exact .one _ _ _
  next h =>
    have : drawnTerm t (.name v n) = false := by simpa [drawnTerm] using h
    simp only [exprTerms, List.filter_cons, this]
    exact .nil

mutual

theorem flowDeclareExpr_declares : ∀ e i, flowDeclareExpr fmt t e = some i →
    Declares i (((exprTerms e).filter (drawnTerm t)).map Expr.vid)
  | .name v n, i, h => by cases h; exact flowName_declares v n
  | .number v n, i, h => by cases h; exact .one _ _ _
  | .string v n, i, h => by cases h; exact .one _ _ _
  | .call v n args, i, h => by
    rw [flowDeclareExpr] at h
    obtain ⟨a, ha, rfl⟩ := Option.map_eq_some_iff.1 h
    exact (Declares.one v n _).append (flowDeclareExprs_declares args a ha)
  | .operator v n args, i, h => by
    rw [flowDeclareExpr] at h
    obtain ⟨x, -, h⟩ := Option.bind_eq_some_iff.1 h
    obtain ⟨a, ha, rfl⟩ := Option.map_eq_some_iff.1 h
    exact (Declares.one v x _).append (flowDeclareExprs_declares args a ha)
  | .subscript v e s, i, h => by
    rw [flowDeclareExpr] at h
    obtain ⟨a, ha, h⟩ := Option.bind_eq_some_iff.1 h
    obtain ⟨b, hb, rfl⟩ := Option.map_eq_some_iff.1 h
    have := (Declares.one v "[]".toList ", shape=triangle".toList).append
      ((flowDeclareExpr_declares e a ha).append (flowDeclareExpr_declares s b hb))
    simpa [exprTerms, drawnTerm, List.filter_cons, Expr.vid, flowOperation] using this
  | .attribute v e n, i, h => flowDeclareExpr_declares e i h

theorem flowDeclareExprs_declares : ∀ es i, flowDeclareExprs fmt t es = some i →
    Declares i (((exprsTerms es).filter (drawnTerm t)).map Expr.vid)
  | [], i, h => by cases h; exact .nil
  | e :: es, i, h => by
    rw [flowDeclareExprs] at h
    obtain ⟨a, ha, h⟩ := Option.bind_eq_some_iff.1 h
    obtain ⟨b, hb, rfl⟩ := Option.map_eq_some_iff.1 h
    rw [exprsTerms, List.filter_append, List.map_append]
    exact (flowDeclareExpr_declares e a ha).append (flowDeclareExprs_declares es b hb)

end

mutual

theorem flowDeclareStmt_declares : ∀ s i, flowDeclareStmt fmt t s = some i →
    Declares i ((flowAll s).flatMap (flowVertices t))
  | .expr e, i, h => by
    simpa [flowAll, flowVertices, partTerms, parts, expression?] using flowDeclareExpr_declares e i h
  | .assign v x n e, i, h => by
    rw [flowDeclareStmt] at h
    obtain ⟨a, ha, rfl⟩ := Option.map_eq_some_iff.1 h
    have e0 : ((exprTerms (.name x n)).filter (drawnTerm t)).map Expr.vid =
        if drawnTerm t (.name x n) then [x] else [] := by
      simp only [exprTerms, List.filter_cons]
      split <;> simp [Expr.vid]
    have := (flowDeclareExpr_declares e a ha).append (flowName_declares (t := t) x n)
    rw [e0] at this
    simpa [flowAll, flowVertices, partTerms, parts, expression?] using this
  | .ifElse v z c tv ts th fv fs el, i, h => by
    rw [flowDeclareStmt] at h
    obtain ⟨a, ha, h⟩ := Option.bind_eq_some_iff.1 h
    obtain ⟨b, hb, h⟩ := Option.bind_eq_some_iff.1 h
    obtain ⟨d, hd, rfl⟩ := Option.map_eq_some_iff.1 h
    have := (Declares.one v "If".toList ", shape=diamond".toList).append
      ((flowDeclareExpr_declares c a ha).append
        ((flowDeclareStmts_declares th b hb).append (flowDeclareStmts_declares el d hd)))
    simpa [flowAll, flowVertices, partTerms, parts, expression?] using this
  | .while v z c tv ts th fv fs el, i, h => by cases h; exact .nil
  | .function v n args bv bs body, i, h => by
    rw [flowDeclareStmt] at h
    obtain ⟨a, ha, h⟩ := Option.bind_eq_some_iff.1 h
    obtain ⟨b, hb, rfl⟩ := Option.map_eq_some_iff.1 h
    have := (flowDeclareExprs_declares args a ha).append (flowDeclareStmts_declares body b hb)
    simpa [flowAll, flowVertices, partTerms, parts, exprsTerms_flatMap] using this
  | .ret v none, i, h => by cases h; exact .nil
  | .ret v (some e), i, h => by
    simpa [flowAll, flowVertices, partTerms, parts, expression?] using flowDeclareExpr_declares e i h

theorem flowDeclareStmts_declares : ∀ ss i, flowDeclareStmts fmt t ss = some i →
    Declares i ((flowsAll ss).flatMap (flowVertices t))
  | [], i, h => by cases h; exact .nil
  | s :: ss, i, h => by
    rw [flowDeclareStmts] at h
    obtain ⟨a, ha, h⟩ := Option.bind_eq_some_iff.1 h
    obtain ⟨b, hb, rfl⟩ := Option.map_eq_some_iff.1 h
    rw [flowsAll, List.flatMap_append]
    exact (flowDeclareStmt_declares s a ha).append (flowDeclareStmts_declares ss b hb)

end

end Fern.Dot
