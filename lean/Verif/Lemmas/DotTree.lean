import Verif.Lemmas.Dot
import Mathlib.Data.List.Perm.Basic

/-!
# The graph of a module and the shape of its syntax tree
-/

namespace Fern.Dot

open Fern.Spec Spec

/-! ### Vertices -/

mutual

theorem exprTerms_perm : ∀ e, ((exprTerms e).map Expr.vid ++ exprHidden e).Perm e.vids
  | .name v n => .refl _
  | .number v n => .refl _
  | .string v s => .refl _
  | .call v n args => by
    simp only [exprTerms, exprHidden, Expr.vids, List.map_cons, List.cons_append]
    exact .cons _ (exprsTerms_perm args)
  | .operator v n args => by
    simp only [exprTerms, exprHidden, Expr.vids, List.map_cons, List.cons_append]
    exact .cons _ (exprsTerms_perm args)
  | .subscript v e i => by
    simp only [exprTerms, exprHidden, Expr.vids, List.map_cons, List.cons_append, List.map_append]
    refine .cons _ (List.perm_iff_count.2 fun x => ?_)
    have h := List.perm_iff_count.1 (exprTerms_perm e) x
    have g := List.perm_iff_count.1 (exprTerms_perm i) x
    simp only [List.count_append] at *
    omega
  | .attribute v e n => by
    simp only [exprTerms, exprHidden, Expr.vids]
    exact List.perm_middle.trans (.cons _ (exprTerms_perm e))

theorem exprsTerms_perm : ∀ es, ((exprsTerms es).map Expr.vid ++ exprsHidden es).Perm (Expr.listVids es)
  | [] => .refl _
  | e :: es => by
    simp only [exprsTerms, exprsHidden, Expr.listVids, List.map_append]
    refine List.perm_iff_count.2 fun x => ?_
    have h := List.perm_iff_count.1 (exprTerms_perm e) x
    have g := List.perm_iff_count.1 (exprsTerms_perm es) x
    simp only [List.count_append] at *
    omega

end

mutual

theorem stmtDrawn_perm : ∀ s, (stmtDrawn s ++ stmtHidden s).Perm s.vids
  | .expr e => exprTerms_perm e
  | .assign v target n e => by
    refine List.perm_iff_count.2 fun x => ?_
    have h := List.perm_iff_count.1 (exprTerms_perm e) x
    simp only [stmtDrawn, stmtHidden, Stmt.vids, List.count_append, List.count_cons, List.count_nil] at *
    omega
  | .ifElse v z c tv ts th fv fs el => by
    refine List.perm_iff_count.2 fun x => ?_
    have h := List.perm_iff_count.1 (exprTerms_perm c) x
    have h1 := List.perm_iff_count.1 (stmtsDrawn_perm th) x
    have h2 := List.perm_iff_count.1 (stmtsDrawn_perm el) x
    simp only [stmtDrawn, stmtHidden, Stmt.vids, List.count_append, List.count_cons, List.count_nil] at *
    omega
  | .while v z c tv ts th fv fs el => by
    refine List.perm_iff_count.2 fun x => ?_
    have h := List.perm_iff_count.1 (exprTerms_perm c) x
    have h1 := List.perm_iff_count.1 (stmtsDrawn_perm th) x
    have h2 := List.perm_iff_count.1 (stmtsDrawn_perm el) x
    simp only [stmtDrawn, stmtHidden, Stmt.vids, List.count_append, List.count_cons, List.count_nil] at *
    omega
  | .function v n args bv bs body => by
    refine List.perm_iff_count.2 fun x => ?_
    have h1 := List.perm_iff_count.1 (stmtsDrawn_perm body) x
    simp only [stmtDrawn, stmtHidden, Stmt.vids, List.count_append, List.count_cons, List.count_nil] at *
    omega
  | .ret v none => .refl _
  | .ret v (some e) => .cons _ (exprTerms_perm e)

theorem stmtsDrawn_perm : ∀ ss, (stmtsDrawn ss ++ stmtsHidden ss).Perm (Stmt.listVids ss)
  | [] => .refl _
  | s :: ss => by
    refine List.perm_iff_count.2 fun x => ?_
    have h := List.perm_iff_count.1 (stmtDrawn_perm s) x
    have g := List.perm_iff_count.1 (stmtsDrawn_perm ss) x
    simp only [stmtsDrawn, stmtsHidden, Stmt.listVids, List.count_append] at *
    omega

end

/-! ### Edges -/

/-- The edges from the scopes of statements. -/
def scopeEdges (s : Stmt) : List (Vid × Vid) := (scopes s).flatMap fun x => x.2.2.map fun s => (x.1, s.vid)

theorem map_snd_pair (b : Option (Vid × Str)) (l : List (Vid × Vid)) :
    (l.map fun x => (b, x)).map Prod.snd = l := by simp

mutual

theorem stmtBoxes_perm : ∀ b s, ((stmtBoxes b s).map Prod.snd).Perm
    ((stmtAll s).flatMap ownEdges ++ (stmtAll s).flatMap scopeEdges)
  | b, .expr e => by simp [stmtBoxes, stmtAll, scopeEdges, scopes, Function.comp_def]
  | b, .assign v x n e => by simp [stmtBoxes, stmtAll, scopeEdges, scopes, Function.comp_def]
  | b, .ifElse v z c tv ts th fv fs el => by
    refine List.perm_iff_count.2 fun x => ?_
    have h1 := List.perm_iff_count.1 (stmtsBoxes_perm (tv, b.2) th) x
    have h2 := List.perm_iff_count.1 (stmtsBoxes_perm (fv, b.2) el) x
    simp only [stmtBoxes, stmtAll, List.map_append, List.flatMap_cons, List.flatMap_append, map_snd_pair,
      List.count_append, List.map_map, Function.comp_def] at *
    have : scopeEdges (.ifElse v z c tv ts th fv fs el) =
      th.map (fun s => (tv, s.vid)) ++ el.map (fun s => (fv, s.vid)) := by simp [scopeEdges, scopes]
    rw [this, List.count_append]
    simp only [List.map_id'] at *
    omega
  | b, .while v z c tv ts th fv fs el => by
    refine List.perm_iff_count.2 fun x => ?_
    have h1 := List.perm_iff_count.1 (stmtsBoxes_perm (tv, b.2) th) x
    have h2 := List.perm_iff_count.1 (stmtsBoxes_perm (fv, b.2) el) x
    simp only [stmtBoxes, stmtAll, List.map_append, List.flatMap_cons, List.flatMap_append, map_snd_pair,
      List.count_append, List.map_map, Function.comp_def] at *
    have : scopeEdges (.while v z c tv ts th fv fs el) =
      th.map (fun s => (tv, s.vid)) ++ el.map (fun s => (fv, s.vid)) := by simp [scopeEdges, scopes]
    rw [this, List.count_append]
    simp only [List.map_id'] at *
    omega
  | b, .function v n args bv bs body => by
    refine List.perm_iff_count.2 fun x => ?_
    have h1 := List.perm_iff_count.1 (stmtsBoxes_perm (bv, n) body) x
    simp only [stmtBoxes, stmtAll, List.map_append, List.flatMap_cons, List.flatMap_append, map_snd_pair,
      List.count_append, List.map_map, Function.comp_def] at *
    have : scopeEdges (.function v n args bv bs body) = body.map (fun s => (bv, s.vid)) := by
      simp [scopeEdges, scopes]
    have h2 : ownEdges (.function v n args bv bs body) = [] := by
      simp [ownEdges, statementEdges, expression?, targets]
    rw [this, h2, List.count_nil]
    omega
  | b, .ret v e => by simp [stmtBoxes, stmtAll, scopeEdges, scopes, Function.comp_def]

theorem stmtsBoxes_perm : ∀ b ss, ((stmtsBoxes b ss).map Prod.snd).Perm
    ((stmtsAll ss).flatMap ownEdges ++ (stmtsAll ss).flatMap scopeEdges)
  | b, [] => .refl _
  | b, s :: ss => by
    refine List.perm_iff_count.2 fun x => ?_
    have h := List.perm_iff_count.1 (stmtBoxes_perm b s) x
    have g := List.perm_iff_count.1 (stmtsBoxes_perm b ss) x
    simp only [stmtsBoxes, stmtsAll, List.map_append, List.flatMap_append, List.count_append] at *
    omega

end

theorem count_flatMap_append {α β : Type} [BEq β] [LawfulBEq β] (l : List α) (f g : α → List β) (x : β) :
    (l.flatMap fun a => f a ++ g a).count x = (l.flatMap f).count x + (l.flatMap g).count x := by
  induction l with
  | nil => simp
  | cons a l ih => simp only [List.flatMap_cons, List.count_append, ih]; omega

theorem moduleBoxes_perm (source : Str) (m : Module) :
    ((moduleBoxes source m).map Prod.snd).Perm (treeEdges m) := by
  refine List.perm_iff_count.2 fun x => ?_
  have h := List.perm_iff_count.1 (stmtsBoxes_perm (m.scope, source) m.statements) x
  have e1 : (stmtsAll m.statements).flatMap ownEdges = (stmtsAll m.statements).flatMap fun s =>
    statementEdges s ++ (expression? s).toList.flatMap termEdges := rfl
  rw [e1] at h
  have e2 : (allTerms m).flatMap (fun e => (operands e).map fun x => (e.vid, x.vid)) =
      (stmtsAll m.statements).flatMap fun s => (expression? s).toList.flatMap termEdges := by
    simp only [allTerms, List.flatMap_assoc]
    rfl
  have e3 : ((stmtsAll m.statements).flatMap scopes).flatMap (fun x => x.2.2.map fun s => (x.1, s.vid)) =
      (stmtsAll m.statements).flatMap scopeEdges := by
    simp only [List.flatMap_assoc]
    rfl
  simp only [List.count_append, count_flatMap_append] at h
  simp only [moduleBoxes, treeEdges, allScopes, List.flatMap_cons, List.map_append, List.map_map,
    Function.comp_def, List.count_append, e2, e3, h]
  omega

/-! ### The forest -/

theorem vidCall (v n args) : (Expr.call v n args).vid = v := rfl
theorem vidOperator (v n args) : (Expr.operator v n args).vid = v := rfl
theorem vidSubscript (v e i) : (Expr.subscript v e i).vid = v := rfl
theorem vidExpr (e) : (Stmt.expr e).vid = e.vid := rfl
theorem vidAssign (v x n e) : (Stmt.assign v x n e).vid = v := rfl
theorem vidIf (v z c tv ts th fv fs el) : (Stmt.ifElse v z c tv ts th fv fs el).vid = v := rfl
theorem vidWhile (v z c tv ts th fv fs el) : (Stmt.while v z c tv ts th fv fs el).vid = v := rfl
theorem vidFunction (v n args bv bs body) : (Stmt.function v n args bv bs body).vid = v := rfl
theorem vidRet (v e) : (Stmt.ret v e).vid = v := rfl

theorem mapOperands (v : Vid) (l : List Expr) :
    (l.map fun e => (v, e.vid)).map Prod.snd = l.map Expr.vid := by
  rw [List.map_map]; rfl

theorem mapSndSnd (b : Option (Vid × Str)) (l : List (Vid × Vid)) :
    (l.map fun x => (b, x)).map (fun x => x.2.2) = l.map Prod.snd := by
  rw [List.map_map]; rfl

theorem mapVids (b : Option (Vid × Str)) (v : Vid) (l : List Stmt) :
    (l.map fun s => (b, v, s.vid)).map (fun x => x.2.2) = l.map Stmt.vid := by
  rw [List.map_map]; rfl


mutual

theorem termEdges_perm : ∀ e, exprHidden e = [] →
    ((termEdges e).map Prod.snd ++ [e.vid]).Perm ((exprTerms e).map Expr.vid)
  | .name v n, _ => .refl _
  | .number v n, _ => .refl _
  | .string v s, _ => .refl _
  | .call v n args, h => by
    have g := termsEdges_perm args h
    refine List.perm_iff_count.2 fun x => ?_
    have g := List.perm_iff_count.1 g x
    simp only [termEdges, exprTerms, List.flatMap_cons, operands, List.map_append, mapOperands, List.count_append, List.map_cons, List.count_cons, List.count_nil, vidCall, vidOperator, vidSubscript] at *
    omega
  | .operator v n args, h => by
    have g := termsEdges_perm args h
    refine List.perm_iff_count.2 fun x => ?_
    have g := List.perm_iff_count.1 g x
    simp only [termEdges, exprTerms, List.flatMap_cons, operands, List.map_append, mapOperands, List.count_append, List.map_cons, List.count_cons, List.count_nil, vidCall, vidOperator, vidSubscript] at *
    omega
  | .subscript v e i, h => by
    obtain ⟨h1, h2⟩ := List.append_eq_nil_iff.1 h
    refine List.perm_iff_count.2 fun x => ?_
    have g1 := List.perm_iff_count.1 (termEdges_perm e h1) x
    have g2 := List.perm_iff_count.1 (termEdges_perm i h2) x
    simp only [termEdges, exprTerms, List.flatMap_cons, List.flatMap_append, operands, List.map_append,
      List.map_cons, List.map_nil, List.count_append, List.count_cons, List.count_nil, vidCall, vidOperator, vidSubscript] at *
    omega
  | .attribute v e n, h => by cases h

theorem termsEdges_perm : ∀ es, exprsHidden es = [] →
    (((exprsTerms es).flatMap fun x => (operands x).map fun y => (x.vid, y.vid)).map Prod.snd ++
      es.map Expr.vid).Perm ((exprsTerms es).map Expr.vid)
  | [], _ => .refl _
  | e :: es, h => by
    obtain ⟨h1, h2⟩ := List.append_eq_nil_iff.1 h
    refine List.perm_iff_count.2 fun x => ?_
    have g1 := List.perm_iff_count.1 (termEdges_perm e h1) x
    have g2 := List.perm_iff_count.1 (termsEdges_perm es h2) x
    simp only [exprsTerms, termEdges, List.flatMap_append, List.map_append, List.map_cons,
      List.count_append, List.count_cons, List.count_nil] at *
    omega

end

/-- No attributes in statements. -/
def Clean (ss : List Stmt) : Prop := ∀ s ∈ ss, ∀ e, expression? s = some e → exprHidden e = []

theorem Clean.append {a b : List Stmt} (h : Clean (a ++ b)) : Clean a ∧ Clean b :=
  ⟨fun s hs => h s (List.mem_append_left _ hs), fun s hs => h s (List.mem_append_right _ hs)⟩

theorem Clean.cons {s : Stmt} {b : List Stmt} (h : Clean (s :: b)) :
    (∀ e, expression? s = some e → exprHidden e = []) ∧ Clean b :=
  ⟨h s List.mem_cons_self, fun s hs => h s (List.mem_cons_of_mem _ hs)⟩

/-- The scopes and sentinels of a statement. -/
def stmtRoots (s : Stmt) : List Vid := (scopes s).flatMap fun x => [x.1, x.2.1]

mutual

theorem stmtForest : ∀ b s, Clean (stmtAll s) →
    (((stmtBoxes b s).map fun x => x.2.2) ++ ((stmtAll s).flatMap stmtRoots ++ [s.vid])).Perm (stmtDrawn s)
  | b, .expr e, h => by
    have g := termEdges_perm e (h.cons.1 e rfl)
    simpa [-List.map_map, stmtBoxes, stmtAll, stmtRoots, scopes, stmtDrawn, ownEdges, statementEdges, hasVertex, expression?,
      vidExpr, mapSndSnd] using g
  | b, .assign v z n e, h => by
    have g := termEdges_perm e (h.cons.1 e rfl)
    refine List.perm_iff_count.2 fun x => ?_
    have g := List.perm_iff_count.1 g x
    simp [-List.map_map, stmtBoxes, stmtAll, stmtRoots, scopes, stmtDrawn, ownEdges, statementEdges, hasVertex, expression?,
      targets, vidAssign, vidIf, vidWhile, vidFunction, vidRet, mapSndSnd, mapVids, List.count_cons, List.count_append] at *
    omega
  | b, .ifElse v z c tv ts th fv fs el, h => by
    have g := termEdges_perm c (h.cons.1 c rfl)
    obtain ⟨hc1, hc2⟩ := h.cons.2.append
    refine List.perm_iff_count.2 fun x => ?_
    have g := List.perm_iff_count.1 g x
    have h1 := List.perm_iff_count.1 (stmtsForest (tv, b.2) th hc1) x
    have h2 := List.perm_iff_count.1 (stmtsForest (fv, b.2) el hc2) x
    simp [-List.map_map, stmtBoxes, stmtAll, stmtRoots, scopes, stmtDrawn, ownEdges, statementEdges, hasVertex, expression?,
      targets, vidAssign, vidIf, vidWhile, vidFunction, vidRet, mapSndSnd, mapVids, List.count_cons, List.count_append] at *
    omega
  | b, .while v z c tv ts th fv fs el, h => by
    have g := termEdges_perm c (h.cons.1 c rfl)
    obtain ⟨hc1, hc2⟩ := h.cons.2.append
    refine List.perm_iff_count.2 fun x => ?_
    have g := List.perm_iff_count.1 g x
    have h1 := List.perm_iff_count.1 (stmtsForest (tv, b.2) th hc1) x
    have h2 := List.perm_iff_count.1 (stmtsForest (fv, b.2) el hc2) x
    simp [-List.map_map, stmtBoxes, stmtAll, stmtRoots, scopes, stmtDrawn, ownEdges, statementEdges, hasVertex, expression?,
      targets, vidAssign, vidIf, vidWhile, vidFunction, vidRet, mapSndSnd, mapVids, List.count_cons, List.count_append] at *
    omega
  | b, .function v n args bv bs body, h => by
    refine List.perm_iff_count.2 fun x => ?_
    have h1 := List.perm_iff_count.1 (stmtsForest (bv, n) body h.cons.2) x
    simp [-List.map_map, stmtBoxes, stmtAll, stmtRoots, scopes, stmtDrawn, vidAssign, vidIf, vidWhile, vidFunction, vidRet, mapSndSnd, mapVids, List.count_cons, List.count_append, mapVids] at *
    omega
  | b, .ret v none, h => .refl _
  | b, .ret v (some e), h => by
    have g := termEdges_perm e (h.cons.1 e rfl)
    refine List.perm_iff_count.2 fun x => ?_
    have g := List.perm_iff_count.1 g x
    simp [-List.map_map, stmtBoxes, stmtAll, stmtRoots, scopes, stmtDrawn, ownEdges, statementEdges, hasVertex, expression?,
      targets, vidAssign, vidIf, vidWhile, vidFunction, vidRet, mapSndSnd, mapVids, List.count_cons, List.count_append] at *
    omega

theorem stmtsForest : ∀ b ss, Clean (stmtsAll ss) →
    (((stmtsBoxes b ss).map fun x => x.2.2) ++ ((stmtsAll ss).flatMap stmtRoots ++ ss.map Stmt.vid)).Perm
      (stmtsDrawn ss)
  | b, [], h => .refl _
  | b, s :: ss, h => by
    obtain ⟨hc1, hc2⟩ := h.append
    refine List.perm_iff_count.2 fun x => ?_
    have h1 := List.perm_iff_count.1 (stmtForest b s hc1) x
    have h2 := List.perm_iff_count.1 (stmtsForest b ss hc2) x
    simp only [stmtsBoxes, stmtsAll, stmtsDrawn, List.map_append, List.flatMap_append, List.map_cons,
      List.count_append, List.count_cons, List.count_nil] at *
    omega

end

/-! ### The order of vertices -/

/-- Every edge leads from a vertex to a later one. -/
def Forward (l : List (Vid × Vid)) (d : List Vid) : Prop := ∀ p ∈ l, [p.1, p.2].Sublist d

theorem Forward.mono {l : List (Vid × Vid)} {d e : List Vid} (h : Forward l d) (g : d.Sublist e) :
    Forward l e := fun p hp => (h p hp).trans g

theorem Forward.append {k l : List (Vid × Vid)} {d : List Vid} (h : Forward k d) (g : Forward l d) :
    Forward (k ++ l) d := fun p hp => (List.mem_append.1 hp).elim (h p) (g p)

theorem Forward.star {v : Vid} {l d : List Vid} (h : ∀ x ∈ l, x ∈ d) :
    Forward (l.map fun x => (v, x)) (v :: d) := by
  intro p hp
  obtain ⟨x, hx, rfl⟩ := List.mem_map.1 hp
  exact List.Sublist.cons_cons _ (List.singleton_sublist.2 (h x hx))

theorem vid_mem_exprTerms (e : Expr) (h : exprHidden e = []) : e.vid ∈ (exprTerms e).map Expr.vid :=
  (termEdges_perm e h).subset (by simp)

theorem vids_sub_exprsTerms (es : List Expr) (h : exprsHidden es = []) :
    ∀ x ∈ es.map Expr.vid, x ∈ (exprsTerms es).map Expr.vid :=
  fun _ hx => (termsEdges_perm es h).subset (List.mem_append_right _ hx)

mutual

theorem termEdges_forward : ∀ e, exprHidden e = [] → Forward (termEdges e) ((exprTerms e).map Expr.vid)
  | .name v n, _ => by intro p hp; cases hp
  | .number v n, _ => by intro p hp; cases hp
  | .string v s, _ => by intro p hp; cases hp
  | .call v n args, h => by
    simp only [termEdges, exprTerms, List.flatMap_cons, operands, List.map_cons]
    refine .append ?_ ((termsEdges_forward args h).mono (List.sublist_cons_self _ _))
    have := Forward.star (v := v) (vids_sub_exprsTerms args h)
    rw [List.map_map] at this
    exact this
  | .operator v n args, h => by
    simp only [termEdges, exprTerms, List.flatMap_cons, operands, List.map_cons]
    refine .append ?_ ((termsEdges_forward args h).mono (List.sublist_cons_self _ _))
    have := Forward.star (v := v) (vids_sub_exprsTerms args h)
    rw [List.map_map] at this
    exact this
  | .subscript v e i, h => by
    obtain ⟨h1, h2⟩ := List.append_eq_nil_iff.1 h
    simp only [termEdges, exprTerms, List.flatMap_cons, List.flatMap_append, operands, List.map_cons,
      List.map_append, List.map_nil]
    refine .append ?_ (.append ?_ ?_)
    · refine Forward.star (v := v) (l := [e.vid, i.vid]) fun x hx => ?_
      simp only [List.mem_cons, List.not_mem_nil, or_false] at hx
      rcases hx with rfl | rfl
      · exact List.mem_append_left _ (vid_mem_exprTerms _ h1)
      · exact List.mem_append_right _ (vid_mem_exprTerms _ h2)
    · exact (termEdges_forward e h1).mono ((List.sublist_append_left _ _).trans (List.sublist_cons_self _ _))
    · exact (termEdges_forward i h2).mono ((List.sublist_append_right _ _).trans (List.sublist_cons_self _ _))
  | .attribute v e n, h => by cases h

theorem termsEdges_forward : ∀ es, exprsHidden es = [] →
    Forward ((exprsTerms es).flatMap fun x => (operands x).map fun y => (x.vid, y.vid))
      ((exprsTerms es).map Expr.vid)
  | [], _ => by intro p hp; cases hp
  | e :: es, h => by
    obtain ⟨h1, h2⟩ := List.append_eq_nil_iff.1 h
    simp only [exprsTerms, List.flatMap_append, List.map_append]
    exact .append ((termEdges_forward e h1).mono (List.sublist_append_left _ _))
      ((termsEdges_forward es h2).mono (List.sublist_append_right _ _))

end

theorem vids_sub_stmtsDrawn (ss : List Stmt) (h : Clean (stmtsAll ss)) :
    ∀ x ∈ ss.map Stmt.vid, x ∈ stmtsDrawn ss := fun _ hx =>
  (stmtsForest (0, []) ss h).subset (List.mem_append_right _ (List.mem_append_right _ hx))

theorem scope_forward {v z : Vid} {ss : List Stmt} {l : List (Vid × Vid)} (h : Clean (stmtsAll ss))
    (g : Forward l (stmtsDrawn ss)) :
    Forward ((ss.map fun s => (v, s.vid)) ++ l) ([v] ++ (stmtsDrawn ss ++ [z])) := by
  refine .append ?_ (g.mono ((List.sublist_append_left _ _).trans (List.sublist_cons_self _ _)))
  have := Forward.star (v := v) (l := ss.map Stmt.vid) (d := stmtsDrawn ss ++ [z])
    (fun x hx => List.mem_append_left _ (vids_sub_stmtsDrawn ss h x hx))
  rw [List.map_map] at this
  exact this

mutual

theorem stmtBoxes_forward : ∀ b s, Clean (stmtAll s) →
    Forward ((stmtBoxes b s).map Prod.snd) (stmtDrawn s)
  | b, .expr e, h => by
    have := termEdges_forward e (h.cons.1 e rfl)
    simpa [stmtBoxes, ownEdges, statementEdges, hasVertex, expression?, stmtDrawn, Function.comp_def] using this
  | b, .assign v x n e, h => by
    have he := h.cons.1 e rfl
    simp only [stmtBoxes, map_snd_pair, ownEdges, statementEdges, hasVertex, if_true, expression?, targets,
      stmtDrawn, Option.toList_some, List.flatMap_cons, List.flatMap_nil, List.append_nil, List.map_append,
      List.map_cons, List.map_nil, Stmt.vid]
    refine .append ?_ ((termEdges_forward e he).mono
      ((List.sublist_append_left _ _).trans (List.sublist_cons_self _ _)))
    refine Forward.star (v := v) (l := [x, e.vid]) fun y hy => ?_
    simp only [List.mem_cons, List.not_mem_nil, or_false] at hy
    rcases hy with rfl | rfl
    · simp
    · exact List.mem_append_left _ (vid_mem_exprTerms _ he)
  | b, .ifElse v z c tv ts th fv fs el, h => by
    have he := h.cons.1 c rfl
    obtain ⟨hc1, hc2⟩ := h.cons.2.append
    have g1 := scope_forward (v := tv) (z := ts) hc1 (stmtsBoxes_forward (tv, b.2) th hc1)
    have g2 := scope_forward (v := fv) (z := fs) hc2 (stmtsBoxes_forward (fv, b.2) el hc2)
    have e1 : (stmtBoxes b (.ifElse v z c tv ts th fv fs el)).map Prod.snd =
        [(v, c.vid)] ++ (termEdges c ++ (((th.map fun s => (tv, s.vid)) ++
          (stmtsBoxes (tv, b.2) th).map Prod.snd) ++ ((el.map fun s => (fv, s.vid)) ++
          (stmtsBoxes (fv, b.2) el).map Prod.snd))) := by
      simp [stmtBoxes, ownEdges, statementEdges, hasVertex, expression?, targets, Function.comp_def, Stmt.vid]
    rw [e1, stmtDrawn]
    refine .append ?_ (.append ?_ (.append ?_ ?_))
    · exact Forward.star (v := v) (l := [c.vid]) (d := _) fun x hx => by
        rw [List.mem_singleton.1 hx]
        exact List.mem_append_right [] (List.mem_append_left _ (vid_mem_exprTerms _ he))
    · exact (termEdges_forward c he).mono ((List.sublist_append_left _ _).trans (List.sublist_append_right _ _))
    · exact g1.mono ((List.sublist_append_left _ _).trans
        ((List.sublist_append_right _ _).trans (List.sublist_append_right _ _)))
    · exact g2.mono ((List.sublist_append_right _ _).trans
        ((List.sublist_append_right _ _).trans (List.sublist_append_right _ _)))
  | b, .while v z c tv ts th fv fs el, h => by
    have he := h.cons.1 c rfl
    obtain ⟨hc1, hc2⟩ := h.cons.2.append
    have g1 := scope_forward (v := tv) (z := ts) hc1 (stmtsBoxes_forward (tv, b.2) th hc1)
    have g2 := scope_forward (v := fv) (z := fs) hc2 (stmtsBoxes_forward (fv, b.2) el hc2)
    have e1 : (stmtBoxes b (.while v z c tv ts th fv fs el)).map Prod.snd =
        [(v, c.vid)] ++ (termEdges c ++ (((th.map fun s => (tv, s.vid)) ++
          (stmtsBoxes (tv, b.2) th).map Prod.snd) ++ ((el.map fun s => (fv, s.vid)) ++
          (stmtsBoxes (fv, b.2) el).map Prod.snd))) := by
      simp [stmtBoxes, ownEdges, statementEdges, hasVertex, expression?, targets, Function.comp_def, Stmt.vid]
    rw [e1, stmtDrawn]
    refine .append ?_ (.append ?_ (.append ?_ ?_))
    · exact Forward.star (v := v) (l := [c.vid]) (d := _) fun x hx => by
        rw [List.mem_singleton.1 hx]
        exact List.mem_append_right [] (List.mem_append_left _ (vid_mem_exprTerms _ he))
    · exact (termEdges_forward c he).mono ((List.sublist_append_left _ _).trans (List.sublist_append_right _ _))
    · exact g1.mono ((List.sublist_append_left _ _).trans
        ((List.sublist_append_right _ _).trans (List.sublist_append_right _ _)))
    · exact g2.mono ((List.sublist_append_right _ _).trans
        ((List.sublist_append_right _ _).trans (List.sublist_append_right _ _)))
  | b, .function v n args bv bs body, h => by
    have g1 := scope_forward (v := bv) (z := bs) h.cons.2 (stmtsBoxes_forward (bv, n) body h.cons.2)
    have e1 : (stmtBoxes b (.function v n args bv bs body)).map Prod.snd =
        (body.map fun s => (bv, s.vid)) ++ (stmtsBoxes (bv, n) body).map Prod.snd := by
      simp [stmtBoxes, Function.comp_def]
    rw [e1, stmtDrawn]
    exact g1.mono (List.sublist_append_right _ _)
  | b, .ret v none, h => by intro p hp; cases hp
  | b, .ret v (some e), h => by
    have he := h.cons.1 e rfl
    have e1 : (stmtBoxes b (.ret v (some e))).map Prod.snd = [(v, e.vid)] ++ termEdges e := by
      simp [stmtBoxes, ownEdges, statementEdges, hasVertex, expression?, targets, Function.comp_def, Stmt.vid]
    rw [e1, stmtDrawn]
    refine .append ?_ ((termEdges_forward e he).mono (List.sublist_cons_self _ _))
    exact Forward.star (v := v) (l := [e.vid]) (d := _) fun x hx => by
      rw [List.mem_singleton.1 hx]
      exact vid_mem_exprTerms _ he

theorem stmtsBoxes_forward : ∀ b ss, Clean (stmtsAll ss) →
    Forward ((stmtsBoxes b ss).map Prod.snd) (stmtsDrawn ss)
  | b, [], h => by intro p hp; cases hp
  | b, s :: ss, h => by
    obtain ⟨hc1, hc2⟩ := h.append
    rw [stmtsBoxes, List.map_append, stmtsDrawn]
    exact .append ((stmtBoxes_forward b s hc1).mono (List.sublist_append_left _ _))
      ((stmtsBoxes_forward b ss hc2).mono (List.sublist_append_right _ _))

end

end Fern.Dot
