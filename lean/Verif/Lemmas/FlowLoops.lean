import Verif.Lemmas.FlowShow

/-!
What is assigned in a loop is not visible behind it.
-/

namespace Fern.Dot

open Fern.Spec Spec

mutual

/-- The names in loops. -/
def loopTokens : Stmt → List Token
  | .ifElse _ _ _ _ _ t _ _ f => loopsTokens t ++ loopsTokens f
  | .while v x c tv ts t fv fs f => stmtTokens (.while v x c tv ts t fv fs f)
  | .function _ _ _ _ _ body => loopsTokens body
  | _ => []

@[inherit_doc loopTokens]
def loopsTokens : List Stmt → List Token
  | [] => []
  | s :: ss => loopTokens s ++ loopsTokens ss

end

/-- The names in the expressions of a statement. -/
def ownTokens (s : Stmt) : List Token := (parts s).flatMap exprTokens

theorem exprsTokens_flatMap : ∀ es, exprsTokens es = es.flatMap exprTokens
  | [] => rfl
  | e :: es => by rw [exprsTokens, exprsTokens_flatMap es, List.flatMap_cons]

theorem split_append {α : Type} {x : α} {l1 l2 a rest : List α} (h : l1 ++ l2 = a ++ x :: rest) :
    (∃ r, l1 = a ++ x :: r ∧ rest = r ++ l2) ∨ ∃ a', a = l1 ++ a' ∧ l2 = a' ++ x :: rest := by
  rcases List.append_eq_append_iff.1 h with ⟨c, h1, h2⟩ | ⟨c, h1, h2⟩
  · exact .inr ⟨c, h1, h2⟩
  · cases c with
    | nil =>
      right
      exact ⟨[], by simpa using h1.symm, by simpa using h2.symm⟩
    | cons y c =>
      rw [List.cons_append] at h2
      obtain ⟨rfl, rfl⟩ := List.cons.inj h2
      exact .inl ⟨c, h1, rfl⟩

theorem not_open {ss : List Stmt} {n : Str} {d : Vid} {a r : List Token} (h : stmtsTokens ss = a ++ .define n d :: r)
    (rest : List Token) : ¬ StillOpen (r ++ .finish :: rest) := by
  intro ho
  have h0 := scan_spec _ _ _ (scan_stmts ss 0)
  have h1 := (scan_isSome (stmtsTokens ss) 0).1 (by rw [scan_stmts]; rfl) a ⟨.define n d :: r, h.symm⟩
  have h2 := ho (r ++ [.finish]) ⟨rest, by simp⟩
  rw [h] at h0
  simp only [finishes, begins, List.count_append, List.count_cons, List.count_nil] at h0 h1 h2
  simp at h0 h1 h2
  omega

/-- The definition is followed by the end of its loop; all that is used before is in loops. -/
def Hidden (loops rest : List Token) : Prop :=
  ∃ r1 r2, rest = r1 ++ r2 ∧ ¬ StillOpen r1 ∧ ∀ x ∈ r1, x ∈ loops

theorem Hidden.extend {l l' rest rest' : List Token} (h : Hidden l rest) (hl : ∀ x ∈ l, x ∈ l') : Hidden l' (rest ++ rest') := by
  obtain ⟨r1, r2, rfl, h1, h2⟩ := h
  exact ⟨r1, r2 ++ rest', by simp, h1, fun x hx => hl x (h2 x hx)⟩

mutual

theorem stmt_hidden {n : Str} {d : Vid} : ∀ (s : Stmt) (a rest : List Token), stmtTokens s = a ++ .define n d :: rest →
    (∃ w e, .assign w d n e ∈ flowAll s) ∨ Hidden (loopTokens s) rest
  | .expr e, a, rest, h => absurd (show Token.define n d ∈ stmtTokens (.expr e) by rw [h]; simp) (define_exprTokens e)
  | .assign v target k e, a, rest, h => by
    rcases split_append h with ⟨r, h1, -⟩ | ⟨a', -, h2⟩
    · exact absurd (by rw [h1]; simp) (define_exprTokens (n := n) (d := d) e)
    · have : Token.define n d ∈ [Token.define k target] := by rw [h2]; simp
      cases List.mem_singleton.1 this
      exact .inl ⟨v, e, by simp [flowAll]⟩
  | .ifElse v z c tv ts th fv fs el, a, rest, h => by
    rw [stmtTokens] at h
    rcases split_append h with ⟨r, h1, rfl⟩ | ⟨a', -, h2⟩
    · rcases split_append h1 with ⟨r, h1, -⟩ | ⟨a', -, h2⟩
      · exact absurd (by rw [h1]; simp) (define_exprTokens (n := n) (d := d) c)
      · rcases split_append h2 with ⟨r, h3, rfl⟩ | ⟨a', -, h3⟩
        · rcases split_append h3 with ⟨r, h4, -⟩ | ⟨a', -, h4⟩
          · have : Token.define n d ∈ [Token.begin] := by rw [h4]; simp
            simp at this
          · rcases stmts_hidden th _ _ h4 with ⟨w, e, g⟩ | g
            · exact .inl ⟨w, e, by simp [flowAll, g]⟩
            · right
              rw [List.append_assoc]
              exact g.extend fun x hx => by simp [loopTokens, hx]
        · have : Token.define n d ∈ [Token.finish] := by rw [h3]; simp
          simp at this
    · rcases split_append h2 with ⟨r, h3, rfl⟩ | ⟨a', -, h3⟩
      · rcases split_append h3 with ⟨r, h4, -⟩ | ⟨a', -, h4⟩
        · have : Token.define n d ∈ [Token.begin] := by rw [h4]; simp
          simp at this
        · rcases stmts_hidden el _ _ h4 with ⟨w, e, g⟩ | g
          · exact .inl ⟨w, e, by simp [flowAll, g]⟩
          · exact .inr (g.extend fun x hx => by simp [loopTokens, hx])
      · have : Token.define n d ∈ [Token.finish] := by rw [h3]; simp
        simp at this
  | .while v z c tv ts th fv fs el, a, rest, h => by
    have all : ∀ x ∈ rest, x ∈ loopTokens (.while v z c tv ts th fv fs el) := by
      intro x hx
      rw [loopTokens, h]
      simp [hx]
    right
    refine ⟨rest, [], by simp, ?_, all⟩
    clear all
    rw [stmtTokens] at h
    rcases split_append h with ⟨r, h1, rfl⟩ | ⟨a', -, h2⟩
    · rcases split_append h1 with ⟨r, h1, -⟩ | ⟨a', -, h2⟩
      · exact absurd (by rw [h1]; simp) (define_exprTokens (n := n) (d := d) c)
      · rcases split_append h2 with ⟨r, h3, rfl⟩ | ⟨a', -, h3⟩
        · rcases split_append h3 with ⟨r, h4, -⟩ | ⟨a', -, h4⟩
          · have : Token.define n d ∈ [Token.begin] := by rw [h4]; simp
            simp at this
          · rw [List.append_assoc]
            exact not_open h4 _
        · have : Token.define n d ∈ [Token.finish] := by rw [h3]; simp
          simp at this
    · rcases split_append h2 with ⟨r, h3, rfl⟩ | ⟨a', -, h3⟩
      · rcases split_append h3 with ⟨r, h4, -⟩ | ⟨a', -, h4⟩
        · have : Token.define n d ∈ [Token.begin] := by rw [h4]; simp
          simp at this
        · exact not_open h4 []
      · have : Token.define n d ∈ [Token.finish] := by rw [h3]; simp
        simp at this
  | .function v k args bv bs body, a, rest, h => by
    rw [stmtTokens] at h
    rcases split_append h with ⟨r, h1, -⟩ | ⟨a', -, h2⟩
    · exact absurd (by rw [h1]; simp) (define_exprsTokens (n := n) (d := d) args)
    · rcases stmts_hidden body _ _ h2 with ⟨w, e, g⟩ | g
      · exact .inl ⟨w, e, by simp [flowAll, g]⟩
      · exact .inr (by simpa [loopTokens] using g)
  | .ret v (some e), a, rest, h =>
    absurd (show Token.define n d ∈ stmtTokens (.ret v (some e)) by rw [h]; simp) (define_exprTokens e)
  | .ret v none, a, rest, h => by simp [stmtTokens] at h

theorem stmts_hidden {n : Str} {d : Vid} : ∀ (ss : List Stmt) (a rest : List Token), stmtsTokens ss = a ++ .define n d :: rest →
    (∃ w e, .assign w d n e ∈ flowsAll ss) ∨ Hidden (loopsTokens ss) rest
  | [], a, rest, h => by simp [stmtsTokens] at h
  | s :: ss, a, rest, h => by
    rw [stmtsTokens] at h
    rcases split_append h with ⟨r, h1, rfl⟩ | ⟨a', -, h2⟩
    · rcases stmt_hidden s _ _ h1 with ⟨w, e, g⟩ | g
      · exact .inl ⟨w, e, by simp [flowsAll, g]⟩
      · exact .inr (g.extend fun x hx => by simp [loopsTokens, hx])
    · rcases stmts_hidden ss _ _ h2 with ⟨w, e, g⟩ | g
      · exact .inl ⟨w, e, by simp [flowsAll, g]⟩
      · right
        simpa using g.extend (rest' := []) (l' := loopsTokens (s :: ss)) fun x hx => by simp [loopsTokens, hx]

end

mutual

theorem stmt_apart (x : Token) : ∀ s, (loopTokens s).count x + ((flowAll s).flatMap ownTokens).count x ≤ (stmtTokens s).count x
  | .expr e => by simp [loopTokens, flowAll, ownTokens, parts, expression?, stmtTokens]
  | .assign v target k e => by simp [loopTokens, flowAll, ownTokens, parts, expression?, stmtTokens]
  | .ifElse v z c tv ts th fv fs el => by
    have h1 := stmts_apart x th
    have h2 := stmts_apart x el
    simp only [loopTokens, flowAll, ownTokens, parts, expression?, stmtTokens, List.flatMap_cons, List.flatMap_append,
      List.count_append, Option.toList_some, List.flatMap_nil, List.append_nil] at h1 h2 ⊢
    omega
  | .while v z c tv ts th fv fs el => by simp [loopTokens, flowAll]
  | .function v k args bv bs body => by
    have h1 := stmts_apart x body
    simp only [loopTokens, flowAll, ownTokens, parts, stmtTokens, List.flatMap_cons, List.count_append, exprsTokens_flatMap] at h1 ⊢
    omega
  | .ret v (some e) => by simp [loopTokens, flowAll, ownTokens, parts, expression?, stmtTokens]
  | .ret v none => by simp [loopTokens, flowAll, ownTokens, parts, expression?, stmtTokens]

theorem stmts_apart (x : Token) : ∀ ss,
    (loopsTokens ss).count x + ((flowsAll ss).flatMap ownTokens).count x ≤ (stmtsTokens ss).count x
  | [] => by simp [loopsTokens, flowsAll]
  | s :: ss => by
    have h1 := stmt_apart x s
    have h2 := stmts_apart x ss
    simp only [loopsTokens, flowsAll, stmtsTokens, List.flatMap_append, List.count_append] at h1 h2 ⊢
    omega

end

theorem own_use {q : Stmt} {v : Vid} {n : Str} (h : .name v n ∈ partTerms q) : Token.use n v ∈ ownTokens q := by
  obtain ⟨e, he, h⟩ := List.mem_flatMap.1 h
  exact List.mem_flatMap.2 ⟨e, he, term_use e h⟩

theorem count_use_le (ts : List Token) (h : (tokenIds ts).Nodup) (n : Str) (v : Vid) : ts.count (.use n v) ≤ 1 := by
  refine le_trans ?_ (List.nodup_iff_count_le_one.1 h v)
  clear h
  unfold tokenIds
  induction ts with
  | nil => simp
  | cons x ts ih =>
    cases x with
    | use n' v' =>
      simp only [List.filterMap_cons, List.count_cons]
      by_cases hv : v' = v
      · simp [hv]
        split_ifs <;> omega
      · simpa [hv] using ih
    | define n' v' =>
      simp only [List.filterMap_cons, List.count_cons]
      simp
      omega
    | _ => simpa using ih

/-- A name that is drawn refers to a target that is drawn. -/
theorem refersTo_drawn {ss : List Stmt} (hn : (tokenIds (stmtsTokens ss)).Nodup) {q : Stmt} (hq : q ∈ flowsAll ss) {v d : Vid}
    {n : Str} (hv : .name v n ∈ partTerms q) (h : RefersTo (stmtsTokens ss) v d) : ∃ w k e, .assign w d k e ∈ flowsAll ss := by
  obtain ⟨k, a, b, c, e, ho, -⟩ := h
  rcases stmts_hidden ss _ _ e with ⟨w, x, g⟩ | ⟨r1, r2, h1, h2, h3⟩
  · exact ⟨w, k, x, g⟩
  · exfalso
    have hown : Token.use n v ∈ (flowsAll ss).flatMap ownTokens := List.mem_flatMap.2 ⟨q, hq, own_use hv⟩
    have hkn : k = n := by
      have m1 : Token.use k v ∈ stmtsTokens ss := by rw [e]; simp
      have m2 : Token.use n v ∈ stmtsTokens ss := flowsAll_tokens _ q hq _ (partTerms_tokens hv)
      by_contra hne
      obtain ⟨s, t, hst⟩ := List.append_of_mem m1
      rw [hst] at m2 hn
      unfold tokenIds at hn
      rw [List.filterMap_append, List.filterMap_cons] at hn
      simp only at hn
      rw [List.nodup_append] at hn
      obtain ⟨-, hn2, hn3⟩ := hn
      have hm : ∀ l : List Token, Token.use n v ∈ l → v ∈ l.filterMap fun
          | .use _ v => some v
          | .define _ v => some v
          | .begin => none
          | .finish => none := fun l hl => List.mem_filterMap.2 ⟨_, hl, rfl⟩
      rcases List.mem_append.1 m2 with g | g
      · exact hn3 v (hm _ g) v (by simp) rfl
      · rcases List.mem_cons.1 g with g | g
        · injection g with g _
          exact hne g.symm
        · exact (List.nodup_cons.1 hn2).1 (hm _ g)
    subst hkn
    rcases List.append_eq_append_iff.1 h1 with ⟨y, g1, g2⟩ | ⟨y, g1, g2⟩
    · cases y with
      | nil => exact h2 (by rw [g1]; simpa using ho)
      | cons z y =>
        rw [List.cons_append] at g2
        obtain ⟨rfl, -⟩ := List.cons.inj g2
        have hl : Token.use k v ∈ loopsTokens ss := h3 _ (by rw [g1]; simp)
        have := stmts_apart (.use k v) ss
        have := count_use_le _ hn k v
        have := List.count_pos_iff.2 hl
        have := List.count_pos_iff.2 hown
        omega
    · exact h2 fun p hp => ho p (by rw [g1]; exact hp.trans (List.prefix_append _ _))

end Fern.Dot
