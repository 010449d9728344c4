import Verif.Lemmas.OptimizePasses
import Verif.Lemmas.InOut
import Verif.Spec.Optimize
import Verif.Props.Identify

/-!
# Uses, definitions and the positions of statements in straight-line modules
-/

namespace Fern

open Spec

theorem stmtsTokens_append' (a b : List Stmt) : stmtsTokens (a ++ b) = stmtsTokens a ++ stmtsTokens b := by
  induction a with
  | nil => rw [stmtsTokens]; rfl
  | cons t a ih => rw [List.cons_append, stmtsTokens, stmtsTokens, ih, List.append_assoc]

mutual

theorem exprTokens_use (e : Expr) : ∀ t ∈ exprTokens e, ∃ n v, t = .use n v := by
  cases e with
  | name v n => rw [exprTokens]; simp
  | number v n => rw [exprTokens]; simp
  | string v s => rw [exprTokens]; simp
  | call v n args => rw [exprTokens]; exact exprsTokens_use args
  | operator v n args => rw [exprTokens]; exact exprsTokens_use args
  | subscript v e i =>
    rw [exprTokens]
    intro t ht
    rcases List.mem_append.1 ht with h | h
    · exact exprTokens_use e t h
    · exact exprTokens_use i t h
  | «attribute» v e m => rw [exprTokens]; exact exprTokens_use e

theorem exprsTokens_use (es : List Expr) : ∀ t ∈ exprsTokens es, ∃ n v, t = .use n v := by
  cases es with
  | nil => rw [exprsTokens]; simp
  | cons e es =>
    rw [exprsTokens]
    intro t ht
    rcases List.mem_append.1 ht with h | h
    · exact exprTokens_use e t h
    · exact exprsTokens_use es t h

end

/-- Assignments and expressions only. -/
def Simple (l : List Stmt) : Prop :=
  ∀ t ∈ l, (∃ e, t = .expr e) ∨ ∃ v t' n e, t = .assign v t' n e

theorem StraightLine.simple {l : List Stmt} (h : StraightLine l) : Simple l := by
  induction l with
  | nil => intro t ht; cases ht
  | cons x l ih =>
    intro t ht
    cases x with
    | expr e =>
      rcases List.mem_cons.1 ht with rfl | ht
      · exact .inl ⟨e, rfl⟩
      · exact ih h.2 t ht
    | assign v t' n e =>
      rcases List.mem_cons.1 ht with rfl | ht
      · exact .inr ⟨v, t', n, e, rfl⟩
      · exact ih h.2 t ht
    | ifElse v sv e tv ts t fv fs f => exact h.elim
    | «while» v sv e tv ts t fv fs f => exact h.elim
    | function v n args bv bs body => exact h.elim
    | ret v e => exact h.elim

/-- The expression of a statement. -/
def stmtExpr : Stmt → Option Expr
  | .expr e => some e
  | .assign _ _ _ e => some e
  | _ => none

theorem mem_simple_tokens {l : List Stmt} (hl : Simple l) {t : Token} (ht : t ∈ stmtsTokens l) :
    (∃ n v, t = .use n v ∧ ∃ x ∈ l, ∃ e, stmtExpr x = some e ∧ t ∈ exprTokens e) ∨
      ∃ v d n e, t = .define n d ∧ Stmt.assign v d n e ∈ l := by
  induction l with
  | nil => rw [stmtsTokens] at ht; cases ht
  | cons x l ih =>
    rw [stmtsTokens] at ht
    rcases List.mem_append.1 ht with ht | ht
    · rcases hl x List.mem_cons_self with ⟨e, rfl⟩ | ⟨v, t', n, e, rfl⟩
      · rw [stmtTokens] at ht
        obtain ⟨n, v, rfl⟩ := exprTokens_use e _ ht
        exact .inl ⟨n, v, rfl, _, List.mem_cons_self, e, rfl, ht⟩
      · rw [stmtTokens] at ht
        rcases List.mem_append.1 ht with ht | ht
        · obtain ⟨n', v', rfl⟩ := exprTokens_use e _ ht
          exact .inl ⟨n', v', rfl, _, List.mem_cons_self, e, rfl, ht⟩
        · rw [List.mem_singleton] at ht
          exact .inr ⟨v, t', n, e, ht, List.mem_cons_self⟩
    · rcases ih (fun t h => hl t (List.mem_cons_of_mem _ h)) ht with
        ⟨n, v, h1, y, hy, e, h2, h3⟩ | ⟨v, d, n, e, h1, h2⟩
      · exact .inl ⟨n, v, h1, y, List.mem_cons_of_mem _ hy, e, h2, h3⟩
      · exact .inr ⟨v, d, n, e, h1, List.mem_cons_of_mem _ h2⟩

theorem mem_targets {l : List Stmt} {n : Str} : n ∈ targets l ↔ ∃ v t e, Stmt.assign v t n e ∈ l := by
  induction l with
  | nil => simp [targets]
  | cons x l ih =>
    cases x with
    | assign v t m e =>
      rw [targets, List.mem_cons, ih]
      constructor
      · rintro (rfl | ⟨v', t', e', h⟩)
        · exact ⟨v, t, e, List.mem_cons_self⟩
        · exact ⟨v', t', e', List.mem_cons_of_mem _ h⟩
      · rintro ⟨v', t', e', h⟩
        rcases List.mem_cons.1 h with h | h
        · cases h; exact .inl rfl
        · exact .inr ⟨v', t', e', h⟩
    | _ =>
      rw [targets]
      · rw [ih]; simp
      · intros; simp_all

theorem targets_append (a b : List Stmt) : targets (a ++ b) = targets a ++ targets b := by
  induction a with
  | nil => rfl
  | cons x a ih => cases x <;> simp [targets, ih]

theorem assign_tokens {l : List Stmt} {v t : Vid} {n : Str} {e : Expr} (h : Stmt.assign v t n e ∈ l) :
    Token.define n t ∈ stmtsTokens l := by
  obtain ⟨a, b, rfl⟩ := List.append_of_mem h
  rw [stmtsTokens_append', stmtsTokens, stmtTokens]
  simp

theorem define_targets {l : List Stmt} (hl : Simple l) {n : Str} {d : Vid}
    (h : Token.define n d ∈ stmtsTokens l) : n ∈ targets l := by
  rcases mem_simple_tokens hl h with ⟨_, _, h, _⟩ | ⟨v, d', n', e, h1, h2⟩
  · cases h
  · cases h1; exact mem_targets.2 ⟨v, d, e, h2⟩

theorem stillOpen_of {ts : List Token} (h : Token.finish ∉ ts) : StillOpen ts := by
  intro p hp
  have : finishes p = 0 := by
    rw [finishes, List.count_eq_zero]
    exact fun hf => h (hp.subset hf)
  omega

theorem finish_not_mem {l : List Stmt} (hl : Simple l) : Token.finish ∉ stmtsTokens l := by
  intro h
  rcases mem_simple_tokens hl h with ⟨_, _, h, _⟩ | ⟨_, _, _, _, h, _⟩ <;> cases h

theorem Simple.left {a b : List Stmt} (h : Simple (a ++ b)) : Simple a :=
  fun t ht => h t (List.mem_append_left _ ht)

theorem Simple.right {a b : List Stmt} (h : Simple (a ++ b)) : Simple b :=
  fun t ht => h t (List.mem_append_right _ ht)

theorem Simple.tail {x : Stmt} {b : List Stmt} (h : Simple (x :: b)) : Simple b :=
  fun t ht => h t (List.mem_cons_of_mem _ ht)

/-- The tokens of a statement with an expression. -/
theorem stmtTokens_split {x : Stmt} {e : Expr} (hx : stmtExpr x = some e) :
    ∃ r, stmtTokens x = exprTokens e ++ r := by
  cases x with
  | expr e' => cases hx; exact ⟨[], by rw [stmtTokens]; simp⟩
  | assign v t n e' => cases hx; exact ⟨_, by rw [stmtTokens]⟩
  | _ => cases hx

/-- A use refers to the last assignment to its name in front of it. -/
theorem refersTo_last {a b r : List Stmt} {v t : Vid} {n : Str} {e : Expr} {x : Stmt} {ex : Expr} {u : Vid}
    (hl : Simple (a ++ .assign v t n e :: (b ++ x :: r))) (hb : n ∉ targets b)
    (hx : stmtExpr x = some ex) (hu : Token.use n u ∈ exprTokens ex) :
    RefersTo (stmtsTokens (a ++ .assign v t n e :: (b ++ x :: r))) u t := by
  obtain ⟨p, q, hp⟩ := List.append_of_mem hu
  obtain ⟨r', hr'⟩ := stmtTokens_split hx
  have hbs : Simple b := hl.right.tail.left
  have hpu : ∀ t ∈ p, ∃ n v, t = Token.use n v := fun t ht =>
    exprTokens_use ex t (by rw [hp]; exact List.mem_append_left _ ht)
  have hfin : Token.finish ∉ stmtsTokens b ++ p := by
    intro h
    rcases List.mem_append.1 h with h | h
    · exact finish_not_mem hbs h
    · obtain ⟨_, _, h⟩ := hpu _ h; cases h
  refine ⟨n, stmtsTokens a ++ exprTokens e, stmtsTokens b ++ p, q ++ r' ++ stmtsTokens r, ?_,
    stillOpen_of hfin, ?_⟩
  · rw [stmtsTokens_append', stmtsTokens, stmtTokens, stmtsTokens_append', stmtsTokens, hr', hp]
    simp
  · intro b1 d' b2 hb12
    exfalso
    have : Token.define n d' ∈ stmtsTokens b ++ p := by rw [hb12]; simp
    rcases List.mem_append.1 this with h | h
    · exact hb (define_targets hbs h)
    · obtain ⟨_, _, h⟩ := hpu _ h; cases h

/-- Between a definition and a use that refers to it the name is not assigned to. -/
theorem refersTo_between {a b r : List Stmt} {v t : Vid} {n : Str} {e : Expr} {u : Vid}
    (hl : Simple (a ++ .assign v t n e :: (b ++ r)))
    (hnd : (tokenIds (stmtsTokens (a ++ .assign v t n e :: (b ++ r)))).Nodup)
    (h : RefersTo (stmtsTokens (a ++ .assign v t n e :: (b ++ r))) u t)
    (hu : u ∈ useIds (stmtsTokens r)) : n ∉ targets b ∧ Token.use n u ∈ stmtsTokens r := by
  obtain ⟨n', a', b', c', heq, h1, h2⟩ := h
  have hT : stmtsTokens (a ++ .assign v t n e :: (b ++ r)) =
      (stmtsTokens a ++ exprTokens e) ++ .define n t :: (stmtsTokens b ++ stmtsTokens r) := by
    rw [stmtsTokens_append', stmtsTokens, stmtTokens, stmtsTokens_append']
    simp
  rw [hT] at heq hnd
  obtain ⟨-, hn, htail⟩ := split_unique heq rfl rfl hnd
  cases hn
  obtain ⟨k, hk⟩ := (mem_useIds _ _).1 hu
  obtain ⟨p, q, hp⟩ := List.append_of_mem hk
  have hnd2 : (tokenIds (stmtsTokens b ++ stmtsTokens r)).Nodup := by
    rw [tokenIds_append] at hnd
    exact (List.nodup_cons.1 (List.nodup_append.1 hnd).2.1).2
  have htail' : (stmtsTokens b ++ p) ++ .use k u :: q = b' ++ .use n u :: c' := by
    rw [← htail, hp]; simp
  have hnd3 : (tokenIds ((stmtsTokens b ++ p) ++ .use k u :: q)).Nodup := by
    rw [htail', ← htail]; exact hnd2
  obtain ⟨hb', hk', -⟩ := split_unique htail' rfl rfl hnd3
  cases hk'
  refine ⟨fun hin => ?_, hk⟩
  obtain ⟨w, d, e', hw⟩ := mem_targets.1 hin
  have hd := assign_tokens hw
  obtain ⟨b1, b2, hb12⟩ := List.append_of_mem hd
  refine h2 b1 d (b2 ++ p) (by rw [← hb', hb12]; simp) (stillOpen_of ?_)
  intro hf
  rcases List.mem_append.1 hf with hf | hf
  · exact finish_not_mem (l := b) hl.right.tail.left (by rw [hb12]; simp [hf])
  · exact finish_not_mem (l := r) hl.right.tail.right (by rw [hp]; simp [hf])

/-- A use follows the definition it refers to. -/
theorem refersTo_after {l a b : List Stmt} {v d : Vid} {n : Str} {e : Expr} {u : Vid}
    (hnd : (tokenIds (stmtsTokens l)).Nodup) (hl : l = a ++ .assign v d n e :: b)
    (h : RefersTo (stmtsTokens l) u d) : u ∈ useIds (stmtsTokens b) := by
  subst hl
  obtain ⟨n', a', b', c', heq, -, -⟩ := h
  have hT : stmtsTokens (a ++ .assign v d n e :: b) =
      (stmtsTokens a ++ exprTokens e) ++ .define n d :: stmtsTokens b := by
    rw [stmtsTokens_append', stmtsTokens, stmtTokens]
    simp
  rw [hT] at heq hnd
  obtain ⟨-, -, htail⟩ := split_unique heq rfl rfl hnd
  rw [htail]
  exact (mem_useIds _ _).2 ⟨n', by simp⟩

/-- A use follows the definition it refers to. -/
theorem refersTo_position {l : List Stmt} {u d : Vid} (hl : Simple l) (hnd : (tokenIds (stmtsTokens l)).Nodup)
    (h : RefersTo (stmtsTokens l) u d) :
    ∃ a v n e b, l = a ++ .assign v d n e :: b ∧ u ∈ useIds (stmtsTokens b) := by
  have h0 := h
  obtain ⟨n, a', b', c', heq, -, -⟩ := h
  have hd : Token.define n d ∈ stmtsTokens l := by rw [heq]; simp
  rcases mem_simple_tokens hl hd with ⟨_, _, h, _⟩ | ⟨v, d', n', e, h1, h2⟩
  · cases h
  cases h1
  obtain ⟨a, b, rfl⟩ := List.append_of_mem h2
  exact ⟨a, v, n, e, b, rfl, refersTo_after hnd rfl h0⟩

theorem refersTo_use {ts : List Token} {u d : Vid} (h : RefersTo ts u d) : u ∈ useIds ts := by
  obtain ⟨n, a, b, c, rfl, -⟩ := h
  exact (mem_useIds _ _).2 ⟨n, by simp⟩

/-! ### The context of the optimizer -/

/-- What the optimizer knows is what there is to know. -/
structure LinksKnown (c : OptimizeContext) (l : List Stmt) : Prop where
  definitions : ∀ u ∈ useIds (stmtsTokens l), ∀ d, c.definitions u = [d] ↔ RefersTo (stmtsTokens l) u d
  uses : ∀ d u, c.uses d = [u] ↔ OnlyUse (stmtsTokens l) u d
  value : ∀ v t n e, Stmt.assign v t n e ∈ l → c.value t = some e

theorem targetValues_simple {l : List Stmt} (hl : Simple l) :
    targetValues l = l.filterMap fun
      | .assign _ t _ e => some (t, e)
      | _ => none := by
  induction l with
  | nil => rfl
  | cons x l ih =>
    rw [targetValues, ih hl.tail]
    rcases hl x List.mem_cons_self with ⟨e, rfl⟩ | ⟨v, t', n, e, rfl⟩
    · rw [targetValuesStmt, List.filterMap_cons_none rfl]; rfl
    · rw [targetValuesStmt]; rfl

theorem knows_module {i : IdentifyState} {m : Module} (h : identifyModule m = some i)
    (hl : Simple m.statements) (hnd : (tokenIds (stmtsTokens m.statements)).Nodup) :
    LinksKnown (.ofModule i m) m.statements := by
  constructor
  · intro u hu d
    obtain ⟨h1, h2⟩ := C56_definitions m i h hnd u hu
    constructor
    · intro hd
      by_cases hex : ∃ d', RefersTo (stmtsTokens m.statements) u d'
      · obtain ⟨d', hd'⟩ := hex
        have := h1 d' hd'
        rw [show (OptimizeContext.ofModule i m).definitions u = i.definitions u from rfl, this] at hd
        cases hd
        exact hd'
      · have := h2 hex
        rw [show (OptimizeContext.ofModule i m).definitions u = i.definitions u from rfl, this] at hd
        cases hd
    · exact h1 d
  · intro d u
    obtain ⟨h1, h2⟩ := C56_uses m i h hnd d
    have hnu : (useIds (stmtsTokens m.statements)).Nodup := by
      refine List.Nodup.sublist ?_ hnd
      rw [useIds, tokenIds]
      clear * -
      induction stmtsTokens m.statements with
      | nil => exact .slnil
      | cons t ts ih => cases t <;> simp [List.filterMap_cons, ih]
    have hn := hnu.sublist h2
    change i.uses d = [u] ↔ _
    constructor
    · intro hd
      rw [hd] at h1
      exact ⟨(h1 u).1 (by simp), fun v' hv' => by simpa using (h1 v').2 hv'⟩
    · rintro ⟨h3, h4⟩
      have hm := (h1 u).2 h3
      have hall : ∀ v ∈ i.uses d, v = u := fun v hv => h4 v ((h1 v).1 hv)
      cases hc : i.uses d with
      | nil => rw [hc] at hm; cases hm
      | cons x l =>
        rw [hc] at hall hn
        have hx := hall x List.mem_cons_self
        subst hx
        cases l with
        | nil => rfl
        | cons y l =>
          have hy := hall y (by simp)
          subst hy
          simp at hn
  · intro v t n e hm
    change (((targetValues m.statements).find? fun p => p.1 == t).map (·.2)) = some e
    rw [targetValues_simple hl]
    have hnd' : ((m.statements.filterMap fun
      | .assign _ t _ e => some (t, e)
      | _ => none).map (·.1)).Nodup := by
      have : (defineIds (stmtsTokens m.statements)).Nodup := by
        refine List.Nodup.sublist ?_ hnd
        rw [defineIds, tokenIds]
        clear * -
        induction stmtsTokens m.statements with
        | nil => exact .slnil
        | cons t ts ih => cases t <;> simp [List.filterMap_cons, ih]
      have heq : (m.statements.filterMap fun
          | .assign _ t _ e => some (t, e)
          | _ => none).map (·.1) = defineIds (stmtsTokens m.statements) := by
        clear this hnd h hm
        generalize m.statements = l at *
        induction l with
        | nil => rfl
        | cons x l ih =>
          have hno : ∀ e : Expr, defineIds (exprTokens e) = [] := by
            intro e
            rw [defineIds, List.filterMap_eq_nil_iff]
            intro t ht
            obtain ⟨n, v, rfl⟩ := exprTokens_use e t ht
            rfl
          rw [stmtsTokens, defineIds_append, ← ih hl.tail]
          rcases hl x List.mem_cons_self with ⟨e, rfl⟩ | ⟨v, t', n, e, rfl⟩
          · rw [stmtTokens, hno, List.filterMap_cons_none rfl]; rfl
          · rw [stmtTokens, defineIds_append, hno]; rfl
      rw [heq]
      exact this
    have hmem : (t, e) ∈ m.statements.filterMap fun
        | .assign _ t _ e => some (t, e)
        | _ => none := List.mem_filterMap.2 ⟨_, hm, rfl⟩
    generalize (m.statements.filterMap fun
        | .assign _ t _ e => some (t, e)
        | _ => none) = q at *
    clear * - hnd' hmem
    induction q with
    | nil => cases hmem
    | cons p q ih =>
      rw [List.map_cons, List.nodup_cons] at hnd'
      rw [List.find?_cons]
      rcases List.mem_cons.1 hmem with rfl | hmem
      · simp
      · have : p.1 ≠ t := by
          rintro rfl
          exact hnd'.1 (List.mem_map.2 ⟨_, hmem, rfl⟩)
        have hb : (p.1 == t) = false := by simpa using this
        rw [hb]
        exact ih hnd'.2 hmem

namespace LinksKnown

variable {c : OptimizeContext} {l : List Stmt}

theorem linked (k : LinksKnown c l) (hl : Simple l) (hnd : (tokenIds (stmtsTokens l)).Nodup) {u : Vid}
    (hu : u ∈ useIds (stmtsTokens l)) : Linked c u := by
  intro d w hd hw
  have h1 := (k.definitions u hu d).1 hd
  have h2 := (k.uses d w).1 hw
  refine ⟨(h2.2 u h1).symm, ?_⟩
  obtain ⟨a, v, n, e, b, rfl, -⟩ := refersTo_position hl hnd h1
  rw [k.value v d n e (by simp)]
  rfl

theorem inlineOf_iff (k : LinksKnown c l) (hl : Simple l) (hnd : (tokenIds (stmtsTokens l)).Nodup) {u : Vid}
    (hu : u ∈ useIds (stmtsTokens l)) (e : Expr) :
    inlineOf c u = some e ↔ ∃ v d n, Stmt.assign v d n e ∈ l ∧ OnlyUse (stmtsTokens l) u d := by
  unfold inlineOf
  constructor
  · intro h
    split at h
    · rename_i d hd
      split at h
      · rename_i w hw
        have h1 := (k.definitions u hu d).1 hd
        have h2 := (k.uses d w).1 hw
        have := h2.2 u h1
        subst this
        obtain ⟨a, v, n, e', b, rfl, -⟩ := refersTo_position hl hnd h1
        rw [k.value v d n e' (by simp)] at h
        cases h
        exact ⟨v, d, n, by simp, h2⟩
      · cases h
    · cases h
  · rintro ⟨v, d, n, hm, ho⟩
    rw [(k.definitions u hu d).2 ho.1]
    simp only
    rw [(k.uses d u).2 ho]
    exact k.value v d n e hm

theorem inlineOf_none (k : LinksKnown c l) (hl : Simple l) (hnd : (tokenIds (stmtsTokens l)).Nodup) {u : Vid}
    (hu : u ∈ useIds (stmtsTokens l)) (h : ∀ d, ¬ OnlyUse (stmtsTokens l) u d) : inlineOf c u = none := by
  cases he : inlineOf c u with
  | none => rfl
  | some e =>
    obtain ⟨v, d, n, -, ho⟩ := (k.inlineOf_iff hl hnd hu e).1 he
    exact absurd ho (h d)

theorem inlineOf_only (k : LinksKnown c l) (hl : Simple l) (hnd : (tokenIds (stmtsTokens l)).Nodup) {u d : Vid}
    (ho : OnlyUse (stmtsTokens l) u d) : ∃ e, inlineOf c u = some e := by
  obtain ⟨a, v, n, e, b, rfl, -⟩ := refersTo_position hl hnd ho.1
  exact ⟨e, (k.inlineOf_iff hl hnd (refersTo_use ho.1) e).2 ⟨v, d, n, by simp, ho⟩⟩

theorem removed_iff (k : LinksKnown c l) (d : Vid) : c.removed d = true ↔ UsedOnce (stmtsTokens l) d := by
  rw [OptimizeContext.removed, beq_iff_eq]
  constructor
  · intro h
    obtain ⟨u, hu⟩ := List.length_eq_one_iff.1 h
    exact ⟨u, (k.uses d u).1 hu⟩
  · rintro ⟨u, hu⟩
    rw [(k.uses d u).2 hu]
    rfl

end LinksKnown

end Fern
