import Verif.Lemmas.Trees
import Verif.Lemmas.Messages

/-!
# C104: trees of expressions
-/

namespace Fern.Trees

open Fern Fern.Spec Fern.Domains Fern.FloatArith Fern.Trees.Spec

/-- What evaluating a tree with a constant result does. -/
def ConstOutcome (root : Flt → Flt) (e : Expr) (t : Num) : Prop :=
  (∃ v, evaluate root e = .ok (.const t v) ∧ OfNum t v ∧ ∀ i, Spec.Cell root i e (some v)) ∨
  (evaluate root e = .error .undefined ∧ ∀ i x, ¬ Spec.Cell root i e x)

/-- What evaluating a tree with a raster as result does. -/
def RasterOutcome (root : Flt → Flt) (e : Expr) (t : Num) (rows cols : Nat) : Prop :=
  (∃ l, evaluate root e = .ok (.raster t ⟨rows, cols, l⟩) ∧ Fine (.raster t ⟨rows, cols, l⟩) ∧
    ∀ i x, l[i]? = some x → Spec.Cell root i e (shown x)) ∨
  (evaluate root e = .error .undefined ∧ ∃ i, i < rows * cols ∧ ∀ x, ¬ Spec.Cell root i e x)

/-- The value of an expression at a cell is unique. -/
theorem C104_unique (root : Flt → Flt) (i : Nat) (e : Expr) (x y : Option Val) (hx : Spec.Cell root i e x)
    (hy : Spec.Cell root i e y) : x = y := by
  induction hx generalizing y with
  | const => cases hy; rfl
  | raster t r v h =>
    cases hy with
    | raster _ _ v' h' => rw [h] at h'; cases h'; rfl
    | masked _ _ v' h' => rw [h] at h'; cases h'
  | masked t r v h =>
    cases hy with
    | raster _ _ v' h' => rw [h] at h'; cases h'
    | masked _ _ v' h' => rfl
  | plus res name u v e f a b c h1 h2 h3 ih1 ih2 =>
    cases hy with
    | plus _ _ _ _ _ _ a' b' c' h1' h2' h3' =>
      cases ih1 _ h1'; cases ih2 _ h2'
      rw [sum_unique h3 h3']
  | plusRaster res name u v e f a b c h1 h2 h3 ih1 ih2 =>
    cases hy with
    | plusRaster _ _ _ _ _ _ a' b' c' h1' h2' h3' =>
      cases ih1 _ h1'; cases ih2 _ h2'
      rw [sum_unique h3 h3']
    | maskedLeft _ _ _ _ _ _ y h1' h2' => cases ih1 _ h1'
    | maskedRight _ _ _ _ _ _ y h1' h2' => cases ih2 _ h2'
  | maskedLeft res name u v e f y h1 h2 ih1 ih2 =>
    cases hy with
    | plusRaster _ _ _ _ _ _ a' b' c' h1' h2' h3' => cases ih1 _ h1'
    | maskedLeft => rfl
    | maskedRight => rfl
  | maskedRight res name u v e f y h1 h2 ih1 ih2 =>
    cases hy with
    | plusRaster _ _ _ _ _ _ a' b' c' h1' h2' h3' => cases ih2 _ h2'
    | maskedLeft => rfl
    | maskedRight => rfl
  | times res name u v e f a b c h1 h2 h3 ih1 ih2 =>
    cases hy with
    | times _ _ _ _ _ _ a' b' c' h1' h2' h3' =>
      cases ih1 _ h1'; cases ih2 _ h2'
      rw [product_unique h3 h3']
  | sqrt res name u e a p h1 h2 ih =>
    cases hy with
    | sqrt _ _ _ _ a' p' h1' h2' =>
      cases ih _ h1'
      rw [asDouble_iff] at h2 h2'
      rw [h2, h2']
  | slope res name u e a h1 ih => cases hy; rfl

theorem evaluate_two (root : Flt → Flt) (r n a) (e f : Expr) : evaluate root (.op r n a [e, f]) =
    match evaluate root e with
    | .ok d => (match evaluate root f with
      | .ok d' => a.evaluate root [d, d']
      | .error x => .error x)
    | .error x => .error x := by
  simp only [evaluate, evaluateAll]
  cases evaluate root e with
  | error => rfl
  | ok d => cases evaluate root f <;> rfl

theorem evaluate_one (root : Flt → Flt) (r n a) (e : Expr) : evaluate root (.op r n a [e]) =
    match evaluate root e with
    | .ok d => a.evaluate root [d]
    | .error x => .error x := by
  simp only [evaluate, evaluateAll]
  cases evaluate root e <;> rfl

theorem getConst_self (t : Num) (v : Val) : getConst t (.const t v) = .ok v := if_pos rfl

theorem getRaster_self (t : Num) (v : Rast) : getRaster t (.raster t v) = .ok v := if_pos rfl

theorem typed_two {s t : Ty} {l : List Expr} (h : TypedAll l [s, t]) :
    ∃ e f, l = [e, f] ∧ Typed e s ∧ Typed f t := by
  cases h with
  | cons e _ l _ h1 h2 =>
    cases h2 with
    | cons f _ l _ h2 h3 =>
      cases h3
      exact ⟨e, f, rfl, h1, h2⟩

theorem typed_one {t : Ty} {l : List Expr} (h : TypedAll l [t]) : ∃ e, l = [e] ∧ Typed e t := by
  cases h with
  | cons e _ l _ h1 h2 =>
    cases h2
    exact ⟨e, rfl, h1⟩

theorem const_main (root : Flt → Flt) (e : Expr) : Fines e → ∀ t, Typed e (.const t) → ConstOutcome root e t := by
  induction e using Expr.ind with
  | hd d =>
    intro hf t ht
    cases d with
    | raster => cases ht
    | const s v =>
      cases ht
      exact .inl ⟨v, rfl, hf (.const t v) (by simp [leaves]), fun i => .const _ _⟩
  | ho r n a l ih =>
    intro hf t ht
    cases ht with
    | op _ _ _ _ ts _ hs hl =>
      cases hs with
      | plus u v =>
        obtain ⟨e, f, rfl, he, hf'⟩ := typed_two hl
        rw [ConstOutcome, evaluate_two]
        rcases ih e (by simp) (fines_arg hf (by simp)) _ he with ⟨x, h1, h2, h3⟩ | ⟨h1, h2⟩
        · rcases ih f (by simp) (fines_arg hf (by simp)) _ hf' with ⟨y, h4, h5, h6⟩ | ⟨h4, h5⟩
          · simp only [h1, h4, Alg.evaluate, getConst_self, bind, Except.bind]
            cases hp : plusVal u v x y with
            | some c =>
              have hc := (plusVal_iff h2 h5 c).1 hp
              exact .inl ⟨c, by simp [defined, join_larger], sum_ofNum hc, fun i => .plus _ _ _ _ _ _ _ _ _ (h3 i) (h6 i) hc⟩
            | none =>
              refine .inr ⟨rfl, fun i z hz => ?_⟩
              cases hz with
              | plus _ _ _ _ _ _ a b c g1 g2 g3 =>
                cases C104_unique _ _ _ _ _ g1 (h3 i)
                cases C104_unique _ _ _ _ _ g2 (h6 i)
                rw [(plusVal_iff h2 h5 c).2 g3] at hp
                cases hp
          · simp only [h1, h4]
            refine .inr ⟨trivial, fun i z hz => ?_⟩
            cases hz with
            | plus _ _ _ _ _ _ a b c g1 g2 g3 => exact h5 _ _ g2
        · simp only [h1]
          refine .inr ⟨trivial, fun i z hz => ?_⟩
          cases hz with
          | plus _ _ _ _ _ _ a b c g1 g2 g3 => exact h2 _ _ g1
      | times u v =>
        obtain ⟨e, f, rfl, he, hf'⟩ := typed_two hl
        rw [ConstOutcome, evaluate_two]
        rcases ih e (by simp) (fines_arg hf (by simp)) _ he with ⟨x, h1, h2, h3⟩ | ⟨h1, h2⟩
        · rcases ih f (by simp) (fines_arg hf (by simp)) _ hf' with ⟨y, h4, h5, h6⟩ | ⟨h4, h5⟩
          · simp only [h1, h4, Alg.evaluate, getConst_self, bind, Except.bind]
            cases hp : timesVal u v x y with
            | some c =>
              have hc := (timesVal_iff h2 h5 c).1 hp
              exact .inl ⟨c, by simp [defined, join_larger], product_ofNum hc,
                fun i => .times _ _ _ _ _ _ _ _ _ (h3 i) (h6 i) hc⟩
            | none =>
              refine .inr ⟨rfl, fun i z hz => ?_⟩
              cases hz with
              | times _ _ _ _ _ _ a b c g1 g2 g3 =>
                cases C104_unique _ _ _ _ _ g1 (h3 i)
                cases C104_unique _ _ _ _ _ g2 (h6 i)
                rw [(timesVal_iff h2 h5 c).2 g3] at hp
                cases hp
          · simp only [h1, h4]
            refine .inr ⟨trivial, fun i z hz => ?_⟩
            cases hz with
            | times _ _ _ _ _ _ a b c g1 g2 g3 => exact h5 _ _ g2
        · simp only [h1]
          refine .inr ⟨trivial, fun i z hz => ?_⟩
          cases hz with
          | times _ _ _ _ _ _ a b c g1 g2 g3 => exact h2 _ _ g1
      | sqrt u =>
        obtain ⟨e, rfl, he⟩ := typed_one hl
        rw [ConstOutcome, evaluate_one]
        rcases ih e (by simp) (fines_arg hf (by simp)) _ he with ⟨x, h1, h2, h3⟩ | ⟨h1, h2⟩
        · simp only [h1, Alg.evaluate, getConst_self, bind, Except.bind]
          exact .inl ⟨_, rfl, trivial, fun i => .sqrt _ _ _ _ _ _ (h3 i) ((asDouble_iff _ _).2 rfl)⟩
        · simp only [h1]
          refine .inr ⟨trivial, fun i z hz => ?_⟩
          cases hz with
          | sqrt _ _ _ _ a p g1 g2 => exact h2 _ _ g1
      | slope u =>
        obtain ⟨e, rfl, he⟩ := typed_one hl
        rw [ConstOutcome, evaluate_one]
        rcases ih e (by simp) (fines_arg hf (by simp)) _ he with ⟨x, h1, h2, h3⟩ | ⟨h1, h2⟩
        · simp only [h1, Alg.evaluate, getConst_self, bind, Except.bind]
          exact .inl ⟨_, rfl, trivial, fun i => .slope _ _ _ _ _ (h3 i)⟩
        · simp only [h1]
          refine .inr ⟨trivial, fun i z hz => ?_⟩
          cases hz with
          | slope _ _ _ _ a g1 => exact h2 _ _ g1

theorem raster_main (root : Flt → Flt) (e : Expr) : Fines e → ∀ t rows cols, Typed e (.raster t) → Shaped e rows cols →
    RasterOutcome root e t rows cols := by
  induction e using Expr.ind with
  | hd d =>
    intro hf t rows cols ht hs
    cases d with
    | const => cases ht
    | raster s r =>
      cases ht
      obtain ⟨h1, h2⟩ := hs t r (by simp [leaves])
      subst h1 h2
      refine .inl ⟨r.cells, rfl, hf (.raster t r) (by simp [leaves]), fun i x hx => ?_⟩
      obtain ⟨v, m⟩ := x
      cases m
      · exact .raster _ _ _ hx
      · exact .masked _ _ _ hx
  | ho r n a l ih =>
    intro hf t rows cols ht hs
    cases ht with
    | op _ _ _ _ ts _ hsig hl =>
      cases hsig with
      | plusRaster u v =>
        obtain ⟨e, f, rfl, he, hf'⟩ := typed_two hl
        rw [RasterOutcome, evaluate_two]
        rcases ih e (by simp) (fines_arg hf (by simp)) _ rows cols he (shaped_arg hs (by simp)) with
          ⟨l, h1, h2, h3⟩ | ⟨h1, i, hi, h2⟩
        · rcases ih f (by simp) (fines_arg hf (by simp)) _ rows cols hf' (shaped_arg hs (by simp)) with
            ⟨k, h4, h5, h6⟩ | ⟨h4, i, hi, h5⟩
          · simp only [h1, h4, Alg.evaluate, getRaster_self, bind, Except.bind, plusRast, and_self, if_true]
            rcases plusCells_spec (u := u) (v := v) (h2.1.trans h5.1.symm) h2.2 h5.2 with
              ⟨m, g1, g2, g3, g4⟩ | ⟨g1, i, x, y, g2, g3, g4, g5, g6⟩
            · rw [g1]
              refine .inl ⟨m, by simp [defined, join_larger, Except.map], ⟨g2.trans h2.1, g3⟩, fun i z hz => ?_⟩
              have hi : i < m.length := by
                by_contra hc
                rw [List.getElem?_eq_none (by omega)] at hz
                cases hz
              obtain ⟨x, hx⟩ : ∃ x, l[i]? = some x := ⟨_, List.getElem?_eq_getElem (by rw [g2] at hi; exact hi)⟩
              obtain ⟨y, hy⟩ : ∃ y, k[i]? = some y :=
                ⟨_, List.getElem?_eq_getElem (by rw [h5.1]; rw [g2, h2.1] at hi; exact hi)⟩
              obtain ⟨z', hz', hc⟩ := g4 i x y hx hy
              rw [hz] at hz'
              cases hz'
              have e1 := h3 i x hx
              have e2 := h6 i y hy
              rcases hc with ⟨c1, c2⟩ | ⟨c1, c2, c3, c4⟩
              · rw [shown, if_pos c2]
                rcases c1 with c1 | c1
                · rw [shown, if_pos c1] at e1
                  exact .maskedLeft _ _ _ _ _ _ _ e1 e2
                · rw [shown, if_pos c1] at e2
                  exact .maskedRight _ _ _ _ _ _ _ e1 e2
              · simp only [shown, c1, c2, c3] at e1 e2 ⊢
                exact .plusRaster _ _ _ _ _ _ _ _ _ e1 e2 c4
            · rw [g1]
              refine .inr ⟨rfl, i, ?_, fun z hz => ?_⟩
              · by_contra hc
                rw [List.getElem?_eq_none (by rw [h2.1]; exact not_lt.1 hc)] at g2
                cases g2
              · have e1 := h3 i x g2
                have e2 := h6 i y g3
                simp only [shown, g4, g5] at e1 e2
                cases hz with
                | plusRaster _ _ _ _ _ _ a b c q1 q2 q3 =>
                  cases C104_unique _ _ _ _ _ q1 e1
                  cases C104_unique _ _ _ _ _ q2 e2
                  exact g6 _ q3
                | maskedLeft _ _ _ _ _ _ y q1 q2 => cases C104_unique _ _ _ _ _ q1 e1
                | maskedRight _ _ _ _ _ _ y q1 q2 => cases C104_unique _ _ _ _ _ q2 e2
          · simp only [h1, h4]
            refine .inr ⟨trivial, i, hi, fun z hz => ?_⟩
            cases hz with
            | plusRaster _ _ _ _ _ _ a b c g1 g2 g3 => exact h5 _ g2
            | maskedLeft _ _ _ _ _ _ y q1 q2 => exact h5 _ q2
            | maskedRight _ _ _ _ _ _ y q1 q2 => exact h5 _ q2
        · simp only [h1]
          refine .inr ⟨trivial, i, hi, fun z hz => ?_⟩
          cases hz with
          | plusRaster _ _ _ _ _ _ a b c g1 g2 g3 => exact h2 _ g1
          | maskedLeft _ _ _ _ _ _ y q1 q2 => exact h2 _ q1
          | maskedRight _ _ _ _ _ _ y q1 q2 => exact h2 _ q1

/-- A tree of constants whose types fit: the result has the type that the operations say, and its value is the one
computed from the values; or an operation on integers overflows. Nothing is thrown, and no assertion fails. -/
theorem C104_const (root : Flt → Flt) (e : Expr) (t : Num) (hf : Fines e) (ht : Typed e (.const t)) :
    (∃ v, evaluate root e = .ok (.const t v) ∧ OfNum t v ∧ ∀ i, Spec.Cell root i e (some v)) ∨
    (evaluate root e = .error .undefined ∧ ∀ i x, ¬ Spec.Cell root i e x) := const_main root e hf t ht

/-- A tree of rasters of the same shape whose types fit: evaluating the operations one after the other, each for whole
rasters, gives in each cell the value of the expression at that cell, and no value where one of the rasters has none;
or an operation on integers overflows in some cell. -/
theorem C104_raster (root : Flt → Flt) (e : Expr) (t : Num) (rows cols : Nat) (hf : Fines e) (ht : Typed e (.raster t))
    (hs : Shaped e rows cols) :
    (∃ l, evaluate root e = .ok (.raster t ⟨rows, cols, l⟩) ∧ Fine (.raster t ⟨rows, cols, l⟩) ∧
      ∀ i x, l[i]? = some x → Spec.Cell root i e (shown x)) ∨
    (evaluate root e = .error .undefined ∧ ∃ i, i < rows * cols ∧ ∀ x, ¬ Spec.Cell root i e x) :=
  raster_main root e hf t rows cols ht hs

/-! ### Types -/

theorem ok_two {root : Flt → Flt} {r n a} {e f : Expr} {d : Data} (h : evaluate root (.op r n a [e, f]) = .ok d) :
    ∃ x y, evaluate root e = .ok x ∧ evaluate root f = .ok y ∧ a.evaluate root [x, y] = .ok d := by
  rw [evaluate_two] at h
  cases h1 : evaluate root e with
  | error => rw [h1] at h; cases h
  | ok x =>
    cases h2 : evaluate root f with
    | error => rw [h1, h2] at h; cases h
    | ok y => rw [h1, h2] at h; exact ⟨x, y, rfl, rfl, h⟩

theorem getConst_ok {t : Num} {d : Data} {v : Val} (h : getConst t d = .ok v) : d = .const t v := by
  cases d with
  | raster => cases h
  | const s w =>
    rw [getConst] at h
    split at h
    · cases h; subst_vars; rfl
    · cases h

theorem getRaster_ok {t : Num} {d : Data} {v : Rast} (h : getRaster t d = .ok v) : d = .raster t v := by
  cases d with
  | const => cases h
  | raster s w =>
    rw [getRaster] at h
    split at h
    · cases h; subst_vars; rfl
    · cases h

theorem bind_ok {α β : Type} {x : Except Fault α} {f : α → Except Fault β} {b : β} (h : (x >>= f) = .ok b) :
    ∃ a, x = .ok a ∧ f a = .ok b := by
  cases x with
  | error => cases h
  | ok a => exact ⟨a, rfl, h⟩

theorem defined_ok {α : Type} {o : Option α} {a : α} (h : defined o = .ok a) : o = some a := by
  cases o with
  | none => cases h
  | some b => cases h; rfl

/-- The types of the arguments of an algorithm that has a result, and that of the result. -/
theorem evaluate_sig {root : Flt → Flt} {a : Alg} {l : List Data} {d : Data} (h : a.evaluate root l = .ok d) :
    Sig a (l.map typeOf) (typeOf d) := by
  unfold Alg.evaluate at h
  split at h
  · obtain ⟨x, h1, h⟩ := bind_ok h
    obtain ⟨y, h2, h⟩ := bind_ok h
    obtain ⟨z, h3, h⟩ := bind_ok h
    cases h; cases getConst_ok h1; cases getConst_ok h2
    simp only [typeOf, List.map, join_larger]
    exact .plus _ _
  · obtain ⟨x, h1, h⟩ := bind_ok h
    obtain ⟨y, h2, h⟩ := bind_ok h
    obtain ⟨z, h3, h⟩ := bind_ok h
    cases h; cases getRaster_ok h1; cases getRaster_ok h2
    simp only [typeOf, List.map, join_larger]
    exact .plusRaster _ _
  · obtain ⟨x, h1, h⟩ := bind_ok h
    obtain ⟨y, h2, h⟩ := bind_ok h
    obtain ⟨z, h3, h⟩ := bind_ok h
    cases h; cases getConst_ok h1; cases getConst_ok h2
    simp only [typeOf, List.map, join_larger]
    exact .times _ _
  · obtain ⟨x, h1, h⟩ := bind_ok h
    cases h; cases getConst_ok h1
    exact .sqrt _
  · obtain ⟨x, h1, h⟩ := bind_ok h
    cases h; cases getConst_ok h1
    exact .slope _
  · cases h

theorem evaluateAll_typed {root : Flt → Flt} : ∀ {l : List Expr}, (∀ e ∈ l, ∀ d, evaluate root e = .ok d → Typed e (typeOf d)) →
    ∀ {k : List Data}, evaluateAll root l = .ok k → TypedAll l (k.map typeOf)
  | [], _, k, h => by cases h; exact .nil
  | e :: l, ih, k, h => by
    rw [evaluateAll] at h
    cases h1 : evaluate root e with
    | error => rw [h1] at h; cases h
    | ok d =>
      cases h2 : evaluateAll root l with
      | error => rw [h1, h2] at h; cases h
      | ok k' =>
        rw [h1, h2] at h
        cases h
        exact .cons _ _ _ _ (ih e (by simp) d h1) (evaluateAll_typed (fun e he => ih e (by simp [he])) h2)

/-- Only trees whose types fit have a value, which has the type of the tree. -/
theorem C104_typed (root : Flt → Flt) (e : Expr) (d : Data) (h : evaluate root e = .ok d) : Typed e (typeOf d) := by
  induction e using Expr.ind generalizing d with
  | hd d' => cases h; exact .data _
  | ho r n a l ih =>
    rw [evaluate] at h
    cases h1 : evaluateAll root l with
    | error => rw [h1] at h; cases h
    | ok k =>
      rw [h1] at h
      exact .op _ _ _ _ _ _ (evaluate_sig h) (evaluateAll_typed (fun e he d hd => ih e he d hd) h1)

/-- Whoever builds trees with operations that declare the result of their algorithm finds that type in the result. -/
theorem C104_declared (root : Flt → Flt) (e : Expr) (d : Data) (hh : Honest e) (h : evaluate root e = .ok d) :
    typeOf d = declared e := by
  cases e with
  | data d' => cases h; rfl
  | op r n a l =>
    obtain ⟨ts, hs⟩ := hh
    cases C104_typed root _ _ h with
    | op _ _ _ _ ts' _ hs' _ =>
      rw [declared]
      generalize typeOf d = t at hs'
      cases hs <;> cases hs' <;> rfl

/-- Nothing makes sure that operations declare that: the declared result is not looked at. -/
theorem C104_declared_false : ∃ e d, evaluate id e = .ok d ∧ declared e = .const .f64 ∧ d = .const .i32 (.int 3) :=
  ⟨.op (.const .f64) "plus".toList (.plus .i32 .i32) [.data (.const .i32 (.int 2)), .data (.const .i32 (.int 1))], _,
    by decide +kernel, rfl, rfl⟩

/-- A tree whose types do not fit can be built; evaluating it throws or makes an assertion fail. -/
theorem C104_ill_typed (root : Flt → Flt) (e : Expr) (h : ∀ t, ¬ Typed e t) : ∃ f, evaluate root e = .error f := by
  cases h1 : evaluate root e with
  | error f => exact ⟨f, rfl⟩
  | ok d => exact absurd (C104_typed root e d h1) (h _)

example : evaluate id (.op (.const .i64) "plus".toList (.plus .i64 .i64)
    [.data (.const .i32 (.int 2)), .data (.const .i64 (.int 1))]) = .error .badGet := by decide +kernel

/-! ### Exact sums -/

mutual
/-- The values of the rasters of a tree at a cell. -/
def valuesAt (i : Nat) : Expr → List (Option (Val × Bool))
  | .data (.raster _ r) => [r.cells[i]?]
  | .data (.const _ v) => [some (v, false)]
  | .op _ _ _ args => valuesAtAll i args
/-- The values of the rasters of trees at a cell. -/
def valuesAtAll (i : Nat) : List Expr → List (Option (Val × Bool))
  | [] => []
  | e :: l => valuesAt i e ++ valuesAtAll i l
end

/-- An integer value. -/
def intOf : Option (Val × Bool) → Int
  | some (.int a, _) => a
  | _ => 0

/-- The value of a sum of rasters of integers is the sum of all their values; there is no value exactly where one of the
rasters has none. -/
theorem C104_exact (root : Flt → Flt) (i : Nat) (e : Expr) (t : Num) (hf : Fines e) (ht : Typed e (.raster t)) (hi : t ≠ .f64)
    (x : Option Val) (h : Spec.Cell root i e x) :
    (x = none ↔ ∃ v, some (v, true) ∈ valuesAt i e) ∧
    ∀ v, x = some v → v = .int ((valuesAt i e).map intOf).sum := by
  induction h generalizing t with
  | const => cases ht
  | raster s r v h =>
    cases ht
    simp only [valuesAt, h, List.map_cons, List.map_nil, List.sum_cons, List.sum_nil, add_zero]
    refine ⟨by simp, fun w hw => ?_⟩
    cases hw
    have := (hf (.raster s r) (by simp [leaves])).2 _ (List.mem_of_getElem? h)
    cases v with
    | int a => rfl
    | flt => cases s <;> first | exact absurd rfl hi | exact absurd this (by simp [OfNum])
  | masked s r v h =>
    simp only [valuesAt, h]
    simp
  | plus res name u v e f a b c h1 h2 h3 ih1 ih2 =>
    cases ht with
    | op _ _ _ _ ts _ hs _ => cases hs
  | times res name u v e f a b c h1 h2 h3 ih1 ih2 =>
    cases ht with
    | op _ _ _ _ ts _ hs _ => cases hs
  | sqrt res name u e a p h1 h2 ih =>
    cases ht with
    | op _ _ _ _ ts _ hs _ => cases hs
  | slope res name u e a h1 ih =>
    cases ht with
    | op _ _ _ _ ts _ hs _ => cases hs
  | plusRaster res name u v e f a b c h1 h2 h3 ih1 ih2 =>
    cases ht with
    | op _ _ _ _ ts _ hs hl =>
      cases hs
      obtain ⟨e', f', he, t1, t2⟩ := typed_two hl
      cases he
      have hu : u ≠ .f64 := by rintro rfl; exact hi (by cases v <;> rfl)
      have hv : v ≠ .f64 := by rintro rfl; exact hi (by cases u <;> rfl)
      have i1 := ih1 u (fines_arg hf (by simp)) t1 hu
      have i2 := ih2 v (fines_arg hf (by simp)) t2 hv
      cases i1.2 _ rfl
      cases i2.2 _ rfl
      have g1 := i1.1
      have g2 := i2.1
      simp only [reduceCtorEq, false_iff] at g1 g2
      cases h3 with
      | flt _ _ _ _ _ h => exact absurd h hi
      | int _ _ _ _ =>
        simp only [valuesAt, valuesAtAll, List.append_nil, List.map_append, List.sum_append, List.mem_append]
        refine ⟨by simp only [reduceCtorEq, false_iff]; rintro ⟨w, hw | hw⟩; exacts [g1 ⟨w, hw⟩, g2 ⟨w, hw⟩], ?_⟩
        rintro w ⟨⟩
        rfl
  | maskedLeft res name u v e f y h1 h2 ih1 ih2 =>
    cases ht with
    | op _ _ _ _ ts _ hs hl =>
      cases hs
      obtain ⟨e', f', he, t1, t2⟩ := typed_two hl
      cases he
      have hu : u ≠ .f64 := by rintro rfl; exact hi (by cases v <;> rfl)
      obtain ⟨w, hw⟩ := (ih1 u (fines_arg hf (by simp)) t1 hu).1.1 rfl
      refine ⟨⟨fun _ => ⟨w, by simp [valuesAt, valuesAtAll, hw]⟩, fun _ => rfl⟩, by simp⟩
  | maskedRight res name u v e f y h1 h2 ih1 ih2 =>
    cases ht with
    | op _ _ _ _ ts _ hs hl =>
      cases hs
      obtain ⟨e', f', he, t1, t2⟩ := typed_two hl
      cases he
      have hv : v ≠ .f64 := by rintro rfl; exact hi (by cases u <;> rfl)
      obtain ⟨w, hw⟩ := (ih2 v (fines_arg hf (by simp)) t2 hv).1.1 rfl
      refine ⟨⟨fun _ => ⟨w, by simp [valuesAt, valuesAtAll, hw]⟩, fun _ => rfl⟩, by simp⟩

/-- A sum that is `double` in the end is undefined if the integers in it overflow before; the same terms in another order
have a sum. -/
theorem C104_order_false :
    evaluate id (.op (.const .f64) "plus".toList (.plus .i32 .f64) [.op (.const .i32) "plus".toList (.plus .i32 .i32)
      [.data (.const .i32 (.int 2147483647)), .data (.const .i32 (.int 1))], .data (.const .f64 (.flt (.fin 0)))]) =
      .error .undefined ∧
    evaluate id (.op (.const .f64) "plus".toList (.plus .f64 .i32) [.op (.const .f64) "plus".toList (.plus .i32 .f64)
      [.data (.const .i32 (.int 2147483647)), .data (.const .f64 (.flt (.fin 0)))], .data (.const .i32 (.int 1))]) =
      .ok (.const .f64 (.flt (.fin 2147483648))) := by
  constructor <;> decide +kernel

/-- Two rasters with two cells. -/
def exampleTree : Expr :=
  .op (.raster .i64) "plus".toList (.plusRaster .i32 .i64)
    [.data (.raster .i32 ⟨1, 2, [(.int 1, false), (.int 7, true)]⟩),
     .data (.raster .i64 ⟨1, 2, [(.int 10, false), (.int 20, false)]⟩)]

example : Typed exampleTree (.raster .i64) ∧ Shaped exampleTree 1 2 ∧ Honest exampleTree ∧
    evaluate id exampleTree = .ok (.raster .i64 ⟨1, 2, [(.int 11, false), (.int 0, true)]⟩) := by
  refine ⟨.op _ _ _ _ _ _ (.plusRaster .i32 .i64) (.cons _ _ _ _ (.data _) (.cons _ _ _ _ (.data _) .nil)), ?_,
    ⟨_, .plusRaster .i32 .i64⟩, by decide +kernel⟩
  intro t r h
  simp [exampleTree, leaves, leavesAll] at h
  rcases h with ⟨rfl, rfl⟩ | ⟨rfl, rfl⟩ <;> exact ⟨rfl, rfl⟩

example : Fines exampleTree := by
  intro d h
  simp [exampleTree, leaves, leavesAll] at h
  rcases h with rfl | rfl <;> simp [Fine, OfNum, Fits]

/-! ### Shapes -/

/-- Rasters of different shapes make an assertion fail. -/
theorem C104_shapes (root : Flt → Flt) (u v : Num) (x y : Rast) (res : Ty) (n : Str)
    (h : x.rows ≠ y.rows ∨ x.cols ≠ y.cols) :
    evaluate root (.op res n (.plusRaster u v) [.data (.raster u x), .data (.raster v y)]) = .error .assertion := by
  rw [evaluate_two]
  simp only [evaluate, Alg.evaluate, getRaster_self, bind, Except.bind, plusRast]
  rw [if_neg (by rintro ⟨h1, h2⟩; rcases h with h | h <;> contradiction)]

/-- A tree has a raster as value only if all its rasters have that shape. -/
theorem C104_same_shape (root : Flt → Flt) (e : Expr) (t : Num) (R : Rast) (h : evaluate root e = .ok (.raster t R)) :
    Shaped e R.rows R.cols := by
  induction e using Expr.ind generalizing t R with
  | hd d =>
    cases h
    intro t' r hr
    simp only [leaves, List.mem_singleton, Data.raster.injEq] at hr
    rw [hr.2]; exact ⟨rfl, rfl⟩
  | ho r n a l ih =>
    cases C104_typed root _ _ h with
    | op _ _ _ _ ts _ hs hl =>
      generalize hty : typeOf (.raster t R) = ty at hs
      cases hs with
      | plusRaster u v =>
        obtain ⟨e, f, rfl, t1, t2⟩ := typed_two hl
        obtain ⟨x, y, h1, h2, h3⟩ := ok_two h
        rw [Alg.evaluate] at h3
        obtain ⟨x', g1, h3⟩ := bind_ok h3
        obtain ⟨y', g2, h3⟩ := bind_ok h3
        obtain ⟨z, g3, h3⟩ := bind_ok h3
        cases h3
        cases getRaster_ok g1
        cases getRaster_ok g2
        rw [plusRast] at g3
        split at g3
        · rename_i hh
          cases hp : plusCells u v x'.cells y'.cells with
          | none => rw [hp] at g3; cases g3
          | some m =>
            rw [hp] at g3
            cases g3
            have i1 := ih e (by simp) u x' h1
            have i2 := ih f (by simp) v y' h2
            intro t' r hr
            simp only [leaves, leavesAll, List.append_nil, List.mem_append] at hr
            rcases hr with hr | hr
            · exact i1 t' r hr
            · have := i2 t' r hr
              exact ⟨this.1.trans hh.1.symm, this.2.trans hh.2.symm⟩
        · cases g3
      | plus => cases hty
      | times => cases hty
      | sqrt => cases hty
      | slope => cases hty

/-! ### Texts -/

/-- Writing a tree ends exactly if there is no raster in it. -/
theorem visit_isSome (fmt : Flt → Str) (e : Expr) : (visit fmt e).isSome ↔ ∀ t r, .raster t r ∉ leaves e := by
  induction e using Expr.ind with
  | hd d => cases d <;> simp [visit, leaves]
  | ho r n a l ih =>
    have hrest : ∀ l : List Expr, (∀ e ∈ l, ((visit fmt e).isSome ↔ ∀ t r, .raster t r ∉ leaves e)) →
        ((visitRest fmt l).isSome ↔ ∀ t r, .raster t r ∉ leavesAll l) := by
      intro l
      induction l with
      | nil => intro _; simp [visitRest, leavesAll]
      | cons e l ih' =>
        intro h
        have h1 := h e (by simp)
        have h2 := ih' fun e he => h e (by simp [he])
        rw [visitRest, leavesAll]
        cases g1 : visit fmt e with
        | none =>
          rw [g1] at h1
          simp only [Option.isSome_none, Bool.false_eq_true, false_iff] at h1
          simp only [Option.bind_none, Option.isSome_none, Bool.false_eq_true, false_iff]
          exact fun hc => h1 fun t r hr => hc t r (List.mem_append_left _ hr)
        | some s =>
          rw [g1] at h1
          simp only [Option.isSome_some, true_iff] at h1
          rw [Option.bind_some, Option.isSome_map, h2]
          exact ⟨fun hc t r hr => (List.mem_append.1 hr).elim (h1 t r) (hc t r),
            fun hc t r hr => hc t r (List.mem_append_right _ hr)⟩
    rw [visit, leaves, Option.isSome_map]
    cases l with
    | nil => simp [visitArgs, leavesAll]
    | cons e l =>
      have h1 := ih e (by simp)
      have h2 := hrest l fun e he => ih e (by simp [he])
      rw [visitArgs, leavesAll]
      cases g1 : visit fmt e with
      | none =>
        rw [g1] at h1
        simp only [Option.isSome_none, Bool.false_eq_true, false_iff] at h1
        simp only [Option.bind_none, Option.isSome_none, Bool.false_eq_true, false_iff]
        exact fun hc => h1 fun t r hr => hc t r (List.mem_append_left _ hr)
      | some s =>
        rw [g1] at h1
        simp only [Option.isSome_some, true_iff] at h1
        rw [Option.bind_some, Option.isSome_map, h2]
        exact ⟨fun hc t r hr => (List.mem_append.1 hr).elim (h1 t r) (hc t r),
          fun hc t r hr => hc t r (List.mem_append_right _ hr)⟩

/-- Writing a tree to a stream ends exactly if there is no raster in it. -/
theorem C104_ends (fmt : Flt → Str) (e : Expr) : (stream fmt e).isSome ↔ ∀ t r, .raster t r ∉ leaves e := by
  rw [stream, Option.isSome_map, visit_isSome]

theorem split_first {c : Char} {s s' r r' : Str} (h : c ∉ s) (h' : c ∉ s') (e : s ++ c :: r = s' ++ c :: r') :
    s = s' ∧ r = r' := by
  induction s generalizing s' with
  | nil =>
    cases s' with
    | nil => simp at e; exact ⟨rfl, e⟩
    | cons a s' => simp at e h'; exact absurd e.1 h'.1
  | cons a s ih =>
    cases s' with
    | nil => simp at e h; exact absurd e.1.symm h.1
    | cons b s' =>
      simp only [List.cons_append, List.cons.injEq] at e
      simp only [List.mem_cons, not_or] at h h'
      obtain ⟨h1, h2⟩ := ih h.2 h'.2 e.2
      exact ⟨by rw [e.1, h1], h2⟩

theorem formatInt_bracket (v : Int) : ')' ∉ formatInt v := by
  rw [formatInt]
  have hd : ∀ n : Nat, ')' ∉ Nat.toDigits 10 n := fun n hn => by
    have := Nat.isDigit_of_mem_toDigits (b := 10) (n := n) (by decide) (by decide) hn
    exact absurd this (by decide)
  split
  · simpa using hd _
  · exact hd _

theorem text_bracket (t : Num) : '(' ∉ t.text ∧ ')' ∉ t.text ∧ ',' ∉ t.text := by cases t <;> decide +kernel

theorem text_inj {s t : Num} (h : s.text = t.text) : s = t := by
  revert h; cases s <;> cases t <;> decide +kernel

/-- The text of an expression does not start with the character that ends the arguments. -/
theorem visit_start {fmt : Flt → Str} {e : Expr} {s : Str} (he : Readable e) (h : visit fmt e = some s) :
    ∃ c l, s = c :: l ∧ c ≠ ')' := by
  have key : ∀ (n t : Str), ')' ∉ n → ∃ c l, n ++ '(' :: t = c :: l ∧ c ≠ ')' := by
    intro n t hn
    cases n with
    | nil => exact ⟨_, _, rfl, by decide⟩
    | cons c n => exact ⟨c, _, rfl, fun e => hn (by simp [e])⟩
  cases e with
  | data d =>
    cases d with
    | raster => cases h
    | const t v =>
      cases h
      rw [List.append_assoc, List.cons_append]
      exact key _ _ (text_bracket t).2.1
  | op r n a l =>
    rw [visit] at h
    obtain ⟨t, -, rfl⟩ := Option.map_eq_some_iff.1 h
    rw [List.append_assoc, List.cons_append]
    exact key _ _ he.1.2.1

/-- From the text of a tree of integers one can read the tree, up to what is not written. -/
theorem visit_similar (fmt : Flt → Str) (e : Expr) : Readable e → ∀ (f : Expr), Readable f → ∀ s s' r r', visit fmt e = some s →
    visit fmt f = some s' → s ++ r = s' ++ r' → Similar e f ∧ r = r' := by
  induction e using Expr.ind with
  | hd d =>
    intro he f hf s s' r r' h h' hr
    cases d with
    | raster => cases h
    | const t v =>
      cases v with
      | flt => exact absurd he (by simp [Readable])
      | int i =>
        cases h
        cases f with
        | data d' =>
          cases d' with
          | raster => cases h'
          | const t' v' =>
            cases v' with
            | flt => exact absurd hf (by simp [Readable])
            | int j =>
              cases h'
              simp only [List.append_assoc, List.cons_append, List.nil_append, Val.text] at hr
              obtain ⟨h1, h2⟩ := split_first (text_bracket t).1 (text_bracket t').1 hr
              obtain ⟨h3, h4⟩ := split_first (formatInt_bracket _) (formatInt_bracket _) h2
              cases text_inj h1
              rw [Messages.formatInt_eq, Messages.formatInt_eq] at h3
              cases Messages.decimal_injective h3
              exact ⟨.data _, h4⟩
        | op r2 n a l =>
          rw [visit] at h'
          obtain ⟨t', -, rfl⟩ := Option.map_eq_some_iff.1 h'
          simp only [List.append_assoc, List.cons_append, List.nil_append] at hr
          obtain ⟨h1, -⟩ := split_first (text_bracket t).1 hf.1.1 hr
          exact absurd h1.symm (hf.1.2.2.2 t)
  | ho r1 n a l ih =>
    intro he f hf s s' r r' h h' hr
    rw [visit] at h
    obtain ⟨u, hu, rfl⟩ := Option.map_eq_some_iff.1 h
    cases f with
    | data d' =>
      cases d' with
      | raster => cases h'
      | const t' v' =>
        cases h'
        simp only [List.append_assoc, List.cons_append, List.nil_append] at hr
        obtain ⟨h1, -⟩ := split_first he.1.1 (text_bracket t').1 hr
        exact absurd h1 (he.1.2.2.2 t')
    | op r2 n' a' l' =>
      rw [visit] at h'
      obtain ⟨u', hu', rfl⟩ := Option.map_eq_some_iff.1 h'
      simp only [List.append_assoc, List.cons_append, List.nil_append] at hr
      obtain ⟨h1, h2⟩ := split_first he.1.1 hf.1.1 hr
      subst h1
      have hrest : ∀ (l : List Expr), (∀ e ∈ l, Readable e → ∀ (f : Expr), Readable f → ∀ s s' r r', visit fmt e = some s →
          visit fmt f = some s' → s ++ r = s' ++ r' → Similar e f ∧ r = r') → ∀ (l' : List Expr) (u u' r r' : Str),
          ReadableAll l → ReadableAll l' → visitRest fmt l = some u → visitRest fmt l' = some u' →
          u ++ ')' :: r = u' ++ ')' :: r' → (l.length = l'.length ∧
            ∀ i (h : i < l.length) (h' : i < l'.length), Similar l[i] l'[i]) ∧ r = r' := by
        intro l
        induction l with
        | nil =>
          intro _ l' u u' r r' _ hl' hu hu' hr
          cases hu
          cases l' with
          | nil => cases hu'; simp at hr; exact ⟨⟨rfl, by simp⟩, hr⟩
          | cons f l' =>
            rw [visitRest] at hu'
            obtain ⟨w, -, hu'⟩ := Option.bind_eq_some_iff.1 hu'
            obtain ⟨z, -, rfl⟩ := Option.map_eq_some_iff.1 hu'
            simp at hr
        | cons e l ih' =>
          intro ih l' u u' r r' hl hl' hu hu' hr
          rw [visitRest] at hu
          obtain ⟨w, hw, hu⟩ := Option.bind_eq_some_iff.1 hu
          obtain ⟨z, hz, rfl⟩ := Option.map_eq_some_iff.1 hu
          cases l' with
          | nil => cases hu'; simp at hr
          | cons f l' =>
            rw [visitRest] at hu'
            obtain ⟨w', hw', hu'⟩ := Option.bind_eq_some_iff.1 hu'
            obtain ⟨z', hz', rfl⟩ := Option.map_eq_some_iff.1 hu'
            simp only [List.append_assoc] at hr
            have hr := List.append_cancel_left hr
            obtain ⟨g1, g2⟩ := ih e (by simp) hl.1 f hl'.1 _ _ _ _ hw hw' hr
            obtain ⟨⟨g3, g4⟩, g5⟩ := ih' (fun e he => ih e (by simp [he])) l' _ _ _ _ hl.2 hl'.2 hz hz' g2
            refine ⟨⟨by simp [g3], fun i => ?_⟩, g5⟩
            cases i with
            | zero => intro _ _; exact g1
            | succ i => intro h h'; exact g4 i (by simpa using h) (by simpa using h')
      have hall : (l.length = l'.length ∧ ∀ i (h : i < l.length) (h' : i < l'.length), Similar l[i] l'[i]) ∧ r = r' := by
        cases l with
        | nil =>
          cases hu
          cases l' with
          | nil => cases hu'; simp at h2; exact ⟨⟨rfl, by simp⟩, h2⟩
          | cons f l' =>
            rw [visitArgs] at hu'
            obtain ⟨w, hw, hu'⟩ := Option.bind_eq_some_iff.1 hu'
            obtain ⟨z, -, rfl⟩ := Option.map_eq_some_iff.1 hu'
            obtain ⟨c, k, rfl, hc⟩ := visit_start hf.2.1 hw
            simp at h2
            exact absurd h2.1.symm hc
        | cons e l =>
          rw [visitArgs] at hu
          obtain ⟨w, hw, hu⟩ := Option.bind_eq_some_iff.1 hu
          obtain ⟨z, hz, rfl⟩ := Option.map_eq_some_iff.1 hu
          cases l' with
          | nil =>
            cases hu'
            obtain ⟨c, k, rfl, hc⟩ := visit_start he.2.1 hw
            simp at h2
            exact absurd h2.1 hc
          | cons f l' =>
            rw [visitArgs] at hu'
            obtain ⟨w', hw', hu'⟩ := Option.bind_eq_some_iff.1 hu'
            obtain ⟨z', hz', rfl⟩ := Option.map_eq_some_iff.1 hu'
            simp only [List.append_assoc] at h2
            obtain ⟨g1, g2⟩ := ih e (by simp) he.2.1 f hf.2.1 _ _ _ _ hw hw' h2
            obtain ⟨⟨g3, g4⟩, g5⟩ := hrest l (fun e he => ih e (by simp [he])) l' _ _ _ _ he.2.2 hf.2.2 hz hz' g2
            refine ⟨⟨by simp [g3], fun i => ?_⟩, g5⟩
            cases i with
            | zero => intro _ _; exact g1
            | succ i => intro h h'; exact g4 i (by simpa using h) (by simpa using h')
      exact ⟨.op _ _ _ _ _ _ _ hall.1.1 hall.1.2, hall.2⟩

/-- Two trees of integers with the same text are the same, up to the implementations and the declared results. -/
theorem C104_text (fmt : Flt → Str) (e f : Expr) (he : Readable e) (hf : Readable f) (s : Str) (h : stream fmt e = some s)
    (h' : stream fmt f = some s) : Similar e f := by
  rw [stream] at h h'
  obtain ⟨u, hu, rfl⟩ := Option.map_eq_some_iff.1 h
  obtain ⟨u', hu', e'⟩ := Option.map_eq_some_iff.1 h'
  simp only [List.cons_append, List.cons.injEq, true_and] at e'
  exact (visit_similar fmt e he f hf _ _ _ _ hu hu' e'.symm).1

/-- The text does not tell what an operation does: trees with the same text may have different values. -/
theorem C104_text_false (fmt : Flt → Str) : ∃ e f, stream fmt e = stream fmt f ∧ stream fmt e ≠ none ∧
    evaluate id e = .ok (.const .i32 (.int 3)) ∧ evaluate id f = .ok (.const .i32 (.int 2)) :=
  ⟨.op (.const .i32) "plus".toList (.plus .i32 .i32) [.data (.const .i32 (.int 2)), .data (.const .i32 (.int 1))],
   .op (.const .i32) "plus".toList (.times .i32 .i32) [.data (.const .i32 (.int 2)), .data (.const .i32 (.int 1))],
   rfl, (by intro h; cases h), by decide +kernel, by decide +kernel⟩

example : stream (fun _ => []) (.op (.const .i32) "plus".toList (.plus .i32 .i64)
    [.data (.const .i32 (.int 2)), .data (.const .i64 (.int (-1)))]) =
    some "(plus(int32_t(2), int64_t(-1)))".toList := by decide +kernel

end Fern.Trees
