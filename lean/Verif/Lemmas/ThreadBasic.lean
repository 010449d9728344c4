import Verif.Lemmas.ThreadModule
import Verif.Lemmas.ThreadOrder

/-!
# Lemmas about threading modules without functions
-/

namespace Fern

theorem Stmt.namedParameters_of_basic :
    (∀ t : Stmt, t.basic = true → t.namedParameters) ∧
    ∀ ts : List Stmt, Stmt.listBasic ts = true → Stmt.listNamedParameters ts := by
  have key : ∀ n : Nat, (∀ t : Stmt, sizeOf t < n → t.basic = true → t.namedParameters) ∧
      ∀ ts : List Stmt, sizeOf ts < n → Stmt.listBasic ts = true → Stmt.listNamedParameters ts := by
    intro n
    induction n with
    | zero => exact ⟨fun _ h => absurd h (by omega), fun _ h => absurd h (by omega)⟩
    | succ n ih =>
      constructor
      · intro t h hb
        cases t with
        | expr e => trivial
        | assign v target n e => trivial
        | ifElse v sentinel c tv ts t fv fs f =>
          rw [Stmt.basic, Bool.and_eq_true] at hb
          simp only [Stmt.ifElse.sizeOf_spec] at h
          exact ⟨ih.2 t (by omega) hb.1, ih.2 f (by omega) hb.2⟩
        | «while» => simp [Stmt.basic] at hb
        | function => simp [Stmt.basic] at hb
        | ret => simp [Stmt.basic] at hb
      · intro ts h hb
        cases ts with
        | nil => trivial
        | cons t ts =>
          rw [Stmt.listBasic, Bool.and_eq_true] at hb
          simp only [List.cons.sizeOf_spec] at h
          exact ⟨ih.1 t (by omega) hb.1, ih.2 ts (by omega) hb.2⟩
  exact ⟨fun t => (key _).1 t (Nat.lt_succ_self _), fun ts => (key _).2 ts (Nat.lt_succ_self _)⟩

mutual

theorem Stmt.fits_of_basic (t : Stmt) (direct : Bool) (h : t.basic = true) : t.fits direct = true :=
  match t with
  | .expr _ | .assign _ _ _ _ => by rw [Stmt.fits]
  | .ifElse _ _ _ _ _ t _ _ f => by
    rw [Stmt.basic, Bool.and_eq_true] at h
    rw [Stmt.fits, Stmt.listFits_of_basic t false h.1, Stmt.listFits_of_basic f false h.2]
    rfl
  | .while _ _ _ _ _ _ _ _ _ => absurd h (by simp [Stmt.basic])
  | .function _ _ _ _ _ _ => absurd h (by simp [Stmt.basic])
  | .ret _ _ => absurd h (by simp [Stmt.basic])

theorem Stmt.listFits_of_basic (ts : List Stmt) (direct : Bool) (h : Stmt.listBasic ts = true) :
    Stmt.listFits direct ts = true :=
  match ts with
  | [] => by rw [Stmt.listFits]
  | t :: ts => by
    rw [Stmt.listBasic, Bool.and_eq_true] at h
    rw [Stmt.listFits, Stmt.fits_of_basic t direct h.1, Stmt.listFits_of_basic ts direct h.2]
    have : t.retThenFunction ts = false := by
      cases t with
      | ret => simp [Stmt.basic] at h
      | _ => rfl
    rw [this]
    rfl

end

theorem callables_of_basic (g : Callable) (ts : List Stmt) (h : Stmt.listBasic ts = true) :
    callables g ts = g := by
  induction ts with
  | nil => rw [callables]
  | cons t ts ih =>
    rw [Stmt.listBasic, Bool.and_eq_true] at h
    cases t with
    | expr e => rw [callables]; exact ih h.2; simp
    | assign v target n e => rw [callables]; exact ih h.2; simp
    | ifElse => rw [callables]; exact ih h.2; simp
    | «while» => simp [Stmt.basic] at h
    | function => simp [Stmt.basic] at h
    | ret => simp [Stmt.basic] at h

/-- No function can be called. -/
abbrev noCallables : Callable := fun _ => none

theorem exprCalls_none (e : Expr) : exprCalls noCallables e = [] := by
  rw [List.eq_nil_iff_forall_not_mem]
  intro x hx
  obtain ⟨n, h⟩ := exprCalls_exit e x hx
  cases h

theorem definitionCalls_of_basic (g : Callable) (ts : List Stmt) (h : Stmt.listBasic ts = true) :
    definitionCalls g ts = [] := by
  induction ts with
  | nil => rw [definitionCalls]
  | cons t ts ih =>
    rw [Stmt.listBasic, Bool.and_eq_true] at h
    cases t with
    | expr e => rw [definitionCalls]; exact ih h.2; simp
    | assign v target n e => rw [definitionCalls]; exact ih h.2; simp
    | ifElse => rw [definitionCalls]; exact ih h.2; simp
    | «while» => simp [Stmt.basic] at h
    | function => simp [Stmt.basic] at h
    | ret => simp [Stmt.basic] at h

mutual

theorem stmtCalls_of_basic (t : Stmt) (h : t.basic = true) : stmtCalls noCallables t = [] :=
  match t with
  | .expr e => by rw [stmtCalls, exprCalls_none]
  | .assign _ _ _ e => by rw [stmtCalls, exprCalls_none]
  | .ifElse _ _ c _ _ t _ _ f => by
    rw [Stmt.basic, Bool.and_eq_true] at h
    rw [stmtCalls, exprCalls_none, definitionCalls_of_basic _ t h.1, definitionCalls_of_basic _ f h.2,
      callables_of_basic _ t h.1, callables_of_basic _ f h.2, bodyCalls_of_basic t h.1,
      bodyCalls_of_basic f h.2]
    rfl
  | .while _ _ _ _ _ _ _ _ _ => absurd h (by simp [Stmt.basic])
  | .function _ _ _ _ _ _ => absurd h (by simp [Stmt.basic])
  | .ret _ _ => absurd h (by simp [Stmt.basic])

theorem bodyCalls_of_basic (ts : List Stmt) (h : Stmt.listBasic ts = true) :
    bodyCalls noCallables ts = [] :=
  match ts with
  | [] => by rw [bodyCalls]
  | t :: ts => by
    rw [Stmt.listBasic, Bool.and_eq_true] at h
    rw [bodyCalls, stmtCalls_of_basic t h.1, bodyCalls_of_basic ts h.2]
    rfl

end

theorem calls_of_basic (m : Module) (h : Stmt.listBasic m.statements = true) : m.calls = [] := by
  rw [Module.calls, definitionCalls_of_basic _ _ h, callables_of_basic _ _ h]
  exact bodyCalls_of_basic m.statements h

theorem Stmt.basic_of_straight {t : Stmt} (h : t.straight = true) : t.basic = true := by
  cases t <;> first | rfl | simp [Stmt.straight] at h

theorem Stmt.listBasic_of_straight {ts : List Stmt} (h : ts.all Stmt.straight = true) :
    Stmt.listBasic ts = true := by
  induction ts with
  | nil => rw [Stmt.listBasic]
  | cons t ts ih =>
    rw [List.all_cons, Bool.and_eq_true] at h
    rw [Stmt.listBasic, Stmt.basic_of_straight h.1, ih h.2]
    rfl

/-- Without `if` there is one order, and it contains everything. -/
theorem bodyTraces_straight (ts : List Stmt) (h : ts.all Stmt.straight = true) :
    ∃ x, x.Perm (Stmt.listVids ts) ∧ ∀ l, bodyTraces noTraces ts l ↔ l = x := by
  induction ts with
  | nil =>
    refine ⟨[], by rw [Stmt.listVids], fun l => ?_⟩
    rw [bodyTraces]
    rfl
  | cons t ts ih =>
    rw [List.all_cons, Bool.and_eq_true] at h
    obtain ⟨y, hy, ey⟩ := ih h.2
    rw [bodyTraces_basic _ t ts (Stmt.basic_of_straight h.1), Stmt.listVids]
    have hx : ∃ x, x.Perm t.vids ∧ ∀ l, stmtTraces noTraces t l ↔ l = x := by
      cases t with
      | expr e => exact ⟨e.postorder, Expr.postorder_perm e, fun l => by
          rw [stmtTraces]; exact exprTraces_iff e l⟩
      | assign v target n e =>
        refine ⟨e.postorder ++ [target, v], ?_, fun l => ?_⟩
        · rw [Stmt.vids]
          refine (List.perm_append_comm).trans ?_
          exact (List.Perm.swap v target _).trans (((Expr.postorder_perm e).cons _).cons _)
        · rw [stmtTraces]
          constructor
          · rintro ⟨x, y, rfl, hx, z, w, rfl, rfl, rfl⟩
            rw [(exprTraces_iff e x).1 hx]
            rfl
          · rintro rfl
            exact ⟨_, _, rfl, (exprTraces_iff e _).2 rfl, [target], [v], rfl, rfl, rfl⟩
      | _ => exact absurd h.1 (by simp [Stmt.straight])
    obtain ⟨x, hx, ex⟩ := hx
    refine ⟨x ++ y, hx.append hy, fun l => ?_⟩
    constructor
    · rintro ⟨x', y', rfl, hx', hy'⟩
      rw [(ex x').1 hx', (ey y').1 hy']
    · rintro rfl
      exact ⟨x, y, rfl, (ex x).2 rfl, (ey y).2 rfl⟩

theorem moduleTraces_basic (m : Module) (h : Stmt.listBasic m.statements = true) (l : List Vid) :
    moduleTraces m l ↔
      ∃ x, bodyTraces noTraces m.statements x ∧ l = m.scope :: (x ++ [m.sentinel, m.v]) := by
  rw [moduleTraces, definitionTraces_basic _ _ h]
  constructor
  · rintro ⟨x, y, rfl, rfl, x', y', rfl, hx', _, _, rfl, rfl, rfl⟩
    exact ⟨x', hx', rfl⟩
  · rintro ⟨x, hx, rfl⟩
    exact ⟨[m.scope], _, rfl, rfl, x, _, rfl, hx, [m.sentinel], [m.v], rfl, rfl, rfl⟩

end Fern
