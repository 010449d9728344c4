import Verif.Spec.Identify
import Verif.Model.Identify
import Verif.Lemmas.Scope

/-!
Lemmas about the identification of names.
-/

namespace Fern

open Spec

/-! ### Blocks -/

/-- The number of blocks open, starting with `k` open ones. `none`: one too many is closed. -/
def scan : List Token → Nat → Option Nat
  | [], k => some k
  | .begin :: ts, k => scan ts (k + 1)
  | .finish :: _, 0 => none
  | .finish :: ts, k + 1 => scan ts k
  | .use _ _ :: ts, k => scan ts k
  | .define _ _ :: ts, k => scan ts k

theorem scan_append (a b : List Token) (k : Nat) : scan (a ++ b) k = (scan a k).bind (scan b) := by
  induction a generalizing k with
  | nil => rfl
  | cons t a ih =>
    cases t with
    | finish => cases k with
      | zero => rfl
      | succ k => exact ih k
    | _ => exact ih _

theorem scan_spec (ts : List Token) (k e : Nat) (h : scan ts k = some e) :
    finishes ts + e = begins ts + k := by
  induction ts generalizing k with
  | nil => cases h; simp [finishes, begins]
  | cons t ts ih =>
    cases t with
    | finish => cases k with
      | zero => simp [scan] at h
      | succ k => have := ih k h; simp [finishes, begins] at this ⊢; omega
    | «begin» => have := ih _ h; simp [finishes, begins] at this ⊢; omega
    | use n v => have := ih _ h; simp [finishes, begins] at this ⊢; omega
    | define n v => have := ih _ h; simp [finishes, begins] at this ⊢; omega

theorem scan_isSome (ts : List Token) (k : Nat) :
    (scan ts k).isSome = true ↔ ∀ p, p <+: ts → finishes p ≤ begins p + k := by
  constructor
  · rintro h p ⟨q, rfl⟩
    rw [scan_append] at h
    cases hp : scan p k with
    | none => rw [hp] at h; simp at h
    | some e => have := scan_spec p k e hp; omega
  · induction ts generalizing k with
    | nil => intro _; rfl
    | cons t ts ih =>
      intro h
      cases t with
      | finish => cases k with
        | zero => have := h [.finish] ⟨ts, rfl⟩; simp [finishes, begins] at this
        | succ k =>
          refine ih k fun p hp => ?_
          have := h (.finish :: p) (by simpa using hp)
          simp [finishes, begins] at this ⊢; omega
      | «begin» =>
        refine ih _ fun p hp => ?_
        have := h (.begin :: p) (by simpa using hp)
        simp [finishes, begins] at this ⊢; omega
      | use n v =>
        refine ih _ fun p hp => ?_
        have := h (.use n v :: p) (by simpa using hp)
        simpa [finishes, begins] using this
      | define n v =>
        refine ih _ fun p hp => ?_
        have := h (.define n v :: p) (by simpa using hp)
        simpa [finishes, begins] using this

theorem stillOpen_iff (ts : List Token) : StillOpen ts ↔ (scan ts 0).isSome = true := by
  rw [scan_isSome]; rfl

/-- `k` more blocks are closed. -/
def Open (k : Nat) (ts : List Token) : Prop := ∃ e, scan ts 0 = some e ∧ k ≤ e

theorem open_zero (ts : List Token) : Open 0 ts ↔ StillOpen ts := by
  rw [stillOpen_iff, Option.isSome_iff_exists]
  simp [Open]

theorem open_begin (k : Nat) (ts : List Token) : Open k (ts ++ [.begin]) ↔ Open (k - 1) ts := by
  simp only [Open, scan_append]
  cases h : scan ts 0 with
  | none => simp
  | some e => simp [scan]

theorem open_finish (k : Nat) (ts : List Token) : Open k (ts ++ [.finish]) ↔ Open (k + 1) ts := by
  simp only [Open, scan_append]
  cases h : scan ts 0 with
  | none => simp
  | some e => cases e with
    | zero => simp [scan]
    | succ e => simp [scan]

theorem open_use (k : Nat) (ts : List Token) (n : Str) (v : Vid) :
    Open k (ts ++ [.use n v]) ↔ Open k ts := by
  simp only [Open, scan_append]
  cases h : scan ts 0 <;> simp [scan]

theorem open_define (k : Nat) (ts : List Token) (n : Str) (v : Vid) :
    Open k (ts ++ [.define n v]) ↔ Open k ts := by
  simp only [Open, scan_append]
  cases h : scan ts 0 <;> simp [scan]

/-! ### The visible definition -/

/-- Looking back, the most recent token first. -/
def visibleDef (n : Str) : List Token → Nat → Option Vid
  | [], _ => none
  | .finish :: r, k => visibleDef n r (k + 1)
  | .begin :: r, k => visibleDef n r (k - 1)
  | .use _ _ :: r, k => visibleDef n r k
  | .define m d :: r, 0 => if m = n then some d else visibleDef n r 0
  | .define _ _ :: r, k + 1 => visibleDef n r (k + 1)

/-- The most recent definition that is visible after `k` more blocks have been closed. -/
def Vis (k : Nat) (ts : List Token) (n : Str) (d : Vid) : Prop :=
  ∃ a b, ts = a ++ .define n d :: b ∧ Open k b ∧
    ∀ b1 d' b2, b = b1 ++ .define n d' :: b2 → ¬ Open k b2

theorem not_vis_nil (k : Nat) (n : Str) (d : Vid) : ¬ Vis k [] n d := by
  rintro ⟨a, b, h, -⟩
  simp at h

/-- Tokens that define nothing. -/
theorem vis_snoc (k j : Nat) (ts : List Token) (t : Token) (n : Str) (d : Vid)
    (ht : ∀ d', t ≠ .define n d')
    (ho : ∀ b, Open k (b ++ [t]) ↔ Open j b) : Vis k (ts ++ [t]) n d ↔ Vis j ts n d := by
  constructor
  · rintro ⟨a, b, h, h1, h2⟩
    rcases List.eq_nil_or_concat b with rfl | ⟨b', x, rfl⟩
    · have := (List.append_inj' h rfl).2
      exact absurd (List.cons.inj this).1 (ht d)
    · rw [List.concat_eq_append, ← List.cons_append, ← List.append_assoc] at h
      obtain ⟨h3, h4⟩ := List.append_inj' h rfl
      cases h4
      rw [List.concat_eq_append] at h1
      refine ⟨a, b', h3, (ho b').1 h1, fun b1 d' b2 hb => ?_⟩
      rw [← ho b2]
      exact h2 b1 d' (b2 ++ [t]) (by rw [List.concat_eq_append, hb]; simp)
  · rintro ⟨a, b, rfl, h1, h2⟩
    refine ⟨a, b ++ [t], by simp, (ho b).2 h1, fun b1 d' b2 hb => ?_⟩
    rcases List.eq_nil_or_concat b2 with rfl | ⟨b', x, rfl⟩
    · have := (List.append_inj' hb rfl).2
      exact absurd (List.cons.inj this).1 (ht d')
    · rw [List.concat_eq_append, ← List.cons_append, ← List.append_assoc] at hb
      obtain ⟨h3, h4⟩ := List.append_inj' hb rfl
      cases h4
      rw [List.concat_eq_append, ho b']
      exact h2 b1 d' b' h3

/-- A definition of the name itself. -/
theorem vis_define_self (k : Nat) (ts : List Token) (n : Str) (d d' : Vid) :
    Vis k (ts ++ [.define n d']) n d ↔ if k = 0 then d = d' else Vis k ts n d := by
  constructor
  · rintro ⟨a, b, h, h1, h2⟩
    rcases List.eq_nil_or_concat b with rfl | ⟨b', x, rfl⟩
    · have h3 := (List.append_inj' h rfl).2
      cases h3
      obtain ⟨e, he, hk⟩ := h1
      cases he
      rw [if_pos (by omega)]
    · rw [List.concat_eq_append, ← List.cons_append, ← List.append_assoc] at h
      obtain ⟨h3, h4⟩ := List.append_inj' h rfl
      cases h4
      rw [List.concat_eq_append] at h1 h2
      have hk : k ≠ 0 := by
        rintro rfl
        exact h2 b' d' [] rfl ⟨0, rfl, le_rfl⟩
      rw [if_neg hk]
      refine ⟨a, b', h3, (open_define _ _ _ _).1 h1, fun b1 d'' b2 hb => ?_⟩
      rw [← open_define k b2 n d']
      exact h2 b1 d'' (b2 ++ [.define n d']) (by rw [hb]; simp)
  · intro h
    by_cases hk : k = 0
    · rw [if_pos hk] at h
      subst h hk
      exact ⟨ts, [], rfl, ⟨0, rfl, le_rfl⟩, fun b1 _ b2 hb => by simp at hb⟩
    · rw [if_neg hk] at h
      obtain ⟨a, b, rfl, h1, h2⟩ := h
      refine ⟨a, b ++ [.define n d'], by simp, (open_define _ _ _ _).2 h1, fun b1 d'' b2 hb => ?_⟩
      rcases List.eq_nil_or_concat b2 with rfl | ⟨b', x, rfl⟩
      · rintro ⟨e, he, hk'⟩
        cases he
        omega
      · rw [List.concat_eq_append, ← List.cons_append, ← List.append_assoc] at hb
        obtain ⟨h3, h4⟩ := List.append_inj' hb rfl
        cases h4
        rw [List.concat_eq_append, open_define]
        exact h2 b1 d'' b' h3

theorem visibleDef_iff (n : Str) (ts : List Token) (k : Nat) (d : Vid) :
    visibleDef n ts.reverse k = some d ↔ Vis k ts n d := by
  induction ts using List.reverseRecOn generalizing k with
  | nil => simp [visibleDef, not_vis_nil]
  | append_singleton ts t ih =>
    rw [List.reverse_append, List.reverse_singleton, List.singleton_append]
    cases t with
    | finish => rw [visibleDef, ih, vis_snoc k (k + 1) ts _ n d (by simp) (open_finish k)]
    | «begin» => rw [visibleDef, ih, vis_snoc k (k - 1) ts _ n d (by simp) (open_begin k)]
    | use m v => rw [visibleDef, ih, vis_snoc k k ts _ n d (by simp) (fun b => open_use k b m v)]
    | define m d' =>
      by_cases hm : m = n
      · subst hm
        rw [vis_define_self]
        cases k with
        | zero => simp [visibleDef, eq_comm]
        | succ k => rw [visibleDef, ih, if_neg (by omega)]
      · rw [vis_snoc k k ts _ n d (fun _ h => hm (Token.define.inj h).1)
          (fun b => open_define k b m d'), ← ih]
        cases k with
        | zero => rw [visibleDef, if_neg hm]
        | succ k => rw [visibleDef]

/-! ### Visiting tokens -/

/-- What the visitor does at a token. -/
def tokenStep (s : IdentifyState) : Token → Option IdentifyState
  | .use n v => s.useName v n
  | .define n v => s.defineName v n
  | .begin => some s.pushScope
  | .finish => s.popScope

/-- Tokens from the first to the last. -/
def tokenRun (s : IdentifyState) (ts : List Token) : Option IdentifyState := ts.foldlM tokenStep s

theorem tokenRun_append (s : IdentifyState) (a b : List Token) :
    tokenRun s (a ++ b) = (tokenRun s a).bind fun s => tokenRun s b := by
  simp only [tokenRun, List.foldlM_append]
  rfl

theorem tokenRun_cons (s : IdentifyState) (t : Token) (b : List Token) :
    tokenRun s (t :: b) = (tokenStep s t).bind fun s => tokenRun s b := rfl

theorem tokenRun_nil (s : IdentifyState) : tokenRun s [] = some s := rfl

mutual

theorem identifyExpr_eq (s : IdentifyState) (e : Expr) :
    identifyExpr s e = tokenRun s (exprTokens e) := by
  cases e with
  | name v n =>
    rw [identifyExpr, exprTokens, tokenRun_cons]
    exact (Option.bind_fun_some _).symm
  | number v n => rw [identifyExpr, exprTokens, tokenRun_nil]
  | string v n => rw [identifyExpr, exprTokens, tokenRun_nil]
  | call v n args => rw [identifyExpr, exprTokens, identifyExprs_eq]
  | operator v n args => rw [identifyExpr, exprTokens, identifyExprs_eq]
  | subscript v e i =>
    rw [identifyExpr, exprTokens, tokenRun_append, identifyExpr_eq s e]
    congr 1
    funext s
    exact identifyExpr_eq s i
  | «attribute» v e m => rw [identifyExpr, exprTokens, identifyExpr_eq]

theorem identifyExprs_eq (s : IdentifyState) (es : List Expr) :
    identifyExprs s es = tokenRun s (exprsTokens es) := by
  cases es with
  | nil => rw [identifyExprs, exprsTokens, tokenRun_nil]
  | cons e es =>
    rw [identifyExprs, exprsTokens, tokenRun_append, identifyExpr_eq s e]
    congr 1
    funext s
    exact identifyExprs_eq s es

end

mutual

theorem identifyStmt_eq (s : IdentifyState) (t : Stmt) :
    identifyStmt s t = tokenRun s (stmtTokens t) := by
  cases t with
  | expr e => rw [identifyStmt, stmtTokens, identifyExpr_eq]
  | assign v target n e =>
    rw [identifyStmt, stmtTokens, tokenRun_append, identifyExpr_eq]
    congr 1
    funext s
    rw [tokenRun_cons]
    exact (Option.bind_fun_some _).symm
  | ifElse v sv c tv ts t fv fs f =>
    rw [identifyStmt, stmtTokens]
    simp only [tokenRun_append, Option.bind_assoc, identifyExpr_eq, identifyStmts_eq _ t,
      identifyStmts_eq _ f, tokenRun_cons, tokenRun_nil, tokenStep, Option.bind_some,
      Option.bind_fun_some]
  | «while» v sv c tv ts t fv fs f =>
    rw [identifyStmt, stmtTokens]
    simp only [tokenRun_append, Option.bind_assoc, identifyExpr_eq, identifyStmts_eq _ t,
      identifyStmts_eq _ f, tokenRun_cons, tokenRun_nil, tokenStep, Option.bind_some,
      Option.bind_fun_some]
  | function v n args bv bs body =>
    rw [identifyStmt, stmtTokens, tokenRun_append, identifyExprs_eq]
    congr 1
    funext s
    exact identifyStmts_eq s body
  | ret v e => cases e with
    | none => rw [identifyStmt, stmtTokens, tokenRun_nil]
    | some e => rw [identifyStmt, stmtTokens, identifyExpr_eq]

theorem identifyStmts_eq (s : IdentifyState) (l : List Stmt) :
    identifyStmts s l = tokenRun s (stmtsTokens l) := by
  cases l with
  | nil => rw [identifyStmts, stmtsTokens, tokenRun_nil]
  | cons t l =>
    rw [identifyStmts, stmtsTokens, tokenRun_append, identifyStmt_eq s t]
    congr 1
    funext s
    exact identifyStmts_eq s l

end

/-! ### Balance -/

mutual

theorem scan_expr (e : Expr) (k : Nat) : scan (exprTokens e) k = some k := by
  cases e with
  | name v n => rw [exprTokens]; rfl
  | number v n => rw [exprTokens]; rfl
  | string v n => rw [exprTokens]; rfl
  | call v n args => rw [exprTokens, scan_exprs]
  | operator v n args => rw [exprTokens, scan_exprs]
  | subscript v e i => rw [exprTokens, scan_append, scan_expr, Option.bind_some, scan_expr]
  | «attribute» v e m => rw [exprTokens, scan_expr]

theorem scan_exprs (es : List Expr) (k : Nat) : scan (exprsTokens es) k = some k := by
  cases es with
  | nil => rw [exprsTokens]; rfl
  | cons e es => rw [exprsTokens, scan_append, scan_expr, Option.bind_some, scan_exprs]

end

mutual

theorem scan_stmt (t : Stmt) (k : Nat) : scan (stmtTokens t) k = some k := by
  cases t with
  | expr e => rw [stmtTokens, scan_expr]
  | assign v target n e => rw [stmtTokens, scan_append, scan_expr]; rfl
  | ifElse v sv c tv ts t fv fs f =>
    rw [stmtTokens]
    simp only [scan_append, scan_expr, Option.bind_some, scan, scan_stmts t, scan_stmts f]
  | «while» v sv c tv ts t fv fs f =>
    rw [stmtTokens]
    simp only [scan_append, scan_expr, Option.bind_some, scan, scan_stmts t, scan_stmts f]
  | function v n args bv bs body =>
    rw [stmtTokens, scan_append, scan_exprs, Option.bind_some, scan_stmts]
  | ret v e => cases e with
    | none => rw [stmtTokens]; rfl
    | some e => rw [stmtTokens, scan_expr]

theorem scan_stmts (l : List Stmt) (k : Nat) : scan (stmtsTokens l) k = some k := by
  cases l with
  | nil => rw [stmtsTokens]; rfl
  | cons t l => rw [stmtsTokens, scan_append, scan_stmt, Option.bind_some, scan_stmts]

end

/-! ### The invariant -/

/-- The links from uses to definitions; `r` are the tokens before, the most recent one first. -/
def links (r : List Token) : List Token → List (Vid × Vid)
  | [] => []
  | .use n v :: ts => ((visibleDef n r 0).map (fun d => (v, d))).toList ++ links (.use n v :: r) ts
  | t :: ts => links (t :: r) ts

theorem links_append (r a b : List Token) :
    links r (a ++ b) = links r a ++ links (a.reverse ++ r) b := by
  induction a generalizing r with
  | nil => rfl
  | cons t a ih =>
    cases t <;>
      simp only [List.cons_append, links, ih, List.reverse_cons, List.append_assoc, List.nil_append]

/-- The links of a definition, and of a use. -/
structure IdentifyInv (ts : List Token) (s : IdentifyState) : Prop where
  value : ∀ n k, SymbolTable.value (s.table.drop k) n =
    (visibleDef n ts.reverse k).map fun d => (⟨d, n⟩ : NameRef)
  level : scan ts 0 = some (s.table.length - 1) ∧ s.table ≠ []
  definitions : ∀ v, s.definitions v = (defineIds ts).filter (· = v) ++
    ((links [] ts).filter (fun p => p.1 = v)).map (·.2)
  uses : ∀ d, s.uses d = ((links [] ts).filter (fun p => p.2 = d)).map (·.1)

theorem visibleDef_mem (n : Str) (r : List Token) (k : Nat) (d : Vid)
    (h : visibleDef n r k = some d) : Token.define n d ∈ r := by
  have := (visibleDef_iff n r.reverse k d).1 (by rwa [List.reverse_reverse])
  obtain ⟨a, b, h, -⟩ := this
  rw [← List.mem_reverse, h]
  simp

theorem links_mem (r ts : List Token) (v d : Vid) (h : (v, d) ∈ links r ts) :
    ∃ n p c, ts = p ++ .use n v :: c ∧ visibleDef n (p.reverse ++ r) 0 = some d := by
  induction ts generalizing r with
  | nil => simp [links] at h
  | cons t ts ih =>
    have tail : ∀ t', t' = t → (v, d) ∈ links (t' :: r) ts →
        ∃ n p c, t :: ts = p ++ .use n v :: c ∧ visibleDef n (p.reverse ++ r) 0 = some d := by
      intro t' ht h'
      subst ht
      obtain ⟨n, p, c, rfl, hv⟩ := ih _ h'
      exact ⟨n, t' :: p, c, rfl, by simpa using hv⟩
    cases t with
    | use m w =>
      rw [links, List.mem_append] at h
      rcases h with h | h
      · cases hd : visibleDef m r 0 with
        | none => rw [hd] at h; simp at h
        | some d' =>
          rw [hd] at h
          simp at h
          obtain ⟨rfl, rfl⟩ := h
          exact ⟨m, [], ts, rfl, hd⟩
      · exact tail _ rfl h
    | define m w => exact tail _ rfl h
    | «begin» => exact tail _ rfl h
    | finish => exact tail _ rfl h

theorem mem_links (n : Str) (p c : List Token) (v d : Vid)
    (h : visibleDef n p.reverse 0 = some d) : (v, d) ∈ links [] (p ++ .use n v :: c) := by
  rw [links_append, List.append_nil, links, h]
  simp

theorem useIds_append (a b : List Token) : useIds (a ++ b) = useIds a ++ useIds b :=
  List.filterMap_append

theorem defineIds_append (a b : List Token) : defineIds (a ++ b) = defineIds a ++ defineIds b :=
  List.filterMap_append

theorem tokenIds_append (a b : List Token) : tokenIds (a ++ b) = tokenIds a ++ tokenIds b :=
  List.filterMap_append

theorem mem_defineIds (ts : List Token) (d : Vid) : d ∈ defineIds ts ↔ ∃ n, Token.define n d ∈ ts := by
  simp only [defineIds, List.mem_filterMap]
  constructor
  · rintro ⟨t, ht, h⟩
    cases t <;> simp at h
    subst h
    exact ⟨_, ht⟩
  · rintro ⟨n, h⟩
    exact ⟨_, h, rfl⟩

theorem mem_useIds (ts : List Token) (d : Vid) : d ∈ useIds ts ↔ ∃ n, Token.use n d ∈ ts := by
  simp only [useIds, List.mem_filterMap]
  constructor
  · rintro ⟨t, ht, h⟩
    cases t <;> simp at h
    subst h
    exact ⟨_, ht⟩
  · rintro ⟨n, h⟩
    exact ⟨_, h, rfl⟩

theorem mem_tokenIds (ts : List Token) (d : Vid) :
    d ∈ tokenIds ts ↔ (∃ n, Token.use n d ∈ ts) ∨ ∃ n, Token.define n d ∈ ts := by
  simp only [tokenIds, List.mem_filterMap]
  constructor
  · rintro ⟨t, ht, h⟩
    cases t <;> simp at h
    · subst h; exact .inl ⟨_, ht⟩
    · subst h; exact .inr ⟨_, ht⟩
  · rintro (⟨n, h⟩ | ⟨n, h⟩)
    · exact ⟨_, h, rfl⟩
    · exact ⟨_, h, rfl⟩

theorem identifyInv_initial : IdentifyInv [] IdentifyState.initial.pushScope where
  value := fun n k => by
    simp only [IdentifyState.pushScope, IdentifyState.initial, SymbolTable.pushScope]
    cases k with
    | zero => rfl
    | succ k => simp [SymbolTable.value, visibleDef]
  level := ⟨rfl, by simp [IdentifyState.pushScope, SymbolTable.pushScope]⟩
  definitions := fun _ => rfl
  uses := fun _ => rfl

theorem no_links (ts : List Token) (v : Vid) (hv : v ∉ tokenIds ts) :
    (links [] ts).filter (fun p => p.1 = v) = [] ∧ (links [] ts).filter (fun p => p.2 = v) = [] := by
  constructor
  · rw [List.filter_eq_nil_iff]
    rintro ⟨a, b⟩ h
    obtain ⟨n, p, c, rfl, -⟩ := links_mem _ _ _ _ h
    simp only [decide_eq_true_eq]
    rintro rfl
    exact hv ((mem_tokenIds _ _).2 (.inl ⟨n, by simp⟩))
  · rw [List.filter_eq_nil_iff]
    rintro ⟨a, b⟩ h
    obtain ⟨n, p, c, rfl, hd⟩ := links_mem _ _ _ _ h
    simp only [decide_eq_true_eq]
    rintro rfl
    have := visibleDef_mem _ _ _ _ hd
    exact hv ((mem_tokenIds _ _).2 (.inr ⟨n, by simp at this; simp [this]⟩))

/-- A use never is a definition. -/
theorem define_no_links (ts : List Token) (hnd : (tokenIds ts).Nodup) (v : Vid)
    (hv : v ∈ defineIds ts) : (links [] ts).filter (fun p => p.1 = v) = [] := by
  rw [List.filter_eq_nil_iff]
  rintro ⟨a, b⟩ h
  obtain ⟨n, p, c, rfl, -⟩ := links_mem _ _ _ _ h
  simp only [decide_eq_true_eq]
  rintro rfl
  obtain ⟨m, hm⟩ := (mem_defineIds _ _).1 hv
  rw [tokenIds_append] at hnd
  have h2 : tokenIds (Token.use n a :: c) = a :: tokenIds c := rfl
  rw [h2, List.nodup_append] at hnd
  obtain ⟨-, h3, h4⟩ := hnd
  rw [List.mem_append] at hm
  rcases hm with hm | hm
  · exact h4 a ((mem_tokenIds _ _).2 (.inr ⟨m, hm⟩)) a (by simp) rfl
  · simp at hm
    exact (List.nodup_cons.1 h3).1 ((mem_tokenIds _ _).2 (.inr ⟨m, hm⟩))

theorem define_definitions {ts : List Token} {s : IdentifyState} (hi : IdentifyInv ts s)
    (hnd : (tokenIds ts).Nodup) (v : Vid) (hv : v ∈ defineIds ts) : s.definitions v = [v] := by
  rw [hi.definitions, define_no_links ts hnd v hv]
  have hnd' : (defineIds ts).Nodup := by
    have : (defineIds ts).Sublist (tokenIds ts) := by
      clear hi hnd hv
      induction ts with
      | nil => exact .slnil
      | cons t ts ih =>
        cases t with
        | use n v => exact .cons _ ih
        | define n v => exact .cons_cons _ ih
        | «begin» => exact ih
        | finish => exact ih
    exact hnd.sublist this
  have : (defineIds ts).filter (fun x => decide (x = v)) = [v] := by
    rw [List.filter_eq, List.count_eq_one_of_mem hnd' hv]
    rfl
  rw [this]
  rfl

theorem identifyInv_step {ts : List Token} {s : IdentifyState} {t : Token}
    (hi : IdentifyInv ts s) (hnd : (tokenIds (ts ++ [t])).Nodup)
    (ho : (scan (ts ++ [t]) 0).isSome = true) :
    ∃ s', tokenStep s t = some s' ∧ IdentifyInv (ts ++ [t]) s' := by
  have hvr : ∀ n k, visibleDef n (ts ++ [t]).reverse k = visibleDef n (t :: ts.reverse) k := by
    intro n k; rw [List.reverse_append]; rfl
  obtain ⟨hl, hne⟩ := hi.level
  obtain ⟨sc, tb, htb⟩ : ∃ sc tb, s.table = sc :: tb := by
    cases h : s.table with
    | nil => exact absurd h hne
    | cons sc tb => exact ⟨sc, tb, rfl⟩
  have hlen : s.table.length - 1 = tb.length := by rw [htb]; simp
  have hnd' : (tokenIds ts).Nodup := by
    rw [tokenIds_append] at hnd
    exact (List.nodup_append.1 hnd).1
  cases t with
  | «begin» =>
    refine ⟨_, rfl, ?_, ?_, ?_, ?_⟩
    · intro n k
      rw [hvr, visibleDef, ← hi.value]
      simp only [IdentifyState.pushScope, SymbolTable.pushScope]
      cases k with
      | zero => rw [List.drop_zero, SymbolTable.value_cons]; rfl
      | succ k => rfl
    · rw [scan_append, hl]
      simp [IdentifyState.pushScope, SymbolTable.pushScope, scan, htb]
    · intro v
      rw [defineIds_append, links_append]
      simpa [links, defineIds, IdentifyState.pushScope] using hi.definitions v
    · intro v
      rw [links_append]
      simpa [links, IdentifyState.pushScope] using hi.uses v
  | finish =>
    have htb' : tb ≠ [] := by
      rintro rfl
      rw [scan_append, hl, hlen] at ho
      simp [scan] at ho
    refine ⟨{ s with table := tb }, ?_, ?_, ?_, ?_, ?_⟩
    · simp [tokenStep, IdentifyState.popScope, htb, SymbolTable.popScope]
    · intro n k
      rw [hvr, visibleDef, ← hi.value, htb]
      rfl
    · rw [scan_append, hl, hlen]
      cases htb'' : tb with
      | nil => exact absurd htb'' htb'
      | cons x y => simp [scan]
    · intro v
      rw [defineIds_append, links_append]
      simpa [links, defineIds] using hi.definitions v
    · intro v
      rw [links_append]
      simpa [links] using hi.uses v
  | define n v =>
    have hv : v ∉ tokenIds ts := by
      rw [tokenIds_append, List.nodup_append] at hnd
      intro h
      exact hnd.2.2 v h v (by simp [tokenIds]) rfl
    have hdv : s.definitions v = [] := by
      rw [hi.definitions, (no_links ts v hv).1, List.filter_eq_nil_iff.2]
      · rfl
      · intro x hx
        simp only [decide_eq_true_eq]
        rintro rfl
        exact hv ((mem_tokenIds _ _).2 (.inr ((mem_defineIds _ _).1 hx)))
    refine ⟨{ s.addDefinition v v with table := sc.setValue n ⟨v, n⟩ :: tb }, ?_, ?_, ?_, ?_, ?_⟩
    · simp [tokenStep, IdentifyState.defineName, hdv, htb, SymbolTable.addValue]
    · intro m k
      rw [hvr]
      cases k with
      | zero =>
        have := hi.value m 0
        rw [List.drop_zero, htb, SymbolTable.value_cons] at this
        rw [List.drop_zero, SymbolTable.value_cons, Scope.setValue, Scope.value_assign, visibleDef]
        by_cases hm : n = m
        · subst hm; simp
        · rw [if_neg hm, if_neg (by simpa using hm)]
          exact this
      | succ k =>
        have := hi.value m (k + 1)
        rw [htb] at this
        rw [visibleDef]
        exact this
    · rw [scan_append, hl, hlen]
      simp [scan]
    · intro w
      rw [defineIds_append, links_append]
      simp only [IdentifyState.addDefinition, links, List.append_nil, List.filter_append]
      have hone : defineIds [Token.define n v] = [v] := rfl
      rw [hone]
      by_cases hw : w = v
      · subst hw
        rw [Function.update_self, hdv, (no_links ts w hv).1]
        rw [hi.definitions, (no_links ts w hv).1] at hdv
        simp only [List.map_nil, List.append_nil] at hdv
        rw [hdv]
        simp
      · rw [Function.update_of_ne hw, hi.definitions]
        have : ¬ v = w := fun h => hw h.symm
        simp [this]
    · intro w
      rw [links_append]
      simpa [links, IdentifyState.addDefinition] using hi.uses w
  | use n v =>
    have hv : v ∉ tokenIds ts := by
      rw [tokenIds_append, List.nodup_append] at hnd
      intro h
      exact hnd.2.2 v h v (by simp [tokenIds]) rfl
    have hdv : s.definitions v = [] := by
      rw [hi.definitions, (no_links ts v hv).1, List.filter_eq_nil_iff.2]
      · rfl
      · intro x hx
        simp only [decide_eq_true_eq]
        rintro rfl
        exact hv ((mem_tokenIds _ _).2 (.inr ((mem_defineIds _ _).1 hx)))
    have hval := hi.value n 0
    rw [List.drop_zero] at hval
    cases hd : visibleDef n ts.reverse 0 with
    | none =>
      rw [hd] at hval
      have hh : ¬ s.table.hasValue n = true := by
        rw [SymbolTable.hasValue_iff, hval]; simp
      refine ⟨s, ?_, ?_, ?_, ?_, ?_⟩
      · simp only [tokenStep, IdentifyState.useName]
        rw [if_pos hdv, if_neg hh]
      · intro m k
        rw [hvr, visibleDef]
        exact hi.value m k
      · rw [scan_append, hl]
        exact ⟨rfl, hne⟩
      · intro w
        rw [defineIds_append, links_append]
        simpa [links, defineIds, hd] using hi.definitions w
      · intro w
        rw [links_append]
        simpa [links, hd] using hi.uses w
    | some d =>
      rw [hd] at hval
      have hh : s.table.hasValue n = true := by
        rw [SymbolTable.hasValue_iff, hval]; simp
      have hmem : Token.define n d ∈ ts := by simpa using visibleDef_mem _ _ _ _ hd
      have hdd : s.definitions d = [d] :=
        define_definitions hi hnd' d ((mem_defineIds _ _).2 ⟨n, hmem⟩)
      have hvd : v ≠ d := by
        rintro rfl
        exact hv ((mem_tokenIds _ _).2 (.inr ⟨n, hmem⟩))
      refine ⟨{ s.addDefinition v d with uses := Function.update s.uses d (s.uses d ++ [v]) },
        ?_, ?_, ?_, ?_, ?_⟩
      · simp only [tokenStep, IdentifyState.useName]
        rw [if_pos hdv, if_pos hh, hval]
        simp only [Option.map_some, Option.bind_eq_bind, Option.bind_some, IdentifyState.addUse,
          IdentifyState.addDefinition]
        rw [Function.update_of_ne hvd.symm, if_pos ⟨.inr hdd, hvd, trivial⟩]
      · intro m k
        rw [hvr, visibleDef]
        exact hi.value m k
      · rw [scan_append, hl]
        exact ⟨rfl, hne⟩
      · intro w
        rw [defineIds_append, links_append]
        have hone : links (ts.reverse ++ []) [Token.use n v] = [(v, d)] := by
          rw [List.append_nil, links, hd]; rfl
        rw [hone]
        simp only [IdentifyState.addDefinition]
        by_cases hw : w = v
        · subst hw
          rw [Function.update_self, hdv, List.filter_append, List.filter_append (links [] ts),
            (no_links ts w hv).1]
          rw [hi.definitions, (no_links ts w hv).1] at hdv
          simp only [List.map_nil, List.append_nil] at hdv
          simp [defineIds, hdv] at hdv ⊢
          exact hdv
        · rw [Function.update_of_ne hw, hi.definitions]
          have : ¬ v = w := fun h => hw h.symm
          simp [this, defineIds]
      · intro w
        rw [links_append]
        have hone : links (ts.reverse ++ []) [Token.use n v] = [(v, d)] := by
          rw [List.append_nil, links, hd]; rfl
        rw [hone]
        by_cases hw : w = d
        · subst hw
          simp only [Function.update_self]
          rw [hi.uses]
          simp
        · simp only [IdentifyState.addDefinition]
          rw [Function.update_of_ne hw, hi.uses]
          have : ¬ d = w := fun h => hw h.symm
          simp [this]

theorem identifyInv_run (ts : List Token) (hnd : (tokenIds ts).Nodup)
    (ho : (scan ts 0).isSome = true) :
    ∃ s, tokenRun IdentifyState.initial.pushScope ts = some s ∧ IdentifyInv ts s := by
  induction ts using List.reverseRecOn with
  | nil => exact ⟨_, rfl, identifyInv_initial⟩
  | append_singleton ts t ih =>
    obtain ⟨s, hs, hi⟩ := ih (by
        rw [tokenIds_append] at hnd
        exact (List.nodup_append.1 hnd).1) (by
        rw [scan_append] at ho
        cases h : scan ts 0 with
        | none => rw [h] at ho; simp at ho
        | some e => rfl)
    obtain ⟨s', hs', hi'⟩ := identifyInv_step hi hnd ho
    refine ⟨s', ?_, hi'⟩
    rw [tokenRun_append, hs, Option.bind_some, tokenRun_cons, hs']
    rfl

/-! ### Uniqueness of positions -/

theorem split_unique {l1 l2 l1' l2' : List Token} {x y : Token} {v : Vid}
    (h : l1 ++ x :: l2 = l1' ++ y :: l2') (hx : tokenIds [x] = [v]) (hy : tokenIds [y] = [v])
    (hnd : (tokenIds (l1 ++ x :: l2)).Nodup) : l1 = l1' ∧ x = y ∧ l2 = l2' := by
  have key : ∀ (a b : List Token) (z : Token), tokenIds [z] = [v] →
      tokenIds (a ++ z :: b) = tokenIds a ++ v :: tokenIds b := by
    intro a b z hz
    rw [show a ++ z :: b = a ++ ([z] ++ b) from rfl, tokenIds_append, tokenIds_append, hz]
    rfl
  rw [List.append_eq_append_iff] at h
  rcases h with ⟨c, rfl, h2⟩ | ⟨c, rfl, h2⟩
  · cases c with
    | nil => simp at h2; simp [h2]
    | cons z c =>
      simp only [List.cons_append, List.cons.injEq] at h2
      obtain ⟨rfl, rfl⟩ := h2
      rw [key _ _ _ hx, key _ _ _ hy, List.nodup_append] at hnd
      have := (List.nodup_cons.1 hnd.2.1).1
      simp at this
  · cases c with
    | nil => simp at h2; simp [h2]
    | cons z c =>
      simp only [List.cons_append, List.cons.injEq] at h2
      obtain ⟨rfl, rfl⟩ := h2
      rw [List.append_assoc, List.cons_append, key _ _ _ hy, key _ _ _ hx, List.nodup_append] at hnd
      have := (List.nodup_cons.1 hnd.2.1).1
      simp at this

theorem refersTo_iff (ts : List Token) (hnd : (tokenIds ts).Nodup) (v d : Vid) :
    RefersTo ts v d ↔ (v, d) ∈ links [] ts := by
  constructor
  · rintro ⟨n, a, b, c, rfl, h1, h2⟩
    have : visibleDef n (a ++ .define n d :: b).reverse 0 = some d := by
      rw [visibleDef_iff]
      exact ⟨a, b, rfl, (open_zero _).2 h1, fun b1 d' b2 hb => by
        rw [open_zero]; exact h2 b1 d' b2 hb⟩
    have := mem_links n _ c v d this
    rwa [List.append_assoc, List.cons_append] at this
  · intro h
    obtain ⟨n, p, c, rfl, hv⟩ := links_mem _ _ _ _ h
    rw [List.append_nil, visibleDef_iff] at hv
    obtain ⟨a, b, rfl, h1, h2⟩ := hv
    exact ⟨n, a, b, c, by simp, (open_zero _).1 h1, fun b1 d' b2 hb => by
      rw [← open_zero]; exact h2 b1 d' b2 hb⟩

end Fern
