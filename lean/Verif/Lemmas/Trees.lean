import Verif.Spec.Trees
import Verif.Props.FloatArith
import Verif.Lemmas.CInt

/-!
# Lemmas about trees of expressions
-/

namespace Fern.Trees

open Fern Fern.Spec Fern.Domains Fern.FloatArith Fern.Trees.Spec
open Fern.FloatArith.Spec (Rounded)

theorem join_larger (u v : Num) : join u v = larger u v := by cases u <;> cases v <;> rfl

theorem rounded_iff (q : Rat) (z : Flt) : Rounded .double q z ↔ z = FltTy.double.round q := by
  constructor
  · intro h; exact C95_determined _ _ _ _ h (round_rounded _ _)
  · rintro rfl; exact round_rounded _ _

theorem asDouble_iff (x : Val) (z : Flt) : AsDouble x z ↔ z = widen x := by
  cases x with
  | int i => exact rounded_iff _ _
  | flt x => rfl

theorem fltSum_iff (x y z : Flt) : FltSum x y z ↔ z = plus .double x y := by
  cases x <;> cases y <;> simp [FltSum, plus, rounded_iff]

theorem infinite_sign (q : Rat) : infinite q = if 0 < q then .inf else if q < 0 then .negInf else .nan := rfl

theorem fltProduct_iff (x y z : Flt) : FltProduct x y z ↔ z = times .double x y := by
  cases x <;> cases y <;> simp [FltProduct, times, rounded_iff, sign, infinite_sign]
  all_goals
    rename_i q
    rcases lt_trichotomy q 0 with h | h | h
    · have h1 : ¬ 0 < q := not_lt.2 h.le
      simp [h, h1]
    · subst h; simp
    · have h1 : ¬ q < 0 := not_lt.2 h.le
      simp [h, h1]

theorem int_larger {u v : Num} (h : larger u v ≠ .f64) {x y : Val} (hx : OfNum u x) (hy : OfNum v y) :
    ∃ a b, x = .int a ∧ y = .int b := by
  cases u <;> cases v <;> simp [larger, rank] at h <;> cases x <;> simp [OfNum] at hx <;> cases y <;> simp [OfNum] at hy <;>
    exact ⟨_, _, rfl, rfl⟩

theorem ofNum_int {t : Num} {k : IntTy} (h : t.int = some k) (i : Int) : OfNum t (.int i) ↔ k.min ≤ i ∧ i ≤ k.max := by
  rw [← fits_iff]
  cases t <;> cases h <;> rfl

theorem int_none {t : Num} : t.int = none ↔ t = .f64 := by cases t <;> simp [Num.int]

theorem plusVal_iff {u v : Num} {x y : Val} (hx : OfNum u x) (hy : OfNum v y) (c : Val) :
    plusVal u v x y = some c ↔ Sum u v x y c := by
  unfold plusVal arith
  rw [join_larger]
  cases hk : (larger u v).int with
  | none =>
    have hf := int_none.1 hk
    simp only [Option.some.injEq]
    constructor
    · rintro rfl
      exact .flt _ _ _ _ _ hf ((asDouble_iff _ _).2 rfl) ((asDouble_iff _ _).2 rfl) ((fltSum_iff _ _ _).2 rfl)
    · intro h
      cases h with
      | int _ _ h => exact absurd hf h
      | flt _ _ p q z _ h1 h2 h3 => rw [asDouble_iff] at h1 h2; rw [fltSum_iff] at h3; rw [h3, h1, h2]
  | some k =>
    have hf : larger u v ≠ .f64 := fun e => by rw [int_none.2 e] at hk; cases hk
    obtain ⟨a, b, rfl, rfl⟩ := int_larger hf hx hy
    dsimp only
    constructor
    · intro h
      split at h
      · cases h
        exact .int _ _ hf ((ofNum_int hk _).2 ‹_›)
      · cases h
    · intro h
      cases h with
      | int _ _ _ h1 => exact if_pos ((ofNum_int hk _).1 h1)
      | flt _ _ _ _ _ h => exact absurd h hf

theorem timesVal_iff {u v : Num} {x y : Val} (hx : OfNum u x) (hy : OfNum v y) (c : Val) :
    timesVal u v x y = some c ↔ Product u v x y c := by
  unfold timesVal arith
  rw [join_larger]
  cases hk : (larger u v).int with
  | none =>
    have hf := int_none.1 hk
    simp only [Option.some.injEq]
    constructor
    · rintro rfl
      exact .flt _ _ _ _ _ hf ((asDouble_iff _ _).2 rfl) ((asDouble_iff _ _).2 rfl) ((fltProduct_iff _ _ _).2 rfl)
    · intro h
      cases h with
      | int _ _ h => exact absurd hf h
      | flt _ _ p q z _ h1 h2 h3 => rw [asDouble_iff] at h1 h2; rw [fltProduct_iff] at h3; rw [h3, h1, h2]
  | some k =>
    have hf : larger u v ≠ .f64 := fun e => by rw [int_none.2 e] at hk; cases hk
    obtain ⟨a, b, rfl, rfl⟩ := int_larger hf hx hy
    dsimp only
    constructor
    · intro h
      split at h
      · cases h
        exact .int _ _ hf ((ofNum_int hk _).2 ‹_›)
      · cases h
    · intro h
      cases h with
      | int _ _ _ h1 => exact if_pos ((ofNum_int hk _).1 h1)
      | flt _ _ _ _ _ h => exact absurd h hf

theorem sum_ofNum {u v : Num} {x y c : Val} (h : Sum u v x y c) : OfNum (larger u v) c := by
  cases h with
  | int _ _ _ h => exact h
  | flt _ _ _ _ _ h => rw [h]; trivial

theorem product_ofNum {u v : Num} {x y c : Val} (h : Product u v x y c) : OfNum (larger u v) c := by
  cases h with
  | int _ _ _ h => exact h
  | flt _ _ _ _ _ h => rw [h]; trivial

theorem sum_unique {u v : Num} {x y c c' : Val} (h : Sum u v x y c) (h' : Sum u v x y c') : c = c' := by
  cases h with
  | int a b h1 h2 =>
    cases h' with
    | int => rfl
    | flt _ _ _ _ _ h => exact absurd h h1
  | flt _ _ p q z h1 h2 h3 h4 =>
    cases h' with
    | int _ _ h => exact absurd h1 h
    | flt _ _ p' q' z' h1' h2' h3' h4' =>
      rw [asDouble_iff] at *
      rw [fltSum_iff] at *
      rw [h4, h4', h2, h3, h2', h3']

theorem product_unique {u v : Num} {x y c c' : Val} (h : Product u v x y c) (h' : Product u v x y c') : c = c' := by
  cases h with
  | int a b h1 h2 =>
    cases h' with
    | int => rfl
    | flt _ _ _ _ _ h => exact absurd h h1
  | flt _ _ p q z h1 h2 h3 h4 =>
    cases h' with
    | int _ _ h => exact absurd h1 h
    | flt _ _ p' q' z' h1' h2' h3' h4' =>
      rw [asDouble_iff] at *
      rw [fltProduct_iff] at *
      rw [h4, h4', h2, h3, h2', h3']

/-- Induction over expressions. -/
theorem Expr.ind {P : Expr → Prop} (hd : ∀ d, P (.data d)) (ho : ∀ r n a l, (∀ e ∈ l, P e) → P (.op r n a l)) :
    ∀ e, P e :=
  fun e => Expr.rec (motive_1 := P) (motive_2 := fun l => ∀ e ∈ l, P e) hd (fun r n a l ih => ho r n a l ih)
    (by simp) (fun e l h1 h2 => by simpa using ⟨h1, h2⟩) e

theorem zero_ofNum (t : Num) : OfNum t t.zero := by cases t <;> simp [OfNum, Num.zero, Fits]

/-- The cells of a sum. -/
theorem plusCells_spec {u v : Num} : ∀ {l k : List (Val × Bool)}, l.length = k.length → (∀ c ∈ l, OfNum u c.1) →
    (∀ c ∈ k, OfNum v c.1) →
    (∃ m, plusCells u v l k = some m ∧ m.length = l.length ∧ (∀ c ∈ m, OfNum (larger u v) c.1) ∧
      ∀ (i : Nat) (x y : Val × Bool), l[i]? = some x → k[i]? = some y → ∃ z : Val × Bool, m[i]? = some z ∧
        ((x.2 = true ∨ y.2 = true) ∧ z.2 = true ∨ x.2 = false ∧ y.2 = false ∧ z.2 = false ∧ Sum u v x.1 y.1 z.1)) ∨
    (plusCells u v l k = none ∧ ∃ (i : Nat) (x y : Val × Bool), l[i]? = some x ∧ k[i]? = some y ∧ x.2 = false ∧ y.2 = false ∧
      ∀ z, ¬ Sum u v x.1 y.1 z)
  | [], [], _, _, _ => .inl ⟨[], rfl, rfl, by simp, by simp⟩
  | [], _ :: _, h, _, _ => by simp at h
  | _ :: _, [], h, _, _ => by simp at h
  | x :: l, y :: k, h, hl, hk => by
    have hx := hl x (by simp)
    have hy := hk y (by simp)
    rw [plusCells]
    have h1 : (∃ z, plusCell u v x y = some z ∧ OfNum (larger u v) z.1 ∧
        ((x.2 = true ∨ y.2 = true) ∧ z.2 = true ∨ x.2 = false ∧ y.2 = false ∧ z.2 = false ∧ Sum u v x.1 y.1 z.1)) ∨
        (plusCell u v x y = none ∧ x.2 = false ∧ y.2 = false ∧ ∀ z, ¬ Sum u v x.1 y.1 z) := by
      rw [plusCell]
      by_cases hm : (x.2 || y.2) = true
      · rw [if_pos hm]
        refine .inl ⟨_, rfl, by rw [join_larger]; exact zero_ofNum _, .inl ⟨by simpa using hm, rfl⟩⟩
      · rw [if_neg hm]
        have hm' : x.2 = false ∧ y.2 = false := by simpa using hm
        cases hp : plusVal u v x.1 y.1 with
        | none => exact .inr ⟨rfl, hm'.1, hm'.2, fun z hz => by rw [(plusVal_iff hx hy z).2 hz] at hp; cases hp⟩
        | some z =>
          have hz := (plusVal_iff hx hy z).1 hp
          exact .inl ⟨_, rfl, sum_ofNum hz, .inr ⟨hm'.1, hm'.2, rfl, hz⟩⟩
    rcases h1 with ⟨z, hz, hz1, hz2⟩ | ⟨hz, hx2, hy2, hz1⟩
    · rw [hz, Option.bind_some]
      rcases plusCells_spec (u := u) (v := v) (l := l) (k := k) (by simpa using h) (fun c hc => hl c (by simp [hc]))
        (fun c hc => hk c (by simp [hc])) with ⟨m, hm, hm1, hm2, hm3⟩ | ⟨hm, i, x', y', h3, h4, h5⟩
      · rw [hm]
        refine .inl ⟨_, rfl, by simp [hm1], fun c hc => ?_, fun i => ?_⟩
        · rcases List.mem_cons.1 hc with rfl | hc
          · exact hz1
          · exact hm2 c hc
        cases i with
        | zero =>
          intro x' y' hx' hy'
          simp only [List.getElem?_cons_zero, Option.some.injEq] at hx' hy'
          subst hx' hy'
          exact ⟨z, by simp, hz2⟩
        | succ i => simpa using hm3 i
      · rw [hm]
        exact .inr ⟨rfl, i + 1, x', y', by simpa using h3, by simpa using h4, h5⟩
    · rw [hz]
      exact .inr ⟨rfl, 0, x, y, by simp, by simp, hx2, hy2, hz1⟩

theorem leavesAll_eq (l : List Expr) : leavesAll l = l.flatMap leaves := by
  induction l with
  | nil => rfl
  | cons e l ih => rw [leavesAll, ih]; rfl

theorem fines_arg {r n a l} (h : Fines (.op r n a l)) {e} (he : e ∈ l) : Fines e := fun d hd => h d (by
  rw [leaves, leavesAll_eq]; exact List.mem_flatMap.2 ⟨e, he, hd⟩)

theorem shaped_arg {r n a l rows cols} (h : Shaped (.op r n a l) rows cols) {e} (he : e ∈ l) : Shaped e rows cols :=
  fun t s hs => h t s (by rw [leaves, leavesAll_eq]; exact List.mem_flatMap.2 ⟨e, he, hs⟩)

end Fern.Trees
