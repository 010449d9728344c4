import Verif.Lemmas.FloatArith
import Verif.Lemmas.FloatVector
import Verif.Lemmas.FloatSpread
import Verif.Lemmas.Accumulators
import Verif.Model.FloatOrder
import Verif.Spec.FloatOrder
import Verif.Spec.FloatSpread

/-! # Order statistics of floating point numbers -/

namespace Fern.FloatOrder

open Fern Fern.Domains Fern.Spec Fern.Casts Fern.Casts.Spec Fern.FloatArith Fern.FloatArith.Spec
open _root_.Fern.FloatOrder.Spec
open _root_.Fern.FloatSpread.Spec (Accumulated)

/-! ### The order -/

theorem le_refl' {a : Flt} (h : a ≠ .nan) : Flt.le a a = true := by cases a <;> simp_all [Flt.le]

theorem le_trans' {a b c : Flt} (h1 : Flt.le a b = true) (h2 : Flt.le b c = true) : Flt.le a c = true := by
  cases a <;> cases b <;> cases c <;> simp_all [Flt.le]
  exact h1.trans h2

theorem le_antisymm' {a b : Flt} (h1 : Flt.le a b = true) (h2 : Flt.le b a = true) : a = b := by
  cases a <;> cases b <;> simp_all [Flt.le]
  exact le_antisymm h1 h2

theorem le_total' {a b : Flt} (ha : a ≠ .nan) (hb : b ≠ .nan) : Flt.le a b = true ∨ Flt.le b a = true := by
  cases a <;> cases b <;> simp_all [Flt.le]
  exact le_total _ _

theorem lt_iff {a b : Flt} (ha : a ≠ .nan) (hb : b ≠ .nan) : Flt.lt a b = true ↔ ¬ Flt.le b a = true := by
  cases a <;> cases b <;> simp_all [Flt.le, Flt.lt]

theorem lt_nan (a : Flt) : Flt.lt a .nan = false := by cases a <;> rfl

theorem nan_lt (a : Flt) : Flt.lt .nan a = false := by cases a <;> rfl

theorem le_nan (a : Flt) : Flt.le a .nan = false := by cases a <;> rfl

theorem nan_le (a : Flt) : Flt.le .nan a = false := by cases a <;> rfl

/-! ### The largest number -/

theorem largest_represents (t : FltTy) : Represents t.num (largest t) := by
  rw [represents_num, floatValue_iff]
  refine ⟨2 ^ t.bits - 1, t.hi, ?_, t.lo_le_hi, le_refl _, by simp [largest]⟩
  have : (1 : Int) ≤ 2 ^ t.bits := one_le_pow₀ (by norm_num)
  rw [abs_of_nonneg (by omega)]
  omega

theorem abs_le_largest {t : FltTy} {q : Rat} (h : Represents t.num q) : |q| ≤ largest t := by
  rw [represents_num, floatValue_iff] at h
  obtain ⟨m, e, hm, -, he, rfl⟩ := h
  rw [abs_mul, abs_of_pos (two_zpow_pos e), largest]
  have h1 : ((|m| : Int) : Rat) ≤ 2 ^ t.bits - 1 := by
    have : |m| ≤ 2 ^ t.bits - 1 := by omega
    exact_mod_cast this
  have h2 : (2 : Rat) ^ e ≤ 2 ^ t.hi := zpow_le_zpow_right₀ (by norm_num) he
  rw [Int.cast_abs] at h1
  exact mul_le_mul h1 h2 (two_zpow_pos e).le ((abs_nonneg _).trans h1)

theorem largest_pos (t : FltTy) : 0 < largest t := by
  rw [largest]
  have : (1 : Rat) < 2 ^ t.bits := one_lt_pow₀ (by norm_num) t.bits_pos.ne'
  exact mul_pos (by linarith) (two_zpow_pos _)

theorem largest_number (t : FltTy) : LargestNumber t (largest t) :=
  ⟨largest_represents t, fun _ h => (le_abs_self _).trans (abs_le_largest h)⟩

theorem largest_lt_limit (t : FltTy) : largest t < limit t := by
  rw [largest, limit_eq]
  exact mul_lt_mul_of_pos_right (by linarith) (two_zpow_pos _)

/-! ### Extremes -/

/-- The state after getting the values, starting with `i`, for an order. -/
structure Extreme (le : Flt → Flt → Prop) (i : Flt) (vs : List Flt) (s : Flt) : Prop where
  mem : s = i ∨ s ∈ vs
  not_nan : s ≠ .nan
  init : le i s
  all : ∀ v ∈ vs, v ≠ .nan → le v s

/-- What is used of an order. -/
structure Order (le : Flt → Flt → Prop) (pick : Flt → Flt → Flt) : Prop where
  refl : ∀ a, a ≠ .nan → le a a
  trans : ∀ {a b c}, le a b → le b c → le a c
  antisymm : ∀ {a b}, le a b → le b a → a = b
  pick_nan : ∀ a, pick a .nan = a
  pick_le : ∀ a b, a ≠ .nan → b ≠ .nan → (pick a b = a ∨ pick a b = b) ∧ le a (pick a b) ∧ le b (pick a b)

theorem max_order : Order (fun a b => Flt.le a b = true) stdMax where
  refl a h := le_refl' h
  trans := le_trans'
  antisymm := le_antisymm'
  pick_nan a := by simp [stdMax, lt_nan]
  pick_le a b ha hb := by
    unfold stdMax
    have h := lt_iff ha hb
    by_cases hl : Flt.lt a b = true
    · rw [if_pos hl]
      exact ⟨.inr rfl, (le_total' ha hb).resolve_right (h.1 hl), le_refl' hb⟩
    · rw [if_neg hl]
      exact ⟨.inl rfl, le_refl' ha, by_contra fun hc => hl (h.2 hc)⟩

theorem min_order : Order (fun a b => Flt.le b a = true) stdMin where
  refl a h := le_refl' h
  trans h1 h2 := le_trans' h2 h1
  antisymm h1 h2 := le_antisymm' h2 h1
  pick_nan a := by simp [stdMin, nan_lt]
  pick_le a b ha hb := by
    unfold stdMin
    have h := lt_iff hb ha
    by_cases hl : Flt.lt b a = true
    · rw [if_pos hl]
      exact ⟨.inr rfl, (le_total' ha hb).resolve_left (h.1 hl), le_refl' hb⟩
    · rw [if_neg hl]
      exact ⟨.inl rfl, le_refl' ha, by_contra fun hc => hl (h.2 hc)⟩

variable {le : Flt → Flt → Prop} {pick : Flt → Flt → Flt} {i : Flt}

theorem Extreme.start (o : Order le pick) (hi : i ≠ .nan) : Extreme le i [] i :=
  ⟨.inl rfl, hi, o.refl i hi, by simp⟩

theorem Extreme.add (o : Order le pick) {vs : List Flt} {s : Flt} (h : Extreme le i vs s) (v : Flt) :
    Extreme le i (vs ++ [v]) (pick s v) := by
  by_cases hv : v = .nan
  · subst hv
    rw [o.pick_nan]
    refine ⟨h.mem.imp_right (by simp +contextual), h.not_nan, h.init, fun w hw hn => ?_⟩
    rcases List.mem_append.1 hw with hw | hw
    · exact h.all w hw hn
    · exact absurd (by simpa using hw) hn
  · obtain ⟨h1, h2, h3⟩ := o.pick_le s v h.not_nan hv
    refine ⟨?_, ?_, o.trans h.init h2, fun w hw hn => ?_⟩
    · rcases h1 with h1 | h1
      · rw [h1]; exact h.mem.imp_right (by simp +contextual)
      · rw [h1]; simp
    · rcases h1 with h1 | h1
      · rw [h1]; exact h.not_nan
      · rwa [h1]
    · rcases List.mem_append.1 hw with hw | hw
      · exact o.trans (h.all w hw hn) h2
      · rw [List.mem_singleton.1 hw]; exact h3

theorem Extreme.merge (o : Order le pick) {vs vs' : List Flt} {s s' : Flt} (h : Extreme le i vs s) (h' : Extreme le i vs' s') :
    Extreme le i (vs ++ vs') (pick s s') := by
  obtain ⟨h1, h2, h3⟩ := o.pick_le s s' h.not_nan h'.not_nan
  refine ⟨?_, ?_, o.trans h.init h2, fun w hw hn => ?_⟩
  · rcases h1 with h1 | h1
    · rw [h1]; exact h.mem.imp_right (by simp +contextual)
    · rw [h1]; exact h'.mem.imp_right (by simp +contextual)
  · rcases h1 with h1 | h1
    · rw [h1]; exact h.not_nan
    · rw [h1]; exact h'.not_nan
  · rcases List.mem_append.1 hw with hw | hw
    · exact o.trans (h.all w hw hn) h2
    · exact o.trans (h'.all w hw hn) h3

/-- There is one. -/
theorem Extreme.unique (o : Order le pick) {vs vs' : List Flt} (hp : ∀ v, v ∈ vs ↔ v ∈ vs') {s s' : Flt} (h : Extreme le i vs s)
    (h' : Extreme le i vs' s') : s = s' := by
  refine o.antisymm ?_ ?_
  · rcases h.mem with rfl | hm
    · exact h'.init
    · exact h'.all _ ((hp _).1 hm) h.not_nan
  · rcases h'.mem with rfl | hm
    · exact h.init
    · exact h.all _ ((hp _).2 hm) h'.not_nan

/-- One of the values, if there is one after the initial value. -/
theorem Extreme.one (o : Order le pick) {vs : List Flt} {s : Flt} (h : Extreme le i vs s) {v : Flt} (hv : v ∈ vs)
    (hn : v ≠ .nan) (hl : le i v) : s ∈ vs := by
  rcases h.mem with rfl | hm
  · rwa [o.antisymm hl (h.all v hv hn)]
  · exact hm

/-- None of the values, if there is none after the initial value. -/
theorem Extreme.none (o : Order le pick) {vs : List Flt} {s : Flt} (h : Extreme le i vs s)
    (hl : ∀ v ∈ vs, v ≠ .nan → le v i) : s = i := by
  rcases h.mem with rfl | hm
  · rfl
  · exact o.antisymm (hl s hm h.not_nan) h.init

theorem Extreme.foldl (o : Order le pick) (vs : List Flt) {ws : List Flt} {s : Flt} (h : Extreme le i ws s) :
    Extreme le i (ws ++ vs) (vs.foldl pick s) := by
  induction vs generalizing ws s with
  | nil => simpa using h
  | cons v vs ih => simpa using ih (h.add o v)

theorem accumulated_extreme (o : Order le pick) (hi : i ≠ .nan) {A : Accumulator Flt Flt Flt} (h0 : A.init = i)
    (ha : ∀ s v, A.add s v = some (pick s v, true)) (hm : ∀ s s', A.merge s s' = some (pick s s', true)) {vs : List Flt} {s : Flt}
    (h : Accumulated A vs s) : Extreme le i vs s := by
  induction h with
  | init => rw [h0]; exact .start o hi
  | add vs s s' v ok _ h ih =>
    rw [ha] at h
    obtain ⟨rfl, -⟩ : pick s v = s' ∧ true = ok := by simpa using h
    exact ih.add o v
  | merge vs vs' s s' s'' ok _ _ h ih ih' =>
    rw [hm] at h
    obtain ⟨rfl, -⟩ : pick s s' = s'' ∧ true = ok := by simpa using h
    exact ih.merge o ih'

theorem pure_extreme (o : Order le pick) (hi : i ≠ .nan) {A : Accumulator Flt Flt Flt} (h0 : A.init = i)
    (ha : ∀ s v, A.add s v = some (pick s v, true)) (hm : ∀ s s', A.merge s s' = some (pick s s', true)) :
    PureAccumulator A (fun s => s ≠ .nan ∧ le i s) (fun _ => True) pick pick where
  init := by rw [h0]; exact ⟨hi, o.refl i hi⟩
  step s v hs _ := by
    have h := Extreme.add o (⟨.inr (List.mem_singleton.2 rfl), hs.1, hs.2, fun v hv _ => by
      rw [List.mem_singleton.1 hv]; exact o.refl s hs.1⟩ : Extreme le i [s] s) v
    exact ⟨h.not_nan, h.init⟩
  add s v _ _ := ha s v
  merge s s' _ _ := hm s s'
  hom s vs hs _ := by
    rw [h0]
    have hs' : Extreme le i [s] s := ⟨.inr (List.mem_singleton.2 rfl), hs.1, hs.2, fun v hv _ => by
      rw [List.mem_singleton.1 hv]; exact o.refl s hs.1⟩
    have h1 := hs'.foldl o vs
    have h2 := hs'.merge o (Extreme.foldl o vs (Extreme.start o hi))
    exact Extreme.unique o (by simp) h2 h1

theorem maxAcc_extreme {t : FltTy} {vs : List Flt} {s : Flt} (h : Accumulated (maxAcc t) vs s) :
    Extreme (fun a b => Flt.le a b = true) (.fin (-largest t)) vs s :=
  accumulated_extreme max_order (by simp [maxAcc]) rfl (fun _ _ => rfl) (fun _ _ => rfl) h

theorem minAcc_extreme {t : FltTy} {vs : List Flt} {s : Flt} (h : Accumulated (minAcc t) vs s) :
    Extreme (fun a b => Flt.le b a = true) (.fin (largest t)) vs s :=
  accumulated_extreme min_order (by simp [minAcc]) rfl (fun _ _ => rfl) (fun _ _ => rfl) h

theorem maxAcc_pure (t : FltTy) : PureAccumulator (maxAcc t) (fun s => s ≠ .nan ∧ Flt.le (.fin (-largest t)) s = true)
    (fun _ => True) stdMax stdMax :=
  pure_extreme (le := fun a b => Flt.le a b = true) max_order (by simp) rfl (fun _ _ => rfl) (fun _ _ => rfl)

theorem minAcc_pure (t : FltTy) : PureAccumulator (minAcc t) (fun s => s ≠ .nan ∧ Flt.le s (.fin (largest t)) = true)
    (fun _ => True) stdMin stdMin :=
  pure_extreme (le := fun a b => Flt.le b a = true) min_order (by simp) rfl (fun _ _ => rfl) (fun _ _ => rfl)

theorem lowest_le {t : FltTy} {v : Flt} (h : IsValue t v) (h1 : v ≠ .nan) (h2 : v ≠ .negInf) :
    Flt.le (.fin (-largest t)) v = true := by
  cases v with
  | fin q => simpa [Flt.le] using (abs_le.1 (abs_le_largest (h q rfl))).1
  | inf => rfl
  | negInf => exact absurd rfl h2
  | nan => exact absurd rfl h1

theorem le_highest {t : FltTy} {v : Flt} (h : IsValue t v) (h1 : v ≠ .nan) (h2 : v ≠ .inf) :
    Flt.le v (.fin (largest t)) = true := by
  cases v with
  | fin q => simpa [Flt.le] using (abs_le.1 (abs_le_largest (h q rfl))).2
  | inf => exact absurd rfl h2
  | negInf => rfl
  | nan => exact absurd rfl h1

/-- Adding values one by one. -/
theorem Accumulated.addAllTo {S V R : Type} {A : Accumulator S V R} {vs : List V} {s : S} (h : Spec.addAllTo A vs = some s) :
    Accumulated A vs s := by
  have aux : ∀ (vs ws : List V) (s s' : S), Accumulated A ws s → Spec.addFrom A s vs = some s' → Accumulated A (ws ++ vs) s' := by
    intro vs
    induction vs with
    | nil => intro ws s s' h h'; obtain rfl : s = s' := by simpa [Spec.addFrom] using h'
             simpa using h
    | cons v vs ih =>
      intro ws s s' h h'
      simp only [Spec.addFrom, Option.bind_eq_some_iff] at h'
      obtain ⟨⟨s1, ok⟩, h1, h2⟩ := h'
      simpa using ih (ws ++ [v]) s1 s' (.add _ _ _ _ _ h h1) h2
  simpa using aux vs [] A.init s .init h

/-! ### Ranges -/

theorem rangeAcc_parts {t : FltTy} {vs : List Flt} {s : Flt × Flt} (h : Accumulated (rangeAcc t) vs s) :
    Accumulated (minAcc t) vs s.1 ∧ Accumulated (maxAcc t) vs s.2 := by
  induction h with
  | init => exact ⟨.init, .init⟩
  | add vs s s' v ok _ h ih =>
    simp only [rangeAcc, minAcc, maxAcc, Option.bind_eq_bind, Option.bind_some, Option.some.injEq, Prod.mk.injEq] at h
    obtain ⟨rfl, -⟩ := h
    exact ⟨.add _ _ _ _ true ih.1 rfl, .add _ _ _ _ true ih.2 rfl⟩
  | merge vs vs' s s' s'' ok _ _ h ih ih' =>
    simp only [rangeAcc, minAcc, maxAcc, Option.bind_eq_bind, Option.bind_some, Option.some.injEq, Prod.mk.injEq] at h
    obtain ⟨rfl, -⟩ := h
    exact ⟨.merge _ _ _ _ _ true ih.1 ih'.1 rfl, .merge _ _ _ _ _ true ih.2 ih'.2 rfl⟩

theorem rangeAcc_result (t : FltTy) (s : Flt × Flt) : (rangeAcc t).result s = some (minus t s.2 s.1) := rfl

theorem minus_fin (t : FltTy) (x y : Rat) : minus t (.fin x) (.fin y) = t.round (x - y) := by
  rw [sub_eq_add_neg]; rfl

/-! ### Medians -/

theorem medianAcc_state {t : FltTy} {vs s : List Flt} (h : Accumulated (medianAcc t) vs s) : s = vs := by
  induction h with
  | init => rfl
  | add vs s s' v ok _ h ih =>
    obtain ⟨rfl, -⟩ : s ++ [v] = s' ∧ true = ok := by simpa [medianAcc] using h
    rw [ih]
  | merge vs vs' s s' s'' ok _ _ h ih ih' =>
    obtain ⟨rfl, -⟩ : s ++ s' = s'' ∧ true = ok := by simpa [medianAcc] using h
    rw [ih, ih']

theorem mergeSort_sorted {vs : List Flt} (h : .nan ∉ vs) : SortedValues vs (vs.mergeSort Flt.le) := by
  refine ⟨List.mergeSort_perm _ _, ?_⟩
  -- NaN first: a total order, the same one for the other values.
  let le' : Flt → Flt → Bool := fun a b => a = .nan || (b ≠ .nan && Flt.le a b)
  have he : vs.mergeSort Flt.le = vs.mergeSort le' := by
    have := List.map_mergeSort (r := Flt.le) (s := le') (f := id) (l := vs) (fun a ha b hb => by
      have h1 : a ≠ .nan := fun e => h (e ▸ ha)
      have h2 : b ≠ .nan := fun e => h (e ▸ hb)
      simp [le', h1, h2])
    simpa using this
  have hp := List.pairwise_mergeSort (le := le')
    (by intro a b c; cases a <;> cases b <;> cases c <;> simp [le', Flt.le]; exact le_trans)
    (by intro a b; cases a <;> cases b <;> simp [le', Flt.le]; exact le_total _ _) vs
  rw [he]
  refine hp.imp_of_mem fun {a b} ha _ hab => ?_
  have h1 : a ≠ .nan := fun e => h (e ▸ (List.mergeSort_perm _ _).mem_iff.1 ha)
  simp only [le', h1, decide_false, Bool.false_or, Bool.and_eq_true] at hab
  exact hab.2

theorem sorted_unique {vs l l' : List Flt} (h : SortedValues vs l) (h' : SortedValues vs l') : l = l' :=
  List.Perm.eq_of_pairwise (fun _ _ _ _ h1 h2 => le_antisymm' h1 h2) h.2 h'.2 (h.1.trans h'.1.symm)

theorem sorted_perm {vs vs' l : List Flt} (hp : List.Perm vs vs') (h : SortedValues vs l) : SortedValues vs' l :=
  ⟨h.1.trans hp, h.2⟩

theorem sortValues_eq {vs l : List Flt} (hn : .nan ∉ vs) (h : SortedValues vs l) : sortValues vs = some l := by
  rw [sortValues, if_neg hn, sorted_unique (mergeSort_sorted hn) h]

/-- Twice a number, if it isn't too large. -/
theorem represents_twice {t : FltTy} {q : Rat} (h : Represents t.num q) (hl : ¬ TooLarge t (2 * q)) : Represents t.num (2 * q) := by
  rw [represents_num, floatValue_iff] at *
  obtain ⟨m, e, hm, he, he', rfl⟩ := h
  by_cases hh : e < t.hi
  · exact ⟨m, e + 1, hm, by omega, by omega, by rw [zpow_add_one₀ (by norm_num)]; ring⟩
  · obtain rfl : e = t.hi := by omega
    refine ⟨2 * m, t.hi, ?_, he, he', by push_cast; ring⟩
    rw [TooLarge, not_le, limit_eq, ← mul_assoc, abs_mul, abs_of_pos (two_zpow_pos _)] at hl
    have h1 := lt_of_mul_lt_mul_right hl (two_zpow_pos _).le
    have h2 : ((|2 * m| : Int) : Rat) < (2 ^ t.bits : Int) := by
      push_cast
      linarith
    exact_mod_cast h2

/-- Half a number is rounded by at most half of the smallest number. -/
theorem half_near {t : FltTy} {s r : Rat} (h : Represents t.num s) (hr : t.round (s / 2) = .fin r) : |s / 2 - r| ≤ tiny t := by
  rw [represents_num, floatValue_iff] at h
  obtain ⟨m, e, hm, he, he', rfl⟩ := h
  by_cases hl : t.lo < e
  · have hrep : Represents t.num ((m : Rat) * 2 ^ e / 2) := by
      rw [represents_num, floatValue_iff]
      refine ⟨m, e - 1, hm, by omega, by omega, ?_⟩
      rw [zpow_sub_one₀ (by norm_num)]; ring
    rw [round_exact t hrep] at hr
    rw [← Flt.fin.inj hr, sub_self, abs_zero]
    exact (tiny_pos t).le
  · obtain rfl : e = t.lo := by omega
    have hq : ¬ TooLarge t ((m : Rat) * 2 ^ t.lo / 2) := by
      rw [← round_finite, hr]; rfl
    obtain ⟨r', hr', hn, -⟩ := (round_rounded t _).2 hq
    obtain rfl : r = r' := Flt.fin.inj (hr.symm.trans hr')
    have hrep : Represents t.num (((m / 2 : Int) : Rat) * 2 ^ t.lo) := by
      rw [represents_num, floatValue_iff]
      exact ⟨m / 2, t.lo, by rw [abs_lt] at *; omega, he, he', rfl⟩
    refine (hn.2 _ hrep).trans ?_
    rw [tiny_eq]
    have h0 := two_zpow_pos t.lo
    have h1 : (m : Rat) = 2 * ((m / 2 : Int) : Rat) + ((m % 2 : Int) : Rat) := by
      exact_mod_cast (Int.mul_ediv_add_emod m 2).symm
    have h2 : (0 : Rat) ≤ ((m % 2 : Int) : Rat) := by exact_mod_cast Int.emod_nonneg m (by norm_num)
    have h3 : ((m % 2 : Int) : Rat) ≤ 1 := by
      have : m % 2 ≤ 1 := by omega
      exact_mod_cast this
    rw [show (m : Rat) * 2 ^ t.lo / 2 - ((m / 2 : Int) : Rat) * 2 ^ t.lo = ((m % 2 : Int) : Rat) / 2 * 2 ^ t.lo by
      rw [h1]; ring]
    rw [abs_of_nonneg (by positivity)]
    nlinarith

end Fern.FloatOrder
