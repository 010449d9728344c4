import Verif.Lemmas.Accumulators
/-
The sum, count and mean accumulators.
-/
namespace Fern

open Spec IntTy

/-- Adding to the sum: the new sum. -/
theorem sumAdd_state (q : SumPolicy) {t : IntTy} (ht : Wraps t) {s v : Int} (hs : Fits t s)
    (hv : Fits t v) : ∃ ok, (sumAcc q t).add s v = some (t.wrap (s + v), ok) := by
  cases q
  · exact ⟨_, sumAdd_discard ht hs hv⟩
  · exact ⟨_, sumAdd_detect ht hs hv⟩

theorem wrap_add_wrap (t : IntTy) (x y : Int) : t.wrap (t.wrap x + y) = t.wrap (x + y) := by
  cases t <;>
    simp only [wrap_u8, wrap_u16, wrap_u32, wrap_u64, wrap_i8, wrap_i16, wrap_i32, wrap_i64] <;> omega

theorem wrap_add_wrap_right (t : IntTy) (x y : Int) : t.wrap (x + t.wrap y) = t.wrap (x + y) := by
  rw [Int.add_comm, wrap_add_wrap, Int.add_comm]

theorem sum_addFrom (q : SumPolicy) {t : IntTy} (ht : Wraps t) (vs : List Int)
    (hv : ∀ v ∈ vs, Fits t v) {s : Int} (hs : Fits t s) :
    addFrom (sumAcc q t) s vs = some (t.wrap (s + vs.sum)) := by
  induction vs generalizing s with
  | nil => simp [addFrom, wrap_fits hs]
  | cons v vs ih =>
    obtain ⟨ok, h⟩ := sumAdd_state q ht hs (hv v (by simp))
    simp only [addFrom, h, Option.bind_some, ih (fun w hw => hv w (by simp [hw])) (fits_wrap _ _),
      wrap_add_wrap, List.sum_cons, Int.add_assoc]

theorem sum_addFrom_wide (q : SumPolicy) {t : IntTy} (ht : ¬ Wraps t) (vs : List Int)
    (hv : ∀ v ∈ vs, Fits t v) {s : Int} (hs : Fits t s) (hf : ∀ k, Fits t (s + (vs.take k).sum)) :
    addFrom (sumAcc q t) s vs = some (s + vs.sum) := by
  induction vs generalizing s with
  | nil => simp [addFrom]
  | cons v vs ih =>
    have h1 : Fits t (s + v) := by simpa using hf 1
    simp only [addFrom, sumAdd_wide q ht hs (hv v (by simp)), h1, if_true, Option.bind_some]
    rw [ih (fun w hw => hv w (by simp [hw])) h1
      (fun k => by simpa [Int.add_assoc] using hf (k + 1))]
    simp [Int.add_assoc]

/-- Incrementing a counter. -/
theorem count_inc {r : IntTy} (hr : Wraps r) {n : Int} (hn : Fits r n) :
    (cAdd r .i32 n 1).map r.wrap = some (r.wrap (n + 1)) := by
  rcases hr with (rfl | rfl | rfl | rfl) | (rfl | rfl | rfl | rfl) <;>
    simp only [Fits] at hn <;>
    simp [cAdd, common, promote, bits, convert, signed, arith, wrap, IntTy.min, IntTy.max] <;> omega

theorem u64_wraps : Wraps .u64 := .inl (by simp [Unsigned])

theorem count_addFrom {V : Type} {r : IntTy} (hr : Wraps r) (vs : List V) {s : Int} (hs : Fits r s) :
    addFrom (countAccPlain r) s vs = some (r.wrap (s + vs.length)) := by
  induction vs generalizing s with
  | nil => simp [addFrom, wrap_fits hs]
  | cons v vs ih =>
    simp only [addFrom, countAccPlain, count_inc hr hs, Option.map_some, Option.bind_some]
    rw [show (⟨0, fun s x => Option.map (fun x => (x, true)) (Option.map r.wrap (cAdd r i32 s 1)),
      fun s s' => Option.map (fun x => (x, true)) (Option.map r.wrap (cAdd r r s s')),
      fun s => some s⟩ : Accumulator Int V Int) = countAccPlain r from rfl, ih (fits_wrap _ _),
      wrap_add_wrap]
    congr 2
    simp; omega

theorem countPlain_add {V : Type} {r : IntTy} (hr : Wraps r) {s : Int} (hs : Fits r s) (v : V) :
    (countAccPlain r).add s v = some (r.wrap (s + 1), true) := by
  simp only [countAccPlain, count_inc hr hs, Option.map_some]

theorem countPlain_merge {V : Type} {r : IntTy} (hr : Wraps r) {s s' : Int} (hs : Fits r s)
    (hs' : Fits r s') : (countAccPlain (V := V) r).merge s s' = some (r.wrap (s + s'), true) := by
  simp only [countAccPlain, cAdd_map hs hs', addCompute_wraps hr hs hs', Option.map_some]

/-- Adding to the mean is adding to the sum and counting. -/
theorem mean_addFrom (q : SumPolicy) (t : IntTy) (vs : List Int) (s n : Int) (hn : Fits .u64 n) :
    addFrom (meanAcc q t) (s, n) vs =
      (addFrom (sumAcc q t) s vs).map (fun x => (x, wrap .u64 (n + vs.length))) := by
  induction vs generalizing s n with
  | nil => simp [addFrom, wrap_fits hn]
  | cons v vs ih =>
    simp only [addFrom]
    cases h : (sumAcc q t).add s v with
    | none =>
      simp [meanAcc, h, countPlain_add u64_wraps hn]
    | some x =>
      have : (meanAcc q t).add (s, n) v = some ((x.1, wrap .u64 (n + 1)), x.2) := by
        simp [meanAcc, h, countPlain_add u64_wraps hn]
      simp only [this, Option.bind_some, ih _ _ (fits_wrap .u64 _), wrap_add_wrap]
      congr 2; funext y
      rw [List.length_cons]; congr 2; omega

theorem mean_addAllTo (q : SumPolicy) (t : IntTy) (vs : List Int) :
    addAllTo (meanAcc q t) vs =
      (addAllTo (sumAcc q t) vs).map (fun x => (x, wrap .u64 vs.length)) := by
  have := mean_addFrom q t vs 0 0 (by decide)
  rw [Int.zero_add] at this
  exact this

theorem mean_merge (q : SumPolicy) (t : IntTy) {s n s' n' : Int} (hn : Fits .u64 n)
    (hn' : Fits .u64 n') :
    (meanAcc q t).merge (s, n) (s', n') =
      ((sumAcc q t).merge s s').map (fun x => ((x.1, wrap .u64 (n + n')), x.2)) := by
  simp only [meanAcc, countPlain_merge u64_wraps hn hn', Option.bind_eq_bind, Option.bind_some]
  cases (sumAcc q t).merge s s' <;> rfl

/-- As in the aggregates: stop when the sum is out of range. -/
theorem mean_addAll (q : SumPolicy) (t : IntTy) (vs : List Int) (s n : Int) (hn : Fits .u64 n) :
    (addAll (sumAcc q t) vs s = none → addAll (meanAcc q t) vs (s, n) = none) ∧
    ∀ ok x, addAll (sumAcc q t) vs s = some (ok, x) →
      ∃ n', addAll (meanAcc q t) vs (s, n) = some (ok, (x, n')) ∧
        (ok = true → n' = wrap .u64 (n + vs.length)) := by
  induction vs generalizing s n with
  | nil =>
    refine ⟨by simp [addAll], fun ok x h => ?_⟩
    simp only [addAll, Option.some.injEq, Prod.mk.injEq] at h
    exact ⟨n, by simp [addAll, h], fun _ => by simp [wrap_fits hn]⟩
  | cons v vs ih =>
    simp only [addAll]
    cases h : (sumAcc q t).add s v with
    | none => exact ⟨fun _ => by simp [meanAcc, h, countPlain_add u64_wraps hn], by simp⟩
    | some x =>
      have hm : (meanAcc q t).add (s, n) v = some ((x.1, wrap .u64 (n + 1)), x.2) := by
        simp [meanAcc, h, countPlain_add u64_wraps hn]
      simp only [hm, Option.bind_some]
      obtain ⟨x, ok⟩ := x
      cases ok with
      | false =>
        refine ⟨by simp, fun ok y hy => ?_⟩
        simp only [Bool.false_eq_true, if_false, Option.some.injEq, Prod.mk.injEq] at hy
        exact ⟨_, by simp only [Bool.false_eq_true, if_false]; rw [← hy.1, ← hy.2],
          by simp [← hy.1]⟩
      | true =>
        simp only [if_true]
        obtain ⟨g1, g2⟩ := ih x (wrap .u64 (n + 1)) (fits_wrap _ _)
        refine ⟨g1, fun ok y hy => ?_⟩
        obtain ⟨n', e1, e2⟩ := g2 ok y hy
        refine ⟨n', e1, fun hok => ?_⟩
        rw [e2 hok, wrap_add_wrap, List.length_cons]
        congr 1; push_cast; omega

/-- Dividing by a positive number in a type that has this number. -/
theorem mean_div {t : IntTy} {s n : Int} (hs : Fits t s) (hn : Fits t n) (h0 : 0 < n) :
    (cDiv t t s n).map t.wrap = some (s.tdiv n) := by
  have hq : Fits t (s.tdiv n) := by
    have h1 : |s.tdiv n| ≤ |s| := by
      rw [Int.abs_eq_natAbs, Int.abs_eq_natAbs, Int.natAbs_tdiv]
      exact_mod_cast Nat.div_le_self _ _
    rcases le_or_gt 0 s with h | h
    · have h2 := Int.tdiv_nonneg h h0.le
      rw [abs_of_nonneg h, abs_of_nonneg h2] at h1
      exact fits_mono (fits_zero t) hs h2 h1
    · have h2 : s.tdiv n ≤ 0 := by
        have := Int.tdiv_nonneg (show 0 ≤ -s by omega) h0.le
        rw [Int.neg_tdiv] at this
        omega
      rw [abs_of_neg h, abs_of_nonpos h2] at h1
      exact fits_mono hs (fits_zero t) (by omega) h2
  rw [cDiv_safe hs hn (safe_same hs hn rfl) (by omega)
    (by rw [common_self]; exact fits_promote hq), Option.map_some, wrap_fits hq]

end Fern
