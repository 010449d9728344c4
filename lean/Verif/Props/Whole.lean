import Verif.Spec.Whole
import Verif.Props.FloatArith
import Mathlib.Algebra.Order.Round

/-!
# C97: rounding to whole numbers
-/

namespace Fern.FloatArith

open Fern Fern.Domains Fern.Spec Fern.Casts Fern.Casts.Spec Fern.FloatArith.Spec

theorem rat_floor (x : Rat) : x.floor = ⌊x⌋ := rfl

theorem rat_ceil (x : Rat) : x.ceil = ⌈x⌉ := by
  rw [Rat.ceil_eq_neg_floor_neg]
  rfl

/-- The functions on finite numbers. -/
def wholeRat : Whole → Rat → Int
  | .floor, x => ⌊x⌋
  | .ceil, x => ⌈x⌉
  | .trunc, x => if 0 ≤ x then ⌊x⌋ else ⌈x⌉
  | .round, x => if 0 ≤ x then ⌊x + 1 / 2⌋ else ⌈x - 1 / 2⌉

theorem compute_fin (w : Whole) (x : Rat) : (wholeOp w).compute (.fin x) = .fin (wholeRat w x) := by
  cases w <;> simp [wholeOp, wholeRat, floorFlt, ceilFlt, truncFlt, roundFlt, truncRat, roundRat, wholeOf, rat_floor, rat_ceil]

theorem compute_other (w : Whole) (x : Flt) (h : x.isFinite = false) : (wholeOp w).compute x = x := by
  cases w <;> cases x <;> first | rfl | cases h

theorem wholeRat_int (w : Whole) (k : Int) : wholeRat w k = k := by
  have h1 : ⌊(k : Rat) + 1 / 2⌋ = k := by
    rw [Int.floor_eq_iff]; constructor <;> linarith
  have h2 : ⌈(k : Rat) - 1 / 2⌉ = k := by
    rw [Int.ceil_eq_iff]; constructor <;> linarith
  cases w <;> simp only [wholeRat, Int.floor_intCast, Int.ceil_intCast, h1, h2, ite_self]

theorem wholeRat_near (w : Whole) (x : Rat) : |(wholeRat w x : Rat) - x| < 1 := by
  have f1 := Int.floor_le x
  have f2 := Int.lt_floor_add_one x
  have c1 := Int.le_ceil x
  have c2 := Int.ceil_lt_add_one x
  rw [abs_lt]
  cases w with
  | floor => simp only [wholeRat]; constructor <;> linarith
  | ceil => simp only [wholeRat]; constructor <;> linarith
  | trunc => simp only [wholeRat]; split <;> constructor <;> linarith
  | round =>
    have g1 := Int.floor_le (x + 1 / 2)
    have g2 := Int.lt_floor_add_one (x + 1 / 2)
    have d1 := Int.le_ceil (x - 1 / 2)
    have d2 := Int.ceil_lt_add_one (x - 1 / 2)
    simp only [wholeRat]; split <;> constructor <;> linarith

/-- Large values are whole numbers already. -/
theorem whole_or_small {t : FltTy} {x : Rat} (h : Represents t.num x) : (∃ k : Int, x = k) ∨ |x| < small t / 2 := by
  obtain ⟨m, e, hm, h1, h2, rfl⟩ := (floatValue_iff _ _ _ _).1 ((represents_num t x).1 h)
  by_cases he : 0 ≤ e
  · left
    obtain ⟨n, rfl⟩ := Int.eq_ofNat_of_zero_le he
    exact ⟨m * 2 ^ n, by simp⟩
  · right
    rw [abs_mul, abs_of_pos (two_zpow_pos e)]
    have hm' : |(m : Rat)| < small t := by
      have : |(m : Rat)| < 2 ^ t.bits := by exact_mod_cast hm
      cases t <;> norm_num [small, FltTy.bits] at this ⊢ <;> exact this
    have he2 : (2 : Rat) ^ e ≤ 1 / 2 := by
      have := zpow_le_zpow_right₀ (a := (2 : Rat)) (by norm_num) (show e ≤ -1 by omega)
      simpa using this
    have hp := two_zpow_pos e
    have h0 := abs_nonneg (m : Rat)
    have hs : (0 : Rat) < small t := by cases t <;> norm_num [small]
    calc |(m : Rat)| * 2 ^ e < small t * 2 ^ e := mul_lt_mul_of_pos_right hm' hp
      _ ≤ small t * (1 / 2) := mul_le_mul_of_nonneg_left he2 hs.le
      _ = small t / 2 := by ring

theorem wholeRat_represents (w : Whole) {t : FltTy} {x : Rat} (h : Represents t.num x) : Represents t.num (wholeRat w x) := by
  rcases whole_or_small h with ⟨k, rfl⟩ | hx
  · rw [wholeRat_int]; exact h
  · refine represents_small t ?_
    have h1 := wholeRat_near w x
    have h2 : |(wholeRat w x : Rat)| < small t / 2 + 1 := by
      have : |(wholeRat w x : Rat)| ≤ |(wholeRat w x : Rat) - x| + |x| := by
        calc |(wholeRat w x : Rat)| = |((wholeRat w x : Rat) - x) + x| := by ring_nf
          _ ≤ _ := abs_add_le _ _
      linarith
    have h3 : |(wholeRat w x : Rat)| ≤ small t := by
      have : (2 : Rat) ≤ small t := by cases t <;> norm_num [small]
      linarith
    exact_mod_cast h3

theorem isWhole_floor (x : Rat) : IsWhole .floor x ⌊x⌋ := ⟨Int.floor_le x, fun _ h => Int.le_floor.2 h⟩

theorem isWhole_ceil (x : Rat) : IsWhole .ceil x ⌈x⌉ := ⟨Int.le_ceil x, fun _ h => Int.ceil_le.2 h⟩

theorem wholeRat_isWhole (w : Whole) (x : Rat) : IsWhole w x (wholeRat w x) := by
  cases w with
  | floor => exact isWhole_floor x
  | ceil => exact isWhole_ceil x
  | trunc =>
    simp only [wholeRat]
    split
    · rename_i hx
      have h0 : 0 ≤ ⌊x⌋ := Int.floor_nonneg.2 hx
      have h0' : (0 : Rat) ≤ ⌊x⌋ := by exact_mod_cast h0
      refine ⟨mul_nonneg hx h0', ?_, fun j hj => ?_⟩
      · rw [abs_of_nonneg h0', abs_of_nonneg hx]; exact Int.floor_le x
      · rw [abs_of_nonneg h0]
        rw [abs_of_nonneg hx] at hj
        exact Int.le_floor.2 (by push_cast; exact hj)
    · rename_i hx
      have hx : x < 0 := not_le.1 hx
      have h0 : ⌈x⌉ ≤ 0 := Int.ceil_le.2 (by simpa using hx.le)
      have h0' : (⌈x⌉ : Rat) ≤ 0 := by exact_mod_cast h0
      refine ⟨mul_nonneg_of_nonpos_of_nonpos hx.le h0', ?_, fun j hj => ?_⟩
      · rw [abs_of_nonpos h0', abs_of_neg hx]
        have := Int.le_ceil x
        linarith
      · rw [abs_of_nonpos h0]
        rw [abs_of_neg hx] at hj
        have : x ≤ ((-|j| : Int) : Rat) := by push_cast; linarith
        have := Int.ceil_le.2 this
        omega
  | round =>
    intro j hj
    have key : ∀ k : Int, |x - k| ≤ 1 / 2 → (|x - k| = 1 / 2 → |x| < |(k : Rat)|) → j ≠ k →
        |x - k| < |x - j| ∨ (|x - k| = |x - j| ∧ |j| < |k|) := by
      intro k h1 h2 hne
      have hd : (1 : Rat) ≤ |(j : Rat) - k| := by
        have : 1 ≤ |j - k| := Int.one_le_abs (sub_ne_zero.2 hne)
        exact_mod_cast this
      have ht : |(j : Rat) - k| ≤ |x - k| + |x - j| := by
        have : (j : Rat) - k = (x - k) - (x - j) := by ring
        rw [this]; exact abs_sub _ _
      rcases h1.lt_or_eq with h | h
      · left; linarith
      · have hx := h2 h
        by_cases hlt : |x - k| < |x - j|
        · exact Or.inl hlt
        · right
          have he : |x - j| = 1 / 2 := by linarith
          refine ⟨by rw [h, he], ?_⟩
          -- j and k are on both sides of x
          have hjk : (j : Rat) - k = 1 ∨ (j : Rat) - k = -1 := by
            have : |(j : Rat) - k| = 1 := by linarith
            exact (abs_eq (by norm_num)).1 this
          have : |(j : Rat)| < |(k : Rat)| := by
            rcases hjk with hjk | hjk
            · -- k = j - 1 < x
              have hx1 : x = k + 1 / 2 := by
                rcases (abs_eq (by norm_num : (0 : Rat) ≤ 1 / 2)).1 h with h' | h'
                · linarith
                · rcases (abs_eq (by norm_num : (0 : Rat) ≤ 1 / 2)).1 he with h'' | h'' <;> linarith
              have hneg : k < 0 := by
                by_contra hc
                have hc : (0 : Rat) ≤ k := by exact_mod_cast not_lt.1 hc
                rw [abs_of_nonneg hc, abs_of_nonneg (by linarith)] at hx
                linarith
              have hj0 : (j : Rat) ≤ 0 := by
                have : j = k + 1 := by
                  have : (j : Rat) = ((k + 1 : Int) : Rat) := by push_cast; linarith
                  exact_mod_cast this
                have : j ≤ 0 := by omega
                exact_mod_cast this
              have hk0 : (k : Rat) < 0 := by exact_mod_cast hneg
              rw [abs_of_nonpos hj0, abs_of_neg hk0]
              linarith
            · have hx1 : x = k - 1 / 2 := by
                rcases (abs_eq (by norm_num : (0 : Rat) ≤ 1 / 2)).1 h with h' | h'
                · rcases (abs_eq (by norm_num : (0 : Rat) ≤ 1 / 2)).1 he with h'' | h'' <;> linarith
                · linarith
              have hpos : 0 < k := by
                by_contra hc
                have hc : (k : Rat) ≤ 0 := by exact_mod_cast not_lt.1 hc
                rw [abs_of_nonpos hc, abs_of_nonpos (by linarith)] at hx
                linarith
              have hj0 : (0 : Rat) ≤ j := by
                have : j = k - 1 := by
                  have : (j : Rat) = ((k - 1 : Int) : Rat) := by push_cast; linarith
                  exact_mod_cast this
                have : 0 ≤ j := by omega
                exact_mod_cast this
              have hk0 : (0 : Rat) < k := by exact_mod_cast hpos
              rw [abs_of_nonneg hj0, abs_of_pos hk0]
              linarith
          exact_mod_cast this
    refine key _ ?_ ?_ hj
    · simp only [wholeRat]
      split
      · have g1 := Int.floor_le (x + 1 / 2)
        have g2 := Int.lt_floor_add_one (x + 1 / 2)
        rw [abs_le]; constructor <;> linarith
      · have d1 := Int.le_ceil (x - 1 / 2)
        have d2 := Int.ceil_lt_add_one (x - 1 / 2)
        rw [abs_le]; constructor <;> linarith
    · simp only [wholeRat]
      split
      · rename_i hx
        intro h
        have g1 := Int.floor_le (x + 1 / 2)
        have g2 := Int.lt_floor_add_one (x + 1 / 2)
        have : (⌊x + 1 / 2⌋ : Rat) = x + 1 / 2 := by
          rcases (abs_eq (by norm_num : (0 : Rat) ≤ 1 / 2)).1 h with h' | h' <;> linarith
        rw [this, abs_of_nonneg hx, abs_of_nonneg (by linarith)]
        linarith
      · rename_i hx
        have hx : x < 0 := not_le.1 hx
        intro h
        have d1 := Int.le_ceil (x - 1 / 2)
        have d2 := Int.ceil_lt_add_one (x - 1 / 2)
        have : (⌈x - 1 / 2⌉ : Rat) = x - 1 / 2 := by
          rcases (abs_eq (by norm_num : (0 : Rat) ≤ 1 / 2)).1 h with h' | h' <;> linarith
        rw [this, abs_of_neg hx, abs_of_neg (by linarith)]
        linarith

/-! ### The property -/

/-- There is one such whole number. -/
theorem C97_determined (w : Whole) (x : Rat) (j k : Int) (hj : IsWhole w x j) (hk : IsWhole w x k) : j = k := by
  cases w with
  | floor => exact le_antisymm (hk.2 j hj.1) (hj.2 k hk.1)
  | ceil => exact le_antisymm (hj.2 k hk.1) (hk.2 j hj.1)
  | trunc =>
    have h := le_antisymm (hk.2.2 j hj.2.1) (hj.2.2 k hk.2.1)
    rcases abs_eq_abs.1 h with h | h
    · exact h
    · by_contra hne
      have hk0 : (k : Rat) ≠ 0 := by
        intro h0
        have : k = 0 := by exact_mod_cast h0
        omega
      have h1 := hj.1
      have h2 := hk.1
      rw [h] at h1
      push_cast at h1
      have : x * k = 0 := by linarith
      rcases mul_eq_zero.1 this with h0 | h0
      · have := hk.2.1
        rw [h0, abs_zero] at this
        exact hk0 (abs_eq_zero.1 (le_antisymm this (abs_nonneg _)))
      · exact hk0 h0
  | round =>
    by_contra hne
    have h1 := hj k (Ne.symm hne)
    have h2 := hk j hne
    rcases h1 with h1 | ⟨h1, h3⟩ <;> rcases h2 with h2 | ⟨h2, h4⟩
    · linarith
    · linarith
    · linarith
    · omega

/-- The result is that whole number, also if it is large: it is a value of the type. Infinities and NaN stay. -/
theorem C97_whole (w : Whole) (t : FltTy) (x : Flt) (hx : OfType t.num x) : OfType t.num ((wholeOp w).compute x) ∧
    (∀ q, x = .fin q → ∃ k : Int, (wholeOp w).compute x = .fin k ∧ IsWhole w q k) ∧
    (x.isFinite = false → (wholeOp w).compute x = x) := by
  refine ⟨?_, ?_, compute_other w x⟩
  · cases x with
    | fin q => rw [compute_fin]; exact wholeRat_represents w hx
    | _ => rw [compute_other w _ rfl]; exact hx
  · rintro q rfl
    exact ⟨_, compute_fin w q, wholeRat_isWhole w q⟩

example : (wholeOp .floor).compute (.fin (-5 / 2)) = .fin (-3) ∧ (wholeOp .ceil).compute (.fin (-5 / 2)) = .fin (-2) ∧
    (wholeOp .trunc).compute (.fin (-5 / 2)) = .fin (-2) ∧ (wholeOp .round).compute (.fin (-5 / 2)) = .fin (-3) := by
  decide +kernel

/-- All values from half of `2 ^ 24` (`2 ^ 53`) are whole numbers, and whole numbers stay. -/
theorem C97_fixed (w : Whole) (t : FltTy) (x : Rat) (h : Represents t.num x) :
    (small t / 2 ≤ |x| → ∃ k : Int, x = k) ∧ (∀ k : Int, x = k → (wholeOp w).compute (.fin x) = .fin x) := by
  constructor
  · intro hl
    rcases whole_or_small h with h | h
    · exact h
    · linarith
  · rintro k rfl
    rw [compute_fin, wholeRat_int]

/-- Twice is once, whichever operation is second. -/
theorem C97_idempotent (w w' : Whole) (x : Flt) :
    (wholeOp w').compute ((wholeOp w).compute x) = (wholeOp w).compute x := by
  cases x with
  | fin q => rw [compute_fin, compute_fin, wholeRat_int]
  | _ => rw [compute_other w _ rfl, compute_other w' _ rfl]

/-- Smaller values do not give larger results. -/
theorem C97_monotone (w : Whole) (x y : Rat) (h : x ≤ y) (j k : Int) (hj : (wholeOp w).compute (.fin x) = .fin j)
    (hk : (wholeOp w).compute (.fin y) = .fin k) : j ≤ k := by
  rw [compute_fin] at hj hk
  have hj : wholeRat w x = j := by exact_mod_cast (Flt.fin.inj hj)
  have hk : wholeRat w y = k := by exact_mod_cast (Flt.fin.inj hk)
  subst hj hk
  cases w with
  | floor => exact Int.floor_mono h
  | ceil => exact Int.ceil_mono h
  | trunc =>
    simp only [wholeRat]
    split <;> split
    · exact Int.floor_mono h
    · linarith
    · rename_i h1 h2
      have a : ⌈x⌉ ≤ 0 := Int.ceil_le.2 (by push_cast; linarith)
      have b : 0 ≤ ⌊y⌋ := Int.floor_nonneg.2 h2
      omega
    · exact Int.ceil_mono h
  | round =>
    simp only [wholeRat]
    split <;> split
    · exact Int.floor_mono (by linarith)
    · linarith
    · rename_i h1 h2
      have a : ⌈x - 1 / 2⌉ ≤ 0 := Int.ceil_le.2 (by push_cast; linarith)
      have b : 0 ≤ ⌊y + 1 / 2⌋ := Int.floor_nonneg.2 (by linarith)
      omega
    · exact Int.ceil_mono (by linarith)

/-- Changing the sign swaps floor and ceil, and commutes with the other two. -/
theorem C97_negate (x : Flt) : ceilFlt (negate x) = negate (floorFlt x) ∧ truncFlt (negate x) = negate (truncFlt x) ∧
    roundFlt (negate x) = negate (roundFlt x) := by
  cases x with
  | fin q =>
    refine ⟨?_, ?_, ?_⟩
    · simp [ceilFlt, floorFlt, wholeOf, negate, rat_ceil, rat_floor, Int.ceil_neg]
    · simp only [truncFlt, truncRat, wholeOf, negate, rat_ceil, rat_floor, Int.ceil_neg, Int.floor_neg, Left.nonneg_neg_iff]
      rcases lt_trichotomy q 0 with h | h | h
      · rw [if_pos h.le, if_neg (not_le.2 h)]; push_cast; rfl
      · subst h; simp
      · rw [if_neg (not_le.2 h), if_pos h.le]; push_cast; rfl
    · have e1 : -q + 1 / 2 = -(q - 1 / 2) := by ring
      have e2 : -q - 1 / 2 = -(q + 1 / 2) := by ring
      simp only [roundFlt, roundRat, wholeOf, negate, rat_ceil, rat_floor, e1, e2, Int.ceil_neg, Int.floor_neg,
        Left.nonneg_neg_iff]
      rcases lt_trichotomy q 0 with h | h | h
      · rw [if_pos h.le, if_neg (not_le.2 h)]; push_cast; rfl
      · subst h
        have a : ⌈(0 : Rat) - 1 / 2⌉ = 0 := by rw [Int.ceil_eq_iff]; norm_num
        have b : ⌊(0 : Rat) + 1 / 2⌋ = 0 := by rw [Int.floor_eq_iff]; norm_num
        rw [a, b]; simp
      · rw [if_neg (not_le.2 h), if_pos h.le]; push_cast; rfl
  | _ => exact ⟨rfl, rfl, rfl⟩

/-- A conversion to an integer type gives the result of `trunc`. -/
theorem C97_trunc_cast (s : NumTy) (hs : s = .f32 ∨ s = .f64) (t : IntTy) (x : Flt) :
    castTo s (.int t) (truncFlt x) = castTo s (.int t) x ∧
    ∀ y, castTo s (.int t) x = some y → y = truncFlt x := by
  have key : ∀ q : Rat, truncRat q = wholeRat .trunc q := fun q => by
    simp [truncRat, wholeRat, rat_floor, rat_ceil]
  have h2 : ∀ q : Rat, truncFlt (.fin q) = .fin (wholeRat .trunc q) := compute_fin .trunc
  cases x with
  | fin q =>
    have h3 : truncRat (wholeRat .trunc q : Rat) = truncRat q := by rw [key, key, wholeRat_int]
    rcases hs with rfl | rfl <;> refine ⟨?_, fun y h => ?_⟩
    · simp only [castTo, h2, toInteger, h3]
    · simp only [castTo, toInteger] at h
      split at h
      · rw [h2, ← key]; simpa using h.symm
      · cases h
    · simp only [castTo, h2, toInteger, h3]
    · simp only [castTo, toInteger] at h
      split at h
      · rw [h2, ← key]; simpa using h.symm
      · cases h
  | _ =>
    refine ⟨rfl, fun y h => ?_⟩
    rcases hs with rfl | rfl <;> cases h

/-- Rounding is not the same as adding a half and taking the floor: the sum is rounded too. -/
theorem C97_half_false : let x : Flt := .fin (1 / 2 - 1 / 2 ^ 25)
    roundFlt x = .fin 0 ∧ floorFlt (plus .single x (.fin (1 / 2))) = .fin 1 := by decide +kernel

/-- The four operations on rasters. Nothing is out of domain or range. -/
theorem C97_raster (w : Whole) (t : FltTy) (inp : InPolicy Flt) (outp : OutPolicy Flt) (n1 n2 : Nat) (value : List Flt)
    (result : List (Cell Flt)) (hv : value.length = n1 * n2) (hr : result.length = n1 * n2)
    (hp : PolicyFor inp (n1 * n2)) (ht : ∀ v ∈ value, OfType t.num v) :
    ∃ out, unary2d (wholeOp w) inp outp (n1, n2) value (n1, n2) result = some out ∧
      Elementwise (fun i c c' => ∀ v, value[i]? = some v →
        (NoDataAt inp value i → Marked outp c c') ∧
        (¬ NoDataAt inp value i → c'.masked = c.masked ∧ OfType t.num c'.val ∧
          (∀ q, v = .fin q → ∃ k : Int, c'.val = .fin k ∧ IsWhole w q k) ∧ (v.isFinite = false → c'.val = v)))
        result out := by
  obtain ⟨out, e1, e2, e3⟩ := C09_unary_2d (wholeOp w) inp outp n1 n2 value result hv hr hp
  refine ⟨out, e1, e2, fun i c hc => ?_⟩
  obtain ⟨c', f1, f2⟩ := e3 i c hc
  refine ⟨c', f1, fun v hvi => ⟨(f2 v hvi).noData, fun hn => ?_⟩⟩
  have := (f2 v hvi).ok hn (by cases w <;> rfl) (by cases w <;> rfl)
  rw [this]
  exact ⟨rfl, C97_whole w t v (ht v (List.mem_of_getElem? hvi))⟩

example : unary2d (wholeOp .round) (.detect (· == .fin (-9999))) (.markValue (.fin (-9999))) (1, 3)
    [.fin (1 / 2), .fin (-9999), .fin (-7 / 3)] (1, 3) [⟨.fin 0, false⟩, ⟨.fin 0, false⟩, ⟨.fin 0, false⟩] =
      some [⟨.fin 1, false⟩, ⟨.fin (-9999), false⟩, ⟨.fin (-2), false⟩] := by decide +kernel

end Fern.FloatArith
