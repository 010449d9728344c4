import Verif.Lemmas.FreqTable
import Verif.Lemmas.Mean
import Verif.Props.Aggregate
/-
C38: merging accumulators is a homomorphism. C39: order statistics. C66: the minimum and maximum
aggregates. C67: the mean aggregate.
-/
namespace Fern

open Spec IntTy

/-! ### C38 -/

/-- C38, sum of unsigned integers or integers smaller than `int`, whatever the range policy. -/
theorem C38_sum (q : SumPolicy) (t : IntTy) (ht : Unsigned t ∨ Narrow t) (xs ys : List Int)
    (hx : ∀ v ∈ xs, Fits t v) (hy : ∀ v ∈ ys, Fits t v) :
    ∃ s, merged (sumAcc q t) xs ys = some s ∧ addAllTo (sumAcc q t) (xs ++ ys) = some s := by
  have hxy : ∀ v ∈ xs ++ ys, Fits t v := fun v hv => (List.mem_append.1 hv).elim (hx v) (hy v)
  have e : (sumAcc q t).init = 0 := rfl
  refine ⟨t.wrap (xs.sum + ys.sum), ?_, ?_⟩
  · simp only [merged, addAllTo, e, sum_addFrom q ht xs hx (fits_zero t),
      sum_addFrom q ht ys hy (fits_zero t), Option.bind_some, Int.zero_add, sumMerge_eq]
    obtain ⟨ok, h⟩ := sumAdd_state q ht (fits_wrap t xs.sum) (fits_wrap t ys.sum)
    rw [h, Option.map_some, wrap_add_wrap, wrap_add_wrap_right]
  · simp only [addAllTo, e, sum_addFrom q ht _ hxy (fits_zero t), Int.zero_add, List.sum_append]

example : merged (sumAcc .detect .u8) [200, 100] [100] = some 144 := by decide

/-- C38, sum of `int32_t` and `int64_t`, provided that the partial sums are values of the type (the
addition is undefined behaviour otherwise). -/
theorem C38_sum_wide (q : SumPolicy) (t : IntTy) (ht : Signed t) (hw : ¬ Narrow t) (xs ys : List Int)
    (hx : ∀ v ∈ xs, Fits t v) (hy : ∀ v ∈ ys, Fits t v) (hfx : PartialSumsFit t (xs ++ ys))
    (hfy : PartialSumsFit t ys) :
    merged (sumAcc q t) xs ys = some (xs ++ ys).sum ∧
      addAllTo (sumAcc q t) (xs ++ ys) = some (xs ++ ys).sum := by
  have hxy : ∀ v ∈ xs ++ ys, Fits t v := fun v hv => (List.mem_append.1 hv).elim (hx v) (hy v)
  have e : (sumAcc q t).init = 0 := rfl
  have ht' : ¬ Wraps t := by
    rcases ht with rfl | rfl | rfl | rfl <;> simp [Wraps, Unsigned, Narrow] at hw ⊢
  have hfx' : PartialSumsFit t xs := fun k => by
    have := hfx (min k xs.length)
    rw [List.take_append_of_le_length (by omega)] at this
    rcases le_total k xs.length with h | h
    · rwa [Nat.min_eq_left h] at this
    · rw [Nat.min_eq_right h, List.take_length] at this
      rwa [List.take_of_length_le h]
  have h1 := sum_addFrom_wide q ht' xs hx (fits_zero t) (by simpa [PartialSumsFit] using hfx')
  have h2 := sum_addFrom_wide q ht' ys hy (fits_zero t) (by simpa [PartialSumsFit] using hfy)
  have h3 := sum_addFrom_wide q ht' _ hxy (fits_zero t) (by intro k; rw [Int.zero_add]; exact hfx k)
  have fx : Fits t xs.sum := by simpa using hfx' xs.length
  have fy : Fits t ys.sum := by simpa using hfy ys.length
  have fxy : Fits t (xs.sum + ys.sum) := by
    have := hfx (xs ++ ys).length
    rwa [List.take_length, List.sum_append] at this
  refine ⟨?_, by simpa [addAllTo, e] using h3⟩
  simp only [merged, addAllTo, e, h1, h2, Option.bind_some, Int.zero_add, sumMerge_eq,
    sumAdd_wide q ht' fx fy, fxy, if_true, Option.map_some, List.sum_append]

example : PartialSumsFit .i32 ([2147483647] ++ [-5, 3]) ∧ PartialSumsFit .i32 [-5, 3] := by
  constructor <;> intro k <;> rcases k with _ | _ | _ | k <;> simp [Fits]

/-- C38, count without range policy. -/
theorem C38_count {V : Type} (r : IntTy) (hr : Unsigned r ∨ Narrow r) (xs ys : List V) :
    ∃ s, merged (countAccPlain r) xs ys = some s ∧
      addAllTo (countAccPlain r) (xs ++ ys) = some s := by
  have e : (countAccPlain (V := V) r).init = 0 := rfl
  refine ⟨r.wrap (xs.length + ys.length), ?_, ?_⟩
  · simp only [merged, addAllTo, e, count_addFrom hr xs (fits_zero r),
      count_addFrom hr ys (fits_zero r), Option.bind_some, Int.zero_add,
      countPlain_merge hr (fits_wrap _ _) (fits_wrap _ _), Option.map_some, wrap_add_wrap,
      wrap_add_wrap_right]
  · simp only [addAllTo, e, count_addFrom hr _ (fits_zero r), Int.zero_add, List.length_append]
    push_cast; rfl

example : merged (countAccPlain .u8) [1, 2] [3, 4, 5] = some 5 := by decide

/-- C38, count with a result of type `int32_t` or `int64_t` that can represent the number of values. -/
theorem C38_count_wide {V : Type} (r : IntTy) (hr : Signed r) (hw : ¬ Narrow r) (xs ys : List V)
    (hf : Fits r ((xs ++ ys).length : Nat)) :
    merged (countAccPlain r) xs ys = some (((xs ++ ys).length : Nat) : Int) ∧
      addAllTo (countAccPlain r) (xs ++ ys) = some (((xs ++ ys).length : Nat) : Int) := by
  have hadd : ∀ s s' : Int, 0 ≤ s → 0 ≤ s' → Fits r (s + s') → Fits r s → Fits r s' →
      (cAdd r r s s').map r.wrap = some (s + s') ∧
      (Fits r (s + 1) → (cAdd r .i32 s 1).map r.wrap = some (s + 1)) := by
    intro s s' h0 h1 h2 h3 h4
    rcases hr with rfl | rfl | rfl | rfl
    · simp [Narrow] at hw
    · simp [Narrow] at hw
    all_goals
      simp only [Fits] at h2 h3 h4
      constructor
      · simp [cAdd, common, promote, bits, convert, signed, arith, wrap, IntTy.min, IntTy.max]
        omega
      · intro h5
        simp only [Fits] at h5
        simp [cAdd, common, promote, bits, convert, signed, arith, wrap, IntTy.min, IntTy.max]
        omega
  have key : ∀ (vs : List V) (s : Int), 0 ≤ s → Fits r (s + vs.length) →
      addFrom (countAccPlain r) s vs = some (s + vs.length) := by
    intro vs
    induction vs with
    | nil => intro s _ _; simp [addFrom]
    | cons v vs ih =>
      intro s h0 hs
      have hlt : Fits r (s + 1) ∧ Fits r s ∧ Fits r 0 := by
        rcases hr with rfl | rfl | rfl | rfl <;> simp only [Fits, List.length_cons] at hs ⊢ <;>
          push_cast at hs <;> omega
      have e : (countAccPlain (V := V) r).add s v = some (s + 1, true) := by
        have := (hadd s 0 h0 le_rfl (by simpa using hlt.2.1) hlt.2.1 hlt.2.2).2 hlt.1
        simp only [countAccPlain, this, Option.map_some]
      rw [addFrom, e, Option.bind_some, ih (s + 1) (by omega) (by
        rw [List.length_cons] at hs
        push_cast at hs
        rwa [show s + 1 + (vs.length : Int) = s + (vs.length + 1) by omega])]
      simp only [List.length_cons]
      push_cast
      congr 1
      omega
  have e : (countAccPlain (V := V) r).init = 0 := rfl
  rw [List.length_append] at hf ⊢
  push_cast at hf ⊢
  have hsub : Fits r (xs.length : Int) ∧ Fits r (ys.length : Int) := by
    rcases hr with rfl | rfl | rfl | rfl <;> simp only [Fits] at hf ⊢ <;> omega
  refine ⟨?_, ?_⟩
  · simp only [merged, addAllTo, e, key xs 0 le_rfl (by simpa using hsub.1),
      key ys 0 le_rfl (by simpa using hsub.2), Option.bind_some, Int.zero_add]
    simp only [countAccPlain,
      (hadd xs.length ys.length (by omega) (by omega) hf hsub.1 hsub.2).1, Option.map_some]
  · simp only [addAllTo, e]
    rw [key _ 0 le_rfl (by rw [List.length_append]; push_cast; simpa using hf), List.length_append]
    push_cast
    simp

example : merged (countAccPlain .i32) [1, 2] [3, 4, 5] = some 5 := by decide

/-- C38 fails for count with a range policy: the merged count of 2 and 3 values is 3. More generally
merging adds one, whatever is merged. -/
theorem C38_count_policy_false :
    merged (countAcc (V := Int) .detect .u64) [1, 2] [3, 4, 5] = some 3 ∧
      addAllTo (countAcc (V := Int) .detect .u64) ([1, 2] ++ [3, 4, 5]) = some 5 := by decide

/-- See `C38_count_policy_false`: the other accumulator has no effect. -/
theorem C38_count_policy_ignores_other (q : SumPolicy) (r : IntTy) (s s1 s2 : Int) :
    (countAcc (V := Int) q r).merge s s1 = (countAcc (V := Int) q r).merge s s2 := rfl

/-- C38, mean of unsigned integers or integers smaller than `int`: also the states are the same. -/
theorem C38_mean (q : SumPolicy) (t : IntTy) (ht : Unsigned t ∨ Narrow t) (xs ys : List Int)
    (hx : ∀ v ∈ xs, Fits t v) (hy : ∀ v ∈ ys, Fits t v) :
    ∃ s, merged (meanAcc q t) xs ys = some s ∧ addAllTo (meanAcc q t) (xs ++ ys) = some s := by
  obtain ⟨s, h1, h2⟩ := C38_sum q t ht xs ys hx hy
  refine ⟨(s, wrap .u64 (xs.length + ys.length)), ?_, ?_⟩
  · have e : (sumAcc q t).init = 0 := rfl
    have a1 : addAllTo (sumAcc q t) xs = some (t.wrap xs.sum) := by
      simp only [addAllTo, e, sum_addFrom q ht xs hx (fits_zero t), Int.zero_add]
    have a2 : addAllTo (sumAcc q t) ys = some (t.wrap ys.sum) := by
      simp only [addAllTo, e, sum_addFrom q ht ys hy (fits_zero t), Int.zero_add]
    simp only [merged, a1, a2, Option.bind_some] at h1
    simp only [merged, mean_addAllTo, a1, a2, Option.map_some, Option.bind_some]
    rw [mean_merge q t (fits_wrap _ _) (fits_wrap _ _), Option.map_map]
    obtain ⟨x, hx, rfl⟩ := Option.map_eq_some_iff.1 h1
    simp only [hx, Option.map_some, Function.comp_apply, wrap_add_wrap, wrap_add_wrap_right]
  · rw [mean_addAllTo, h2, Option.map_some, List.length_append]
    push_cast; rfl

example : merged (meanAcc .detect .u8) [20, 10] [9] = some (39, 3) := by decide

/-- C38, mean of `int32_t` and `int64_t`, provided that the partial sums are values of the type. -/
theorem C38_mean_wide (q : SumPolicy) (t : IntTy) (ht : Signed t) (hw : ¬ Narrow t)
    (xs ys : List Int) (hx : ∀ v ∈ xs, Fits t v) (hy : ∀ v ∈ ys, Fits t v)
    (hfx : PartialSumsFit t (xs ++ ys)) (hfy : PartialSumsFit t ys) :
    ∃ s, merged (meanAcc q t) xs ys = some s ∧ addAllTo (meanAcc q t) (xs ++ ys) = some s := by
  obtain ⟨h1, h2⟩ := C38_sum_wide q t ht hw xs ys hx hy hfx hfy
  refine ⟨((xs ++ ys).sum, wrap .u64 (xs.length + ys.length)), ?_, ?_⟩
  · simp only [merged] at h1 ⊢
    obtain ⟨a, ha, h1⟩ := Option.bind_eq_some_iff.1 h1
    obtain ⟨b, hb, h1⟩ := Option.bind_eq_some_iff.1 h1
    obtain ⟨x, hx, e⟩ := Option.map_eq_some_iff.1 h1
    simp only [mean_addAllTo, ha, hb, Option.map_some, Option.bind_some]
    rw [mean_merge q t (fits_wrap _ _) (fits_wrap _ _), Option.map_map]
    simp only [hx, Option.map_some, Function.comp_apply, wrap_add_wrap, wrap_add_wrap_right, e]
  · rw [mean_addAllTo, h2, Option.map_some, List.length_append]
    push_cast; rfl

example : merged (meanAcc .discard .i32) [2147483647] [-5, 3] = some (2147483645, 3) := by decide

/-- C38, maximum. -/
theorem C38_max (a r : IntTy) (xs ys : List Int) (hx : ∀ v ∈ xs, Fits a v) (hy : ∀ v ∈ ys, Fits a v) :
    merged (maxAcc a r) xs ys = addAllTo (maxAcc a r) (xs ++ ys) ∧
      (addAllTo (maxAcc a r) (xs ++ ys)).isSome := by
  refine ⟨(maxAcc_pure a r).merged xs ys hx hy, ?_⟩
  rw [(maxAcc_pure a r).addAllTo _
    (fun v hv => (List.mem_append.1 hv).elim (hx v) (hy v))]
  rfl

example : merged (maxAcc .i8 .i8) [-7, -3] [] = some (-3) := by decide

/-- C38, minimum. -/
theorem C38_min (a r : IntTy) (xs ys : List Int) (hx : ∀ v ∈ xs, Fits a v) (hy : ∀ v ∈ ys, Fits a v) :
    merged (minAcc a r) xs ys = addAllTo (minAcc a r) (xs ++ ys) ∧
      (addAllTo (minAcc a r) (xs ++ ys)).isSome := by
  refine ⟨(minAcc_pure a r).merged xs ys hx hy, ?_⟩
  rw [(minAcc_pure a r).addAllTo _
    (fun v hv => (List.mem_append.1 hv).elim (hx v) (hy v))]
  rfl

example : merged (minAcc .u8 .u8) [7, 3] [5] = some 3 := by decide

/-- C38, range. -/
theorem C38_range (a r : IntTy) (xs ys : List Int) (hx : ∀ v ∈ xs, Fits a v)
    (hy : ∀ v ∈ ys, Fits a v) :
    merged (rangeAcc a r) xs ys = addAllTo (rangeAcc a r) (xs ++ ys) ∧
      (addAllTo (rangeAcc a r) (xs ++ ys)).isSome := by
  refine ⟨(rangeAcc_pure a r).merged xs ys hx hy, ?_⟩
  rw [(rangeAcc_pure a r).addAllTo _
    (fun v hv => (List.mem_append.1 hv).elim (hx v) (hy v))]
  rfl

example : resultOfMerged (rangeAcc .u8 .u8) [7, 3] [15] = some 12 := by decide

/-- C38, median. -/
theorem C38_median (a r : IntTy) (xs ys : List Int) :
    merged (medianAcc a r) xs ys = addAllTo (medianAcc a r) (xs ++ ys) ∧
      (addAllTo (medianAcc a r) (xs ++ ys)).isSome := by
  refine ⟨(medianAcc_pure a r).merged xs ys (fun _ _ => trivial) (fun _ _ => trivial), ?_⟩
  rw [median_addAllTo]; rfl

example : resultOfMerged (medianAcc .i32 .i32) [7, 3] [15] = some 7 := by
  simp only [resultOfMerged, median_addAllTo, Option.bind_some]
  simp [medianAcc, medianResult, List.mergeSort, List.MergeSort.Internal.splitInTwo]
  decide

/-- C38, mode, for accumulators constructed with their first value. Whatever the order in which the
tables are iterated over, the result of the merged accumulator is a mode of all values, as is the
result of adding all values to one accumulator. -/
theorem C38_mode (order : FreqTable → FreqTable) (ho : ∀ t, List.Perm (order t) t) (r : IntTy)
    (x y : Int) (xs ys : List Int) (hv : ∀ v ∈ x :: xs ++ y :: ys, Fits r v) :
    ∃ s s' t m m', addFrom (modeAcc order r) (modeOfValue x) xs = some s ∧
      addFrom (modeAcc order r) (modeOfValue y) ys = some s' ∧
      (modeAcc order r).merge s s' = some (t, true) ∧
      (modeAcc order r).result t = some m ∧ IsMode (x :: xs ++ y :: ys) m ∧
      (addFrom (modeAcc order r) (modeOfValue x) (xs ++ y :: ys)).bind (modeAcc order r).result =
        some m' ∧ IsMode (x :: xs ++ y :: ys) m' := by
  have hs := (FreqTable.of_value x).foldl xs
  have hs' := (FreqTable.of_value y).foldl ys
  have ht := hs.merge ho hs'
  have hw := (FreqTable.of_value x).foldl (xs ++ y :: ys)
  obtain ⟨p, hp, hm⟩ := ht.mode ho (by simp)
  obtain ⟨p', hp', hm'⟩ := hw.mode ho (by simp)
  refine ⟨_, _, _, p.1, p'.1, mode_addFrom _ _ _ _, mode_addFrom _ _ _ _, rfl, ?_, by simpa using hm,
    ?_, by simpa using hm'⟩
  · simp only [modeAcc, hp, Option.map_some]
    rw [wrap_fits (hv _ (by simpa using hm.1))]
  · rw [mode_addFrom]
    simp only [modeAcc, Option.bind_some, hp', Option.map_some]
    rw [wrap_fits (hv _ (by simpa using hm'.1))]

example : FreqTable.merge id [(7, 1), (3, 2)] [(3, 1), (9, 4)] = [(7, 1), (3, 3), (9, 4)] := by decide

/-- C38 fails for default constructed mode accumulators: they start with the value 0, hence merging
counts it more than once. Whatever the order of iteration, the mode of two sevens, added to the first
of three default constructed accumulators that are merged, is 0. -/
theorem C38_mode_default_false (order : FreqTable → FreqTable) (ho : ∀ t, List.Perm (order t) t) :
    ∃ s t t', addAllTo (modeAcc order .i32) [7, 7] = some s ∧
      (modeAcc order .i32).merge s (modeAcc order .i32).init = some (t, true) ∧
      (modeAcc order .i32).merge t (modeAcc order .i32).init = some (t', true) ∧
      (modeAcc order .i32).result t' = some 0 := by
  have h1 : order [((0 : Int), 1)] = [(0, 1)] := List.perm_singleton.1 (ho _)
  refine ⟨[(0, 1), (7, 2)], [(0, 2), (7, 2)], [(0, 3), (7, 2)], rfl, ?_, ?_, ?_⟩
  · simp [modeAcc, FreqTable.merge, h1, FreqTable.bump]
  · simp [modeAcc, FreqTable.merge, h1, FreqTable.bump]
  · have h2 : order [((0 : Int), 3), (7, 2)] = [(0, 3), (7, 2)] ∨
        order [((0 : Int), 3), (7, 2)] = [(7, 2), (0, 3)] := by
      have hp := ho [((0 : Int), 3), (7, 2)]
      have hl := hp.length_eq
      match horder : order [((0 : Int), 3), (7, 2)], hl with
      | [a, b], _ =>
        rw [horder] at hp
        have ha : a ∈ [((0 : Int), 3), (7, 2)] := hp.mem_iff.1 (by simp)
        rcases List.mem_cons.1 ha with rfl | ha
        · have := List.Perm.cons_inv hp
          rw [List.perm_singleton] at this
          simp_all
        · simp only [List.mem_singleton] at ha
          subst ha
          have := List.Perm.cons_inv (hp.trans (List.Perm.swap _ _ _))
          rw [List.perm_singleton] at this
          simp_all
    rcases h2 with h | h <;> simp only [modeAcc, h] <;> decide

/-! ### C39 -/

/-- C39, maximum. -/
theorem C39_max (a r : IntTy) (vs : List Int) (hvs : vs ≠ []) (hv : ∀ v ∈ vs, Fits a v ∧ Fits r v) :
    ∃ m, resultOf (maxAcc a r) vs = some m ∧ IsMax vs m := by
  obtain ⟨m, h1, h2⟩ := max_addAllTo a r vs hvs (fun v h => (hv v h).1)
  refine ⟨m, ?_, h2⟩
  rw [resultOf, h1, Option.bind_some]
  simp only [maxAcc, wrap_fits (hv m h2.1).2]

example : resultOf (maxAcc .i8 .i32) [-7, -3, -4] = some (-3) := by decide

/-- C39, minimum. -/
theorem C39_min (a r : IntTy) (vs : List Int) (hvs : vs ≠ []) (hv : ∀ v ∈ vs, Fits a v ∧ Fits r v) :
    ∃ m, resultOf (minAcc a r) vs = some m ∧ IsMin vs m := by
  obtain ⟨m, h1, h2⟩ := min_addAllTo a r vs hvs (fun v h => (hv v h).1)
  refine ⟨m, ?_, h2⟩
  rw [resultOf, h1, Option.bind_some]
  simp only [minAcc, wrap_fits (hv m h2.1).2]

example : resultOf (minAcc .u8 .i32) [7, 3, 4] = some 3 := by decide

/-- C39, range: the difference of maximum and minimum, if that is a value of the result type. -/
theorem C39_range (a r : IntTy) (vs : List Int) (hvs : vs ≠ []) (hv : ∀ v ∈ vs, Fits a v ∧ Fits r v)
    (x y : Int) (hx : IsMin vs x) (hy : IsMax vs y) (hr : Fits r (y - x)) :
    resultOf (rangeAcc a r) vs = some (y - x) := by
  obtain ⟨x', y', h1, h2, h3⟩ := range_addAllTo a r vs hvs (fun v h => (hv v h).1)
  obtain rfl := IsMin.unique (List.Perm.refl _) hx h2
  obtain rfl := IsMax.unique (List.Perm.refl _) hy h3
  have fx := (hv x hx.1).2
  have fy := (hv y hy.1).2
  rw [resultOf, h1, Option.bind_some]
  simp only [rangeAcc, minAcc, maxAcc, Option.bind_eq_bind, Option.bind_some,
    wrap_fits fx, wrap_fits fy]
  have := subCompute_eq fy fx
  rw [subCompute, wrap_fits fy, wrap_fits fx] at this
  rw [this, if_neg (fun h => h.2 (fits_promote hr)), wrap_fits hr]

example : IsMin [7, 3, 15] 3 ∧ IsMax [7, 3, 15] 15 ∧ resultOf (rangeAcc .u8 .u8) [7, 3, 15] = some 12 := by
  refine ⟨⟨by simp, by simp⟩, ⟨by simp, by simp⟩, by decide⟩

/-- C39: the range of signed values need not be a value of the type: undefined behaviour for
`int32_t`, and a wrong value for `int8_t`. -/
theorem C39_range_false :
    resultOf (rangeAcc .i32 .i32) [-2147483648, 1] = none ∧
      resultOf (rangeAcc .i8 .i8) [-100, 100] = some (-56) := by decide

/-- C39, median of an odd number of values: the middle one of the sorted values. -/
theorem C39_median_odd (a r : IntTy) (vs l : List Int) (hl : SortedValues vs l)
    (hv : ∀ v ∈ vs, Fits r v) (ho : vs.length % 2 = 1) :
    ∃ m, l[vs.length / 2]? = some m ∧ resultOf (medianAcc a r) vs = some m := by
  obtain rfl := sortedValues_unique (List.Perm.refl _) hl (mergeSort_sorted vs)
  have hlen : vs.mergeSort.length = vs.length := (List.mergeSort_perm _ _).length_eq
  have hi : vs.length / 2 < vs.mergeSort.length := by omega
  have hne : vs ≠ [] := by rintro rfl; simp at ho
  refine ⟨_, List.getElem?_eq_getElem hi, ?_⟩
  have hf : Fits r vs.mergeSort[vs.length / 2] :=
    hv _ ((List.mergeSort_perm vs _).mem_iff.1 (List.getElem_mem _))
  rw [resultOf, median_addAllTo, Option.bind_some]
  simp only [medianAcc, medianResult, hne, if_false, hlen, ho, if_true, List.getElem?_eq_getElem hi, Option.map_some, wrap_fits hf]

example : SortedValues [9, 3, 5] [3, 5, 9] := ⟨by decide, by simp⟩

/-- C39, median of an even number of values: half (rounded towards zero) the sum of the middle two of
the sorted values, if this sum is a value of the result type and of the (promoted) argument type. -/
theorem C39_median_even (a r : IntTy) (vs l : List Int) (hl : SortedValues vs l) (hne : vs ≠ [])
    (hv : ∀ v ∈ vs, Fits a v) (he : vs.length % 2 = 0)
    (x y : Int) (hx : l[vs.length / 2 - 1]? = some x) (hy : l[vs.length / 2]? = some y)
    (ha : Fits a.promote (x + y)) (hr : Fits r (x + y)) :
    resultOf (medianAcc a r) vs = some ((x + y).tdiv 2) := by
  obtain rfl := sortedValues_unique (List.Perm.refl _) hl (mergeSort_sorted vs)
  have hlen : vs.mergeSort.length = vs.length := (List.mergeSort_perm _ _).length_eq
  have hfx : Fits a x := hv _ ((List.mergeSort_perm vs _).mem_iff.1 (List.mem_of_getElem? hx))
  have hfy : Fits a y := hv _ ((List.mergeSort_perm vs _).mem_iff.1 (List.mem_of_getElem? hy))
  have hadd : (cAdd a a x y).map r.wrap = some (x + y) := by
    rw [cAdd, wrap_common_self hfx, wrap_common_self hfy, common_self]
    cases hs : a.promote.signed
    · rw [arith_unsigned hs, wrap_fits ha, Option.map_some, wrap_fits hr]
    · rw [arith_signed hs, if_pos ha, Option.map_some, wrap_fits hr]
  have hq : Fits r ((x + y).tdiv 2) := by
    have := mean_div (t := .i64) (s := 0) (n := 2) (by decide) (by decide) (by decide)
    rcases le_or_gt 0 (x + y) with h | h
    · have h2 := Int.tdiv_nonneg (b := 2) h (by decide)
      refine fits_mono (fits_zero r) hr h2 ?_
      rw [Int.tdiv_eq_ediv_of_nonneg h]; omega
    · refine fits_mono hr (fits_zero r) ?_ ?_
      · have h1 : (x + y).tdiv 2 = -((-(x + y)) / 2) := by
          rw [← Int.tdiv_eq_ediv_of_nonneg (by omega), Int.neg_tdiv, Int.neg_neg]
        omega
      · have h1 : (x + y).tdiv 2 = -((-(x + y)) / 2) := by
          rw [← Int.tdiv_eq_ediv_of_nonneg (by omega), Int.neg_tdiv, Int.neg_neg]
        omega
  have hdiv : (cDiv r .i32 (x + y) 2).map r.wrap = some ((x + y).tdiv 2) := by
    have hsafe : Safe r .i32 (x + y) 2 := by
      cases hs : r.signed
      · exact .inr ⟨fits_nonneg hs hr, by decide⟩
      · exact .inl (common_signed_of hs rfl)
    have hc : Fits (common r .i32) ((x + y).tdiv 2) := by
      refine fits_common_left hq ?_
      rcases hsafe with h | h
      · exact .inl h
      · exact .inr (Int.tdiv_nonneg h.1 h.2)
    rw [cDiv_safe hr (by decide) hsafe (by decide) hc, Option.map_some, wrap_fits hq]
  rw [resultOf, median_addAllTo, Option.bind_some]
  simp only [medianAcc, medianResult, hne, if_false, hlen, he, hx, hy, Option.bind_eq_bind,
    Nat.zero_ne_one, Option.bind_some, hadd, hdiv]

example : SortedValues [9, 3, 5, 4] [3, 4, 5, 9] := ⟨by decide, by simp⟩

/-- C39: when the sum of the middle two is not a value of the type, the median is wrong (`uint32_t`)
or the behaviour is undefined (`int32_t`). -/
theorem C39_median_false :
    resultOf (medianAcc .u32 .u32) [4294967295, 4294967295] = some 2147483647 ∧
      resultOf (medianAcc .i32 .i32) [2147483647, 2147483647] = none := by
  simp only [resultOf, median_addAllTo, Option.bind_some]
  simp [medianAcc, medianResult, List.mergeSort, List.MergeSort.Internal.splitInTwo]
  decide

/-- C39, mode: for an accumulator constructed with its first value, the result is one of the most
frequent values, whatever the order in which the table is iterated over. -/
theorem C39_mode (order : FreqTable → FreqTable) (ho : ∀ t, List.Perm (order t) t) (r : IntTy)
    (x : Int) (xs : List Int) (hv : ∀ v ∈ x :: xs, Fits r v) :
    ∃ m, (addFrom (modeAcc order r) (modeOfValue x) xs).bind (modeAcc order r).result = some m ∧
      IsMode (x :: xs) m := by
  obtain ⟨p, hp, hm⟩ := ((FreqTable.of_value x).foldl xs).mode ho (by simp)
  refine ⟨p.1, ?_, hm⟩
  rw [mode_addFrom]
  simp only [modeAcc, Option.bind_some, hp, Option.map_some]
  rw [wrap_fits (hv _ hm.1)]

example : IsMode [3, 5, 5] 5 := ⟨by simp, fun v => by
  simp only [List.count_cons, List.count_nil]
  by_cases h3 : 3 = v <;> by_cases h5 : 5 = v <;> simp [h3, h5] <;> omega⟩

/-- C39 fails for a default constructed mode accumulator: the result of adding a value may be 0, which
has not been added. -/
theorem C39_mode_default_false :
    resultOf (modeAcc id .i32) [7] = some 0 ∧ ¬ IsMode [7] 0 := by
  refine ⟨by decide, fun h => ?_⟩
  have := h.1
  simp at this

/-- C39: minimum, maximum, range and median do not depend on the order in which values are added. -/
theorem C39_order (a r : IntTy) (vs vs' : List Int) (h : List.Perm vs vs')
    (hv : ∀ v ∈ vs, Fits a v) :
    resultOf (maxAcc a r) vs = resultOf (maxAcc a r) vs' ∧
      resultOf (minAcc a r) vs = resultOf (minAcc a r) vs' ∧
      resultOf (rangeAcc a r) vs = resultOf (rangeAcc a r) vs' ∧
      resultOf (medianAcc a r) vs = resultOf (medianAcc a r) vs' := by
  by_cases hne : vs = []
  · subst hne
    rw [List.nil_perm.1 h]
    exact ⟨rfl, rfl, rfl, rfl⟩
  · have hne' : vs' ≠ [] := fun e => hne (by subst e; exact List.perm_nil.1 h)
    have hv' : ∀ v ∈ vs', Fits a v := fun v hm => hv v (h.mem_iff.2 hm)
    obtain ⟨m, a1, a2⟩ := max_addAllTo a r vs hne hv
    obtain ⟨m', b1, b2⟩ := max_addAllTo a r vs' hne' hv'
    obtain ⟨n, c1, c2⟩ := min_addAllTo a r vs hne hv
    obtain ⟨n', d1, d2⟩ := min_addAllTo a r vs' hne' hv'
    obtain ⟨x, y, e1, e2, e3⟩ := range_addAllTo a r vs hne hv
    obtain ⟨x', y', f1, f2, f3⟩ := range_addAllTo a r vs' hne' hv'
    obtain rfl := IsMax.unique h a2 b2
    obtain rfl := IsMin.unique h c2 d2
    obtain rfl := IsMin.unique h e2 f2
    obtain rfl := IsMax.unique h e3 f3
    refine ⟨by simp only [resultOf, a1, b1], by simp only [resultOf, c1, d1],
      by simp only [resultOf, e1, f1], ?_⟩
    have hs := sortedValues_unique h (mergeSort_sorted vs) (mergeSort_sorted vs')
    simp only [resultOf, median_addAllTo, Option.bind_some]
    simp only [medianAcc, medianResult, hne, hne', if_false, hs]

/-! ### C66 -/

private theorem pure_seq {S : Type} {A : Accumulator S Int Int} {P : S → Prop} {t : IntTy}
    {f : S → Int → S} {m : S → S → S} (hA : PureAccumulator A P (Fits t) f m) (vs : List Int)
    (hv : ∀ v ∈ vs, Fits t v) (outp : OutPolicy Int) (c : Cell Int) :
    (aggregated A vs).bind (fun a => storeAggregate A outp a c) =
      if vs = [] then some (outp.mark c) else (resultOf A vs).map (fun x => ⟨x, c.masked⟩) := by
  rw [hA.aggregated vs hv, Option.bind_some, resultOf, hA.addAllTo vs hv, Option.bind_some]
  cases vs <;> simp [storeAggregate]

/-- C66: the maximum of a 1D array is the largest of the valid values; no-data if there is none. -/
theorem C66_max_1d (t : IntTy) (p : InPolicy Int) (vals : List Int) (hp : PolicyFor p vals.length)
    (hv : ∀ v ∈ vals, Fits t v) (outp : OutPolicy Int) (c : Cell Int) :
    ∃ c', aggregateSeq1d (maxAcc t t) p vals outp c = some c' ∧
      (validList p vals ≠ [] → ∃ m, IsMax (validList p vals) m ∧ Assigned m c c') ∧
      (validList p vals = [] → Marked outp c c') := by
  have hv' : ∀ v ∈ validList p vals, Fits t v := fun v h => hv v (mem_of_mem_valuesAt h)
  rw [aggregateSeq1d_eq _ hp, pure_seq (maxAcc_pure t t) _ hv']
  by_cases hne : validList p vals = []
  · exact ⟨_, by rw [if_pos hne], by simp [hne], fun _ => mark_spec _ _⟩
  · obtain ⟨m, h1, h2⟩ := C39_max t t _ hne (fun v h => ⟨hv' v h, hv' v h⟩)
    exact ⟨⟨m, c.masked⟩, by rw [if_neg hne, h1]; rfl, fun _ => ⟨m, h2, rfl, rfl⟩,
      fun h => absurd h hne⟩

example : aggregateSeq1d (maxAcc .i8 .i8) (.detect (· = 9)) [9, -5, 9, -3] (.markValue 9) ⟨0, false⟩ =
    some ⟨-3, false⟩ := by decide

/-- C66: the minimum of a 1D array is the smallest of the valid values; no-data if there is none. -/
theorem C66_min_1d (t : IntTy) (p : InPolicy Int) (vals : List Int) (hp : PolicyFor p vals.length)
    (hv : ∀ v ∈ vals, Fits t v) (outp : OutPolicy Int) (c : Cell Int) :
    ∃ c', aggregateSeq1d (minAcc t t) p vals outp c = some c' ∧
      (validList p vals ≠ [] → ∃ m, IsMin (validList p vals) m ∧ Assigned m c c') ∧
      (validList p vals = [] → Marked outp c c') := by
  have hv' : ∀ v ∈ validList p vals, Fits t v := fun v h => hv v (mem_of_mem_valuesAt h)
  rw [aggregateSeq1d_eq _ hp, pure_seq (minAcc_pure t t) _ hv']
  by_cases hne : validList p vals = []
  · exact ⟨_, by rw [if_pos hne], by simp [hne], fun _ => mark_spec _ _⟩
  · obtain ⟨m, h1, h2⟩ := C39_min t t _ hne (fun v h => ⟨hv' v h, hv' v h⟩)
    exact ⟨⟨m, c.masked⟩, by rw [if_neg hne, h1]; rfl, fun _ => ⟨m, h2, rfl, rfl⟩,
      fun h => absurd h hne⟩

example : aggregateSeq1d (minAcc .i8 .i8) (.detect (· = -9)) [-9, -5, -9, -3] .markMask ⟨0, false⟩ =
    some ⟨-5, false⟩ := by decide

/-- C66: a 2D array has the same maximum and minimum as the 1D array of its elements. -/
theorem C66_2d (t : IntTy) (p : InPolicy Int) (n1 n2 : Nat) (vals : List Int)
    (hn : vals.length = n1 * n2) (hp : PolicyFor p vals.length) (hv : ∀ v ∈ vals, Fits t v)
    (outp : OutPolicy Int) (c : Cell Int) :
    aggregateSeq2d (maxAcc t t) p vals n1 n2 outp c = aggregateSeq1d (maxAcc t t) p vals outp c ∧
      aggregateSeq2d (minAcc t t) p vals n1 n2 outp c =
        aggregateSeq1d (minAcc t t) p vals outp c := by
  rw [aggregateSeq2d_eq _ hn ((maxAcc_pure t t).firstInRange vals hv) hp, aggregateSeq1d_eq _ hp,
    aggregateSeq2d_eq _ hn ((minAcc_pure t t).firstInRange vals hv) hp, aggregateSeq1d_eq _ hp]
  exact ⟨rfl, rfl⟩

example : aggregateSeq2d (maxAcc .u8 .u8) (.detect (· = 9)) [9, 9, 3, 9, 5, 2] 2 3 (.markValue 9)
    ⟨0, false⟩ = some ⟨5, false⟩ := by decide

/-- C66: the parallel operations give the same result as the sequential ones, whatever the number of
threads. -/
theorem C66_parallel (t : IntTy) (p : InPolicy Int) (n1 n2 : Nat) (vals : List Int)
    (hn : vals.length = n1 * n2) (hp : PolicyFor p vals.length) (hv : ∀ v ∈ vals, Fits t v)
    (nrThreads : Nat) (ht : 1 ≤ nrThreads) (outp : OutPolicy Int) (c : Cell Int) :
    aggregatePar1d (maxAcc t t) p vals nrThreads outp c =
        aggregateSeq1d (maxAcc t t) p vals outp c ∧
      aggregatePar1d (minAcc t t) p vals nrThreads outp c =
        aggregateSeq1d (minAcc t t) p vals outp c ∧
      aggregatePar2d (maxAcc t t) p vals nrThreads n1 n2 outp c =
        aggregateSeq2d (maxAcc t t) p vals n1 n2 outp c ∧
      aggregatePar2d (minAcc t t) p vals nrThreads n1 n2 outp c =
        aggregateSeq2d (minAcc t t) p vals n1 n2 outp c :=
  ⟨C36_parallel_1d _ _ _ _ _ (maxAcc_pure t t) p vals hv hp nrThreads ht outp c,
    C36_parallel_1d _ _ _ _ _ (minAcc_pure t t) p vals hv hp nrThreads ht outp c,
    C36_parallel_2d _ _ _ _ _ (maxAcc_pure t t) p n1 n2 vals hn hv hp nrThreads ht outp c,
    C36_parallel_2d _ _ _ _ _ (minAcc_pure t t) p n1 n2 vals hn hv hp nrThreads ht outp c⟩

example : aggregatePar2d (minAcc .i8 .i8) (.detect (· = -9)) [-9, -9, 3, -9, -5, 2] 2 3 2
    (.markValue (-9)) ⟨0, false⟩ = some ⟨-5, false⟩ := by decide

/-! ### C67 -/

/-- C67: the mean of a 1D array of integers. When all running sums, and the number of valid values, are
values of the type, it is the sum divided by the number of valid values, rounded towards zero. It is
no-data when there is no valid value. -/
theorem C67_mean_1d (q : SumPolicy) (t : IntTy) (p : InPolicy Int) (vals : List Int)
    (hp : PolicyFor p vals.length) (hv : ∀ v ∈ vals, Fits t v)
    (hs : PartialSumsFit t (validList p vals)) (hn : Fits t (validList p vals).length)
    (outp : OutPolicy Int) (c : Cell Int) :
    ∃ c', aggregateSeq1d (meanAcc q t) p vals outp c = some c' ∧
      (validList p vals ≠ [] →
        Assigned ((validList p vals).sum.tdiv (validList p vals).length) c c') ∧
      (validList p vals = [] → Marked outp c c') := by
  rw [aggregateSeq1d_eq _ hp]
  have hv' : ∀ v ∈ validList p vals, Fits t v := fun v h => hv v (mem_of_mem_valuesAt h)
  generalize validList p vals = vs at *
  cases hvs : vs with
  | nil => exact ⟨_, rfl, by simp, fun _ => mark_spec _ _⟩
  | cons v vs' =>
    rw [← hvs]
    have hsum : addAll (sumAcc q t) vs 0 = some (true, vs.sum) := by
      have hs' : ∀ k, Fits t (0 + (vs.take k).sum) := by intro k; rw [Int.zero_add]; exact hs k
      by_cases ht : Wraps t
      · cases q
        · rw [sum_addAll_discard ht vs hv' (fits_zero t), Int.zero_add, wrap_fits]
          simpa using hs vs.length
        · obtain ⟨ok, x, h1, h2, h3⟩ := sum_addAll_detect ht vs hv' (fits_zero t)
          have hok := h2.2 hs'
          rw [h1, hok, h3 hok, Int.zero_add]
      · rw [(sum_addAll_wide q ht vs hv' (fits_zero t)).1 hs', Int.zero_add]
    obtain ⟨n, h1, h2⟩ := (mean_addAll q t vs 0 0 (by decide)).2 _ _ hsum
    have h64 : Fits .u64 vs.length := by
      cases t <;> simp only [Fits] at hn ⊢ <;> omega
    have hn' := h2 rfl
    rw [Int.zero_add, wrap_fits h64] at hn'
    subst hn'
    have hpos : (0 : Int) < vs.length := by rw [hvs]; simp
    have e : (meanAcc q t).init = (0, 0) := rfl
    have hres : (meanAcc q t).result (vs.sum, (vs.length : Int)) = some (vs.sum.tdiv vs.length) := by
      simp only [meanAcc, hpos, if_true, wrap_fits hn]
      exact mean_div (by simpa using hs vs.length) hn hpos
    refine ⟨⟨vs.sum.tdiv vs.length, c.masked⟩, ?_, fun _ => ⟨rfl, rfl⟩, by simp [hvs]⟩
    have : aggregated (meanAcc q t) vs = some ⟨true, true, (vs.sum, (vs.length : Int))⟩ := by
      rw [hvs]
      simp only [aggregated, e]
      rw [← hvs, h1]; rfl
    simp only [this, Option.bind_some, storeAggregate, hres]
    rfl

example : aggregateSeq1d (meanAcc .detect .i8) (.detect (· = 9)) [9, -5, 9, -2] (.markValue 9)
    ⟨0, false⟩ = some ⟨-3, false⟩ := by decide

/-- C67: the number of values is converted to the value type before dividing. When it is a multiple of
the number of values of the type, the conversion gives zero: integer division by zero, whatever the
values are. For instance for each array of 256 valid `uint8_t` values. -/
theorem C67_mean_division_by_zero (t : IntTy) (ht : Unsigned t ∨ Narrow t) (p : InPolicy Int)
    (vals : List Int) (hp : PolicyFor p vals.length) (hv : ∀ v ∈ vals, Fits t v)
    (hne : validList p vals ≠ []) (k : Nat) (hk : (validList p vals).length = k * 2 ^ t.bits)
    (outp : OutPolicy Int) (c : Cell Int) :
    aggregateSeq1d (meanAcc .discard t) p vals outp c = none := by
  rw [aggregateSeq1d_eq _ hp]
  have hv' : ∀ v ∈ validList p vals, Fits t v := fun v h => hv v (mem_of_mem_valuesAt h)
  generalize validList p vals = vs at *
  have hsum := sum_addAll_discard ht vs hv' (fits_zero t)
  obtain ⟨n, h1, h2⟩ := (mean_addAll .discard t vs 0 0 (by decide)).2 _ _ hsum
  have hn := h2 rfl
  rw [Int.zero_add] at hn
  have h0 : t.wrap n = 0 := by
    rw [hn, hk]
    rcases ht with (rfl | rfl | rfl | rfl) | (rfl | rfl | rfl | rfl) <;>
      simp only [wrap_u8, wrap_u16, wrap_u32, wrap_u64, wrap_i8, wrap_i16, bits] <;>
      push_cast <;> omega
  have : aggregated (meanAcc .discard t) vs = some ⟨true, true, (t.wrap (0 + vs.sum), n)⟩ := by
    obtain ⟨v, vs', rfl⟩ := List.exists_cons_of_ne_nil hne
    simp only [aggregated, show (meanAcc .discard t).init = (0, 0) from rfl, h1, Option.map_some]
  simp only [this, Option.bind_some, storeAggregate, Bool.and_self, if_true]
  simp only [meanAcc, h0, cDiv, wrap_fits (fits_zero (common t t))]
  simp

/-- See `C67_mean_division_by_zero`: a concrete case. -/
theorem C67_mean_division_by_zero_u8 :
    aggregateSeq1d (meanAcc .discard .u8) .skip (List.replicate 256 0) .dontMark ⟨7, false⟩ = none :=
  C67_mean_division_by_zero .u8 (by simp [Unsigned]) .skip _ trivial
    (by intro v h; rw [List.eq_of_mem_replicate h]; decide)
    (by decide +kernel) 1 (by decide +kernel) _ _

/-- C67: when the number of values is not a value of a signed type, the mean may have the wrong sign:
the mean of 200 non-negative `int8_t` values. -/
theorem C67_mean_wrong_sign :
    aggregateSeq1d (meanAcc .detect .i8) .skip (127 :: List.replicate 199 0) .dontMark ⟨7, false⟩ =
      some ⟨-2, false⟩ := by decide +kernel

/-- C67: with range errors discarded, the parallel mean equals the sequential mean. -/
theorem C67_mean_parallel (t : IntTy) (ht : Unsigned t ∨ Narrow t) (p : InPolicy Int) (n1 n2 : Nat)
    (vals : List Int) (hn : vals.length = n1 * n2) (hp : PolicyFor p vals.length)
    (hv : ∀ v ∈ vals, Fits t v) (nrThreads : Nat) (hth : 1 ≤ nrThreads) (outp : OutPolicy Int)
    (c : Cell Int) :
    aggregatePar1d (meanAcc .discard t) p vals nrThreads outp c =
        aggregateSeq1d (meanAcc .discard t) p vals outp c ∧
      aggregatePar2d (meanAcc .discard t) p vals nrThreads n1 n2 outp c =
        aggregateSeq2d (meanAcc .discard t) p vals n1 n2 outp c := by
  have hA : PureAccumulator (meanAcc .discard t) (fun s => Fits t s.1 ∧ Fits .u64 s.2) (Fits t)
      (fun s v => (t.wrap (s.1 + v), wrap .u64 (s.2 + 1)))
      (fun s s' => (t.wrap (s.1 + s'.1), wrap .u64 (s.2 + s'.2))) :=
    { init := ⟨fits_zero t, fits_zero .u64⟩
      step := fun _ _ _ _ => ⟨fits_wrap _ _, fits_wrap _ _⟩
      add := fun s v hs hv => by
        simp [meanAcc, sumAdd_discard ht hs.1 hv, countPlain_add u64_wraps hs.2]
      merge := fun s s' hs hs' => by
        rw [mean_merge .discard t hs.2 hs'.2, sumMerge_eq, sumAdd_discard ht hs.1 hs'.1]; rfl
      hom := fun s vs hs hv => by
        have key : ∀ (vs : List Int) (s : Int × Int), Fits t s.1 → Fits .u64 s.2 →
            vs.foldl (fun s v => (t.wrap (s.1 + v), wrap .u64 (s.2 + 1))) s =
              (t.wrap (s.1 + vs.sum), wrap .u64 (s.2 + vs.length)) := by
          intro vs
          induction vs with
          | nil => intro s h1 h2; simp [wrap_fits h1, wrap_fits h2]
          | cons v vs ih =>
            intro s h1 h2
            rw [List.foldl_cons, ih _ (fits_wrap _ _) (fits_wrap _ _)]
            simp only [wrap_add_wrap, List.sum_cons, List.length_cons, Int.add_assoc]
            congr 3; push_cast; omega
        rw [key vs s hs.1 hs.2, key vs _ (fits_zero t) (fits_zero .u64)]
        simp only [wrap_add_wrap_right]
        congr 2
        · show s.1 + (0 + vs.sum) = _
          omega
        · show s.2 + (0 + (vs.length : Int)) = _
          omega }
  exact ⟨C36_parallel_1d _ _ _ _ _ hA p vals hv hp nrThreads hth outp c,
    C36_parallel_2d _ _ _ _ _ hA p n1 n2 vals hn hv hp nrThreads hth outp c⟩

example : aggregatePar1d (meanAcc .discard .u8) (.detect (· = 9)) [9, 9, 3, 9, 5, 1] 2
    (.markValue 9) ⟨0, false⟩ = some ⟨3, false⟩ := by decide

end Fern
