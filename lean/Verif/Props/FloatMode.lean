import Verif.Lemmas.FloatMode

/-!
# C128: modes of floating point numbers
-/

namespace Fern.FloatMode

open Fern Fern.Domains
open _root_.Fern.FloatMode.Spec

/-- **C128**: however values are added and accumulators merged, and in whatever order maps are iterated over, the mode is one of
the values that occur most, where every default constructed accumulator counts as a zero. -/
theorem C128_mode (n : Nat) (vs : List Flt) (s : Table) (h : Built n vs s) (order : Table → Table) (ho : Iteration order) :
    ∃ m, (modeAcc order).result s = some m ∧ IsMode (List.replicate n (Flt.fin 0) ++ vs) m := by
  obtain ⟨hg, hp⟩ := built_good h
  have hne : order s ≠ [] := by
    intro e
    have hs : s = [] := List.nil_perm.1 (e ▸ ho s)
    subst hs
    exact built_ne h (List.nil_perm.1 hp)
  obtain ⟨p, t, ht⟩ := List.exists_cons_of_ne_nil hne
  obtain ⟨f1, f2⟩ := fold_max t p
  rw [← ht] at f1 f2
  refine ⟨(t.foldl (fun m p => if m.2 < p.2 then p else m) p).1, by simp [modeAcc, ht, maxElement], ?_, ?_⟩
  · exact hp.mem_iff.1 ((mem_expand hg).2 ⟨_, (ho s).mem_iff.1 f1, rfl⟩)
  · intro v hv
    obtain ⟨q, hq, rfl⟩ := (mem_expand hg).1 (hp.mem_iff.2 hv)
    rw [← frequency hg hp hq, ← frequency hg hp ((ho s).mem_iff.1 f1)]
    exact f2 q ((ho s).mem_iff.2 hq)

/-- One value may be the mode if there is another one that occurs as often: each of the values that occur most is returned for some
order of iteration. -/
theorem C128_any (n : Nat) (vs : List Flt) (s : Table) (h : Built n vs s) (m : Flt)
    (hm : IsMode (List.replicate n (Flt.fin 0) ++ vs) m) : ∃ order, Iteration order ∧ (modeAcc order).result s = some m := by
  obtain ⟨hg, hp⟩ := built_good h
  obtain ⟨p, hps, rfl⟩ := (mem_expand hg).1 (hp.mem_iff.2 hm.1)
  refine ⟨fun t => if p ∈ t then p :: t.erase p else t, ?_, ?_⟩
  · intro t
    show List.Perm (if p ∈ t then p :: t.erase p else t) t
    split_ifs with hpt
    · exact (List.perm_cons_erase hpt).symm
    · exact List.Perm.refl t
  · simp only [modeAcc, if_pos hps, maxElement, Option.map_some]
    rw [fold_first]
    intro q hq
    have hq := List.mem_of_mem_erase hq
    rw [frequency hg hp hq, frequency hg hp hps]
    exact hm.2 _ (hp.mem_iff.1 ((mem_expand hg).2 ⟨q, hq, rfl⟩))

/-- If a number occurs more often than the other values, and more than once if one is NaN, it is the mode. -/
theorem C128_unique (n : Nat) (vs : List Flt) (s : Table) (h : Built n vs s) (order : Table → Table) (ho : Iteration order) (x : Flt)
    (hx : x ≠ .nan) (hmax : ∀ v ∈ List.replicate n (Flt.fin 0) ++ vs, v ≠ x → v ≠ .nan →
      (List.replicate n (Flt.fin 0) ++ vs).count v < (List.replicate n (Flt.fin 0) ++ vs).count x)
    (hnan : 2 ≤ (List.replicate n (Flt.fin 0) ++ vs).count x) : (modeAcc order).result s = some x := by
  obtain ⟨m, m1, m2, m3⟩ := C128_mode n vs s h order ho
  rw [m1]
  by_contra hne
  have hne : m ≠ x := fun e => hne (by rw [e])
  have hmx := m3 x (List.count_pos_iff.1 (by omega))
  unfold occurrences at hmx
  rw [if_neg hx] at hmx
  split_ifs at hmx with hm
  · omega
  · have := hmax m m2 hne hm
    omega

/-- The mode is NaN only if there are no two equal numbers. -/
theorem C128_nan (n : Nat) (vs : List Flt) (s : Table) (h : Built n vs s) (order : Table → Table) (ho : Iteration order)
    (hr : (modeAcc order).result s = some .nan) : .nan ∈ vs ∧ ((List.replicate n (Flt.fin 0) ++ vs).filter (· ≠ Flt.nan)).Nodup := by
  obtain ⟨m, m1, m2, m3⟩ := C128_mode n vs s h order ho
  rw [hr] at m1
  obtain rfl := Option.some.inj m1
  refine ⟨?_, ?_⟩
  · rcases List.mem_append.1 m2 with e | e
    · have := List.eq_of_mem_replicate e
      simp at this
    · exact e
  · refine List.nodup_iff_count_le_one.2 fun v => ?_
    by_cases hv : v ∈ (List.replicate n (Flt.fin 0) ++ vs).filter (· ≠ Flt.nan)
    · obtain ⟨h1, h2⟩ := List.mem_filter.1 hv
      have hn : v ≠ .nan := by simpa using h2
      have := m3 v h1
      unfold occurrences at this
      rw [if_neg hn, if_pos rfl] at this
      exact (List.Sublist.count_le v List.filter_sublist).trans this
    · rw [List.count_eq_zero.2 hv]
      exact Nat.zero_le 1

/-- The table has one entry for each number, and one for each time NaN was added. -/
theorem C128_size (n : Nat) (vs : List Flt) (s : Table) (h : Built n vs s) :
    size s = ((List.replicate n (Flt.fin 0) ++ vs).filter (· ≠ Flt.nan)).dedup.length + vs.count .nan := by
  obtain ⟨hg, hp⟩ := built_good h
  unfold size
  rw [length_keys, ← count_nan hg.nans, hp.count_eq, List.count_append]
  have hz : (List.replicate n (Flt.fin 0)).count .nan = 0 :=
    List.count_eq_zero.2 fun e => by simpa using List.eq_of_mem_replicate e
  rw [hz, Nat.zero_add]
  congr 1
  refine List.Perm.length_eq ((List.perm_ext_iff_of_nodup hg.nodup (List.nodup_dedup _)).2 fun v => ?_)
  rw [List.mem_dedup, List.mem_filter, ← hp.mem_iff, mem_expand hg]
  unfold keys
  rw [List.mem_filter, List.mem_map]

/-- The way in which values are added and accumulators are merged doesn't matter: the same values can be returned. -/
theorem C128_perm (n : Nat) (vs vs' : List Flt) (hvs : vs.Perm vs') (s s' : Table) (h : Built n vs s) (h' : Built n vs' s')
    (m : Flt) : (∃ order, Iteration order ∧ (modeAcc order).result s = some m) ↔
      ∃ order, Iteration order ∧ (modeAcc order).result s' = some m := by
  have one : ∀ vs vs' : List Flt, vs.Perm vs' → ∀ s s', Built n vs s → Built n vs' s' →
      (∃ order, Iteration order ∧ (modeAcc order).result s = some m) →
      ∃ order, Iteration order ∧ (modeAcc order).result s' = some m := by
    rintro vs vs' hvs s s' h h' ⟨order, ho, hr⟩
    obtain ⟨m', m1, m2, m3⟩ := C128_mode n vs s h order ho
    rw [hr] at m1
    obtain rfl := Option.some.inj m1
    have hp : (List.replicate n (Flt.fin 0) ++ vs).Perm (List.replicate n (Flt.fin 0) ++ vs') := List.Perm.append_left _ hvs
    refine C128_any n vs' s' h' m ⟨hp.mem_iff.1 m2, fun v hv => ?_⟩
    have := m3 v (hp.mem_iff.2 hv)
    unfold occurrences at this ⊢
    rwa [hp.count_eq, hp.count_eq] at this
  exact ⟨one vs vs' hvs s s' h h', one vs' vs hvs.symm s' s h' h⟩

/-- The hypotheses of `C128_unique` are met by 7, NaN, NaN and, merged, 7, NaN. -/
example : ∃ s, Built 0 ([.fin 7, .nan, .nan] ++ [.fin 7, .nan]) s ∧ size s = 4 ∧ ∀ order, Iteration order →
    (modeAcc order).result s = some (.fin 7) := by
  have h1 : Built 0 [.fin 7, .nan, .nan] [(.fin 7, 1), (.nan, 1), (.nan, 1)] :=
    .add id 0 [.fin 7, .nan] [(.fin 7, 1), (.nan, 1)] _ .nan true (.add id 0 [.fin 7] _ _ .nan true (.value (.fin 7)) rfl) rfl
  have h2 : Built 0 [.fin 7, .nan] [(.fin 7, 1), (.nan, 1)] := .add id 0 [.fin 7] _ _ .nan true (.value (.fin 7)) rfl
  have h := Built.merge id (fun t => List.Perm.refl t) 0 0 _ _ _ _ _ true h1 h2 rfl
  refine ⟨_, h, by decide +kernel, fun order ho => C128_unique 0 _ _ h order ho (.fin 7) (by decide) ?_ (by decide +kernel)⟩
  decide +kernel

/-- NaN is not the mode although it was added most: of three times NaN and 1, the mode can be 1 as well as NaN. -/
theorem C128_nan_false : ∃ s, Built 0 [.nan, .nan, .nan, .fin 1] s ∧
    (∃ order, Iteration order ∧ (modeAcc order).result s = some (.fin 1)) ∧
    ∃ order, Iteration order ∧ (modeAcc order).result s = some .nan := by
  have h1 : Built 0 [.nan, .nan] [(.nan, 1), (.nan, 1)] := .add id 0 [.nan] _ _ .nan true (.value .nan) rfl
  have h2 : Built 0 [.nan, .nan, .nan] [(.nan, 1), (.nan, 1), (.nan, 1)] := .add id 0 [.nan, .nan] _ _ .nan true h1 rfl
  have h : Built 0 [.nan, .nan, .nan, .fin 1] [(.nan, 1), (.nan, 1), (.nan, 1), (.fin 1, 1)] :=
    .add id 0 [.nan, .nan, .nan] _ _ (.fin 1) true h2 rfl
  refine ⟨_, h, C128_any 0 _ _ h _ ?_, C128_any 0 _ _ h _ ?_⟩ <;> unfold IsMode occurrences <;> decide +kernel

/-- A default constructed accumulator to which 7 is added can give 0; if three of them are merged, to one of which 7 is added
twice, the mode is always 0. -/
theorem C128_default_false : (∃ s, Built 1 [.fin 7] s ∧ ∃ order, Iteration order ∧ (modeAcc order).result s = some (.fin 0)) ∧
    ∃ s, Built 3 [.fin 7, .fin 7] s ∧ ∀ order, Iteration order → (modeAcc order).result s = some (.fin 0) := by
  have hd : Built 1 [] [(.fin 0, 1)] := .default id
  have h1 : Built 1 [.fin 7] [(.fin 0, 1), (.fin 7, 1)] := .add id 1 [] _ _ (.fin 7) true hd (by decide +kernel)
  have h2 : Built 1 [.fin 7, .fin 7] [(.fin 0, 1), (.fin 7, 2)] := .add id 1 [.fin 7] _ _ (.fin 7) true h1 (by decide +kernel)
  have ho : Iteration id := fun t => List.Perm.refl t
  have h3 : Built 2 [.fin 7, .fin 7] [(.fin 0, 2), (.fin 7, 2)] := .merge id ho 1 1 _ [] _ _ _ true h2 hd (by decide +kernel)
  have h4 : Built 3 [.fin 7, .fin 7] [(.fin 0, 3), (.fin 7, 2)] := .merge id ho 2 1 _ [] _ _ _ true h3 hd (by decide +kernel)
  refine ⟨⟨_, h1, C128_any 1 _ _ h1 _ ?_⟩, _, h4, fun order ho => C128_unique 3 _ _ h4 order ho _ (by decide) ?_ (by decide +kernel)⟩
  · unfold IsMode occurrences
    decide +kernel
  · decide +kernel

end Fern.FloatMode
