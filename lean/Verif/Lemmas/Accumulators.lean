import Verif.Model.Accumulators
import Verif.Spec.Accumulators
import Verif.Lemmas.Count
import Mathlib.Data.List.Sort
/-
Accumulators: adding a list of values, merging.
-/
namespace Fern

open Spec IntTy

section

variable {S V R : Type} {A : Accumulator S V R}

theorem addFrom_append (A : Accumulator S V R) (xs ys : List V) (s : S) :
    addFrom A s (xs ++ ys) = (addFrom A s xs).bind (fun s' => addFrom A s' ys) := by
  induction xs generalizing s with
  | nil => rfl
  | cons v xs ih =>
    simp only [List.cons_append, addFrom, Option.bind_assoc]
    congr 1; funext x; exact ih _

variable {P : S → Prop} {Q : V → Prop} {f : S → V → S} {m : S → S → S}

theorem Spec.PureAccumulator.addFrom (h : PureAccumulator A P Q f m) (vs : List V)
    (hvs : ∀ v ∈ vs, Q v) {s : S} (hs : P s) : addFrom A s vs = some (vs.foldl f s) := by
  induction vs generalizing s with
  | nil => rfl
  | cons v vs ih =>
    have hv := hvs v (by simp)
    simp [Spec.addFrom, h.add s v hs hv, ih (fun w hw => hvs w (by simp [hw])) (h.step s v hs hv)]

theorem Spec.PureAccumulator.addAllTo (h : PureAccumulator A P Q f m) (vs : List V)
    (hvs : ∀ v ∈ vs, Q v) : addAllTo A vs = some (vs.foldl f A.init) :=
  h.addFrom vs hvs h.init

/-- Merging is a homomorphism. -/
theorem Spec.PureAccumulator.merged (h : PureAccumulator A P Q f m) (xs ys : List V)
    (hx : ∀ v ∈ xs, Q v) (hy : ∀ v ∈ ys, Q v) :
    Spec.merged A xs ys = Spec.addAllTo A (xs ++ ys) := by
  have hxy : ∀ v ∈ xs ++ ys, Q v := fun v hv => (List.mem_append.1 hv).elim (hx v) (hy v)
  simp only [Spec.merged, h.addAllTo xs hx, h.addAllTo ys hy, h.addAllTo _ hxy, Option.bind_some,
    h.merge _ _ (h.foldl xs hx _ h.init) (h.foldl ys hy _ h.init), Option.map_some,
    h.hom _ _ (h.foldl xs hx _ h.init) hy, List.foldl_append]

end

theorem resultOfMerged_eq {S V R : Type} (A : Accumulator S V R) (xs ys : List V) :
    resultOfMerged A xs ys = (merged A xs ys).bind A.result := by
  simp only [resultOfMerged, merged, Option.bind_assoc]
  congr 1; funext s; congr 1; funext s'
  cases A.merge s s' <;> rfl

/-! ### Min, max, range -/

theorem fits_tyMin (a : IntTy) : Fits a a.min := by cases a <;> decide
theorem fits_tyMax (a : IntTy) : Fits a a.max := by cases a <;> decide

theorem max_foldl (vs : List Int) (s : Int) :
    vs.foldl (fun s v => if s < v then v else s) s ∈ s :: vs ∧
      ∀ v ∈ s :: vs, v ≤ vs.foldl (fun s v => if s < v then v else s) s := by
  induction vs generalizing s with
  | nil => simp
  | cons w vs ih =>
    simp only [List.foldl_cons]
    obtain ⟨h1, h2⟩ := ih (if s < w then w else s)
    constructor
    · rcases List.mem_cons.1 h1 with h | h
      · rw [h]; split <;> simp
      · simp [h]
    · intro v hv
      have h3 := h2 (if s < w then w else s) (by simp)
      rcases List.mem_cons.1 hv with rfl | hv
      · refine le_trans ?_ h3
        split <;> omega
      · rcases List.mem_cons.1 hv with rfl | hv
        · refine le_trans ?_ h3
          split <;> omega
        · exact h2 v (by simp [hv])

theorem min_foldl (vs : List Int) (s : Int) :
    vs.foldl (fun s v => if v < s then v else s) s ∈ s :: vs ∧
      ∀ v ∈ s :: vs, vs.foldl (fun s v => if v < s then v else s) s ≤ v := by
  induction vs generalizing s with
  | nil => simp
  | cons w vs ih =>
    simp only [List.foldl_cons]
    obtain ⟨h1, h2⟩ := ih (if w < s then w else s)
    constructor
    · rcases List.mem_cons.1 h1 with h | h
      · rw [h]; split <;> simp
      · simp [h]
    · intro v hv
      have h3 := h2 (if w < s then w else s) (by simp)
      rcases List.mem_cons.1 hv with rfl | hv
      · refine le_trans h3 ?_
        split <;> omega
      · rcases List.mem_cons.1 hv with rfl | hv
        · refine le_trans h3 ?_
          split <;> omega
        · exact h2 v (by simp [hv])

theorem maxAcc_pure (a r : IntTy) :
    PureAccumulator (maxAcc a r) (Fits a) (Fits a) (fun s v => if s < v then v else s)
      (fun s s' => if s < s' then s' else s) where
  init := fits_tyMin a
  step s v hs hv := by split <;> assumption
  add _ _ _ _ := rfl
  merge _ _ _ _ := rfl
  hom s vs hs hv := by
    have h1 := max_foldl vs s
    have h2 := max_foldl vs (maxAcc a r).init
    generalize vs.foldl (fun s v => if s < v then v else s) s = x at *
    generalize vs.foldl (fun s v => if s < v then v else s) (maxAcc a r).init = y at *
    have h3 : (maxAcc a r).init ≤ s := ((fits_iff a s).1 hs).1
    have h4 := h1.2 s (by simp)
    have h5 : y ≤ x := by
      rcases List.mem_cons.1 h2.1 with h | h
      · omega
      · exact h1.2 y (by simp [h])
    rcases List.mem_cons.1 h1.1 with h | h
    · split <;> omega
    · have := h2.2 x (by simp [h])
      split <;> omega

theorem minAcc_pure (a r : IntTy) :
    PureAccumulator (minAcc a r) (Fits a) (Fits a) (fun s v => if v < s then v else s)
      (fun s s' => if s' < s then s' else s) where
  init := fits_tyMax a
  step s v hs hv := by split <;> assumption
  add _ _ _ _ := rfl
  merge _ _ _ _ := rfl
  hom s vs hs hv := by
    have h1 := min_foldl vs s
    have h2 := min_foldl vs (minAcc a r).init
    generalize vs.foldl (fun s v => if v < s then v else s) s = x at *
    generalize vs.foldl (fun s v => if v < s then v else s) (minAcc a r).init = y at *
    have h3 : s ≤ (minAcc a r).init := ((fits_iff a s).1 hs).2
    have h4 := h1.2 s (by simp)
    have h5 : x ≤ y := by
      rcases List.mem_cons.1 h2.1 with h | h
      · omega
      · exact h1.2 y (by simp [h])
    rcases List.mem_cons.1 h1.1 with h | h
    · split <;> omega
    · have := h2.2 x (by simp [h])
      split <;> omega

theorem range_foldl {f g : Int → Int → Int} (vs : List Int) (s : Int × Int) :
    vs.foldl (fun s v => (f s.1 v, g s.2 v)) s = (vs.foldl f s.1, vs.foldl g s.2) := by
  induction vs generalizing s with
  | nil => rfl
  | cons v vs ih => exact ih _

theorem rangeAcc_pure (a r : IntTy) :
    PureAccumulator (rangeAcc a r) (fun s => Fits a s.1 ∧ Fits a s.2) (Fits a)
      (fun s v => (if v < s.1 then v else s.1, if s.2 < v then v else s.2))
      (fun s s' => (if s'.1 < s.1 then s'.1 else s.1, if s.2 < s'.2 then s'.2 else s.2)) where
  init := ⟨fits_tyMax a, fits_tyMin a⟩
  step s v hs hv := ⟨(minAcc_pure a r).step _ _ hs.1 hv, (maxAcc_pure a r).step _ _ hs.2 hv⟩
  add _ _ _ _ := rfl
  merge _ _ _ _ := rfl
  hom s vs hs hv := by
    rw [range_foldl (f := fun s v => if v < s then v else s) (g := fun s v => if s < v then v else s),
      range_foldl (f := fun s v => if v < s then v else s) (g := fun s v => if s < v then v else s)]
    exact Prod.ext ((minAcc_pure a r).hom s.1 vs hs.1 hv) ((maxAcc_pure a r).hom s.2 vs hs.2 hv)

/-- The largest value added. -/
theorem max_addAllTo (a r : IntTy) (vs : List Int) (hvs : vs ≠ []) (hv : ∀ v ∈ vs, Fits a v) :
    ∃ m, addAllTo (maxAcc a r) vs = some m ∧ IsMax vs m := by
  refine ⟨_, (maxAcc_pure a r).addAllTo vs hv, ?_⟩
  obtain ⟨h1, h2⟩ := max_foldl vs (maxAcc a r).init
  have h3 : ∀ v ∈ vs, (maxAcc a r).init ≤ v := fun v h => ((fits_iff a v).1 (hv v h)).1
  refine ⟨?_, fun v h => h2 v (by simp [h])⟩
  rcases List.mem_cons.1 h1 with h | h
  · obtain ⟨v, vs, rfl⟩ := List.exists_cons_of_ne_nil hvs
    have e : v = List.foldl (fun s v => if s < v then v else s) (maxAcc a r).init (v :: vs) := by
      have h4 := h2 v (by simp)
      have h5 := h3 v (by simp)
      omega
    rw [← e]; simp
  · exact h

theorem min_addAllTo (a r : IntTy) (vs : List Int) (hvs : vs ≠ []) (hv : ∀ v ∈ vs, Fits a v) :
    ∃ m, addAllTo (minAcc a r) vs = some m ∧ IsMin vs m := by
  refine ⟨_, (minAcc_pure a r).addAllTo vs hv, ?_⟩
  obtain ⟨h1, h2⟩ := min_foldl vs (minAcc a r).init
  have h3 : ∀ v ∈ vs, v ≤ (minAcc a r).init := fun v h => ((fits_iff a v).1 (hv v h)).2
  refine ⟨?_, fun v h => h2 v (by simp [h])⟩
  rcases List.mem_cons.1 h1 with h | h
  · obtain ⟨v, vs, rfl⟩ := List.exists_cons_of_ne_nil hvs
    have e : v = List.foldl (fun s v => if v < s then v else s) (minAcc a r).init (v :: vs) := by
      have h4 := h2 v (by simp)
      have h5 := h3 v (by simp)
      omega
    rw [← e]; simp
  · exact h

theorem range_addAllTo (a r : IntTy) (vs : List Int) (hvs : vs ≠ []) (hv : ∀ v ∈ vs, Fits a v) :
    ∃ x y, addAllTo (rangeAcc a r) vs = some (x, y) ∧ IsMin vs x ∧ IsMax vs y := by
  obtain ⟨x, hx, hx'⟩ := min_addAllTo a r vs hvs hv
  obtain ⟨y, hy, hy'⟩ := max_addAllTo a r vs hvs hv
  refine ⟨x, y, ?_, hx', hy'⟩
  rw [(minAcc_pure a r).addAllTo vs hv] at hx
  rw [(maxAcc_pure a r).addAllTo vs hv] at hy
  rw [(rangeAcc_pure a r).addAllTo vs hv,
    range_foldl (f := fun s v => if v < s then v else s) (g := fun s v => if s < v then v else s)]
  have hx := Option.some.inj hx
  have hy := Option.some.inj hy
  exact congrArg some (Prod.ext hx hy)

theorem IsMax.unique {vs vs' : List Int} (h : List.Perm vs vs') {m m' : Int} (hm : IsMax vs m)
    (hm' : IsMax vs' m') : m = m' := by
  have h1 := hm'.2 m (h.mem_iff.1 hm.1)
  have h2 := hm.2 m' (h.mem_iff.2 hm'.1)
  omega

theorem IsMin.unique {vs vs' : List Int} (h : List.Perm vs vs') {m m' : Int} (hm : IsMin vs m)
    (hm' : IsMin vs' m') : m = m' := by
  have h1 := hm'.2 m (h.mem_iff.1 hm.1)
  have h2 := hm.2 m' (h.mem_iff.2 hm'.1)
  omega

/-! ### Median -/

theorem medianAcc_foldl (vs s : List Int) : vs.foldl (fun s v => s ++ [v]) s = s ++ vs := by
  induction vs generalizing s with
  | nil => simp
  | cons v vs ih => simp [ih]

theorem medianAcc_pure (a r : IntTy) :
    PureAccumulator (medianAcc a r) (fun _ => True) (fun _ => True) (fun s v => s ++ [v])
      (fun s s' => s ++ s') where
  init := trivial
  step _ _ _ _ := trivial
  add _ _ _ _ := rfl
  merge _ _ _ _ := rfl
  hom s vs _ _ := by rw [medianAcc_foldl, medianAcc_foldl]; rfl

theorem median_addAllTo (a r : IntTy) (vs : List Int) : addAllTo (medianAcc a r) vs = some vs := by
  rw [(medianAcc_pure a r).addAllTo vs (fun _ _ => trivial), medianAcc_foldl]; rfl

theorem mergeSort_sorted (vs : List Int) : SortedValues vs vs.mergeSort :=
  ⟨List.mergeSort_perm _ _, by
    have := List.pairwise_mergeSort (le := fun a b : Int => decide (a ≤ b))
      (by intro a b c; simp; omega) (by intro a b; simp; omega) vs
    exact this.imp (by simp)⟩

theorem sortedValues_unique {vs vs' l l' : List Int} (h : List.Perm vs vs') (hl : SortedValues vs l)
    (hl' : SortedValues vs' l') : l = l' :=
  List.Perm.eq_of_pairwise (fun a b _ _ h1 h2 => by omega) hl.2 hl'.2
    ((hl.1.trans h).trans hl'.1.symm)

end Fern
