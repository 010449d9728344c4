import Verif.Lemmas.Vector
/-
The steps of the Laplacian and of the Lax average, cell by cell.
-/
namespace Fern

open Spec

variable {F : Type}

theorem markPolicy_val {R : Type} {mark : Bool} {c c' : Cell R} (h : Marked (markPolicy R mark) c c') :
    c' = ⟨c.val, c.masked || mark⟩ := by
  cases mark with
  | false => simpa [markPolicy, Marked] using h
  | true =>
    obtain ⟨h1, h2⟩ := h
    cases c'
    simp_all

theorem vectorArgs_ok (n : NumOps F) {rows cols : Nat} {source : List F} {inp : InPolicy F}
    (hs : source.length = rows * cols) (hp : PolicyFor inp (rows * cols)) (hr : 2 ≤ rows)
    (hc : 2 ≤ cols) : ArgsOk (vectorArgs n rows cols source inp) :=
  ⟨hs, hp, by simp [vectorArgs, vectorKernel], by simpa [vectorArgs] using hr,
    by simpa [vectorArgs] using hc⟩

theorem gives_assert {b : Bool} (h : b = true) : Gives (.one (assert' b)) () :=
  Gives.one (by simp [assert', h])

theorem cell_index {rows cols k : Nat} (hk : k < rows * cols) :
    ∃ i < rows, ∃ j < cols, k = i * cols + j := by
  have hc : 0 < cols := by
    rcases Nat.eq_zero_or_pos cols with h | h
    · rw [h] at hk; simp at hk
    · exact h
  exact ⟨k / cols, (Nat.div_lt_iff_lt_mul hc).2 hk, k % cols, Nat.mod_lt _ hc,
    by rw [Nat.mul_comm]; exact (Nat.div_add_mod k cols).symm⟩

/-- What happens to one cell in the Laplacian. `l`: the valid neighbours. -/
structure LaplacianSteps (n : NumOps F) (mark : Bool) (area v : F) (nd : Prop) (l : List (F × Int))
    (c c1 s u c3 c' : Cell F) : Prop where
  sum : ConvolvedCell (n.convOps true false) (markPolicy F mark) nd
    (l.map (fun vw => (vw.1, n.ofInt vw.2))) c c1
  weights : ConvolvedCell (n.convOps false false) (markPolicy F mark) nd
    (l.map (fun vw => (n.ofInt 1, n.ofInt vw.2))) ⟨n.ofInt 0, c1.masked⟩ s
  product : LocalCell n.mulOp (markPolicy F mark) nd (s.val, v) ⟨n.ofInt 0, false⟩ u
  difference : LocalCell n.subOp (markPolicy F mark) (s.masked = true ∨ u.masked = true)
    (c1.val, u.val) ⟨c1.val, s.masked⟩ c3
  quotient : LocalCell n.divOp (markPolicy F mark) (c3.masked = true) (c3.val, area) c3 c'

theorem convolvedCell_congr {V W A R : Type} {ops : ConvolveOps V W A R} {outp : OutPolicy R}
    {p q : Prop} {l : List (V × W)} {c c' : Cell R} (h : p ↔ q)
    (hc : ConvolvedCell ops outp p l c c') : ConvolvedCell ops outp q l c c' := by
  rw [← propext h]; exact hc

theorem map_val_get {R : Type} {l : List (Cell R)} {k : Nat} {c : Cell R} (h : l[k]? = some c) :
    (l.map Cell.val)[k]? = some c.val := by simp [h]

/-- All runs of the Laplacian give the same raster; its cells are obtained step by step. -/
theorem laplacian_steps {n : NumOps F} {at20 : F → Bool} (hn : SmallInts n at20) (rows cols : Nat)
    (hrows : 2 ≤ rows) (hcols : 2 ≤ cols) (value : List F) (hv : value.length = rows * cols)
    (inp : InPolicy F) (hp : PolicyFor inp (rows * cols)) (mark : Bool) (area : F)
    (result : List (Cell F)) (hres : result.length = rows * cols) :
    ∃ out, (∀ m : Execution, m.Ok → Gives (laplacian n at20 m (rows, cols) value inp mark area
        (rows, cols) result) out) ∧ out.length = rows * cols ∧
      ∀ i < rows, ∀ j < cols, ∃ v c c1 s u c3 c', value[i * cols + j]? = some v ∧
        result[i * cols + j]? = some c ∧ out[i * cols + j]? = some c' ∧
        LaplacianSteps n mark area v (NoDataAt inp value (i * cols + j))
          (vectorNeighbours rows cols inp value i j) c c1 s u c3 c' := by
  -- convolution of the values
  obtain ⟨r1, g1, len1, cell1⟩ := gives_convolve (n.convOps true false) true (markPolicy F mark)
    (vectorArgs_ok n hv hp hrows hcols) hres
  -- valid cells
  obtain ⟨df, g2, len2, cell2⟩ := gives_defined inp value rows cols
    (freshCells 0 (rows * cols)) hv (by simp [freshCells]) hp
  have len2' : df.length = rows * cols := by rw [len2]; simp [freshCells]
  obtain ⟨fl, g3, len3, cell3⟩ := gives_unary (totalOp n.ofInt) .skip .dontMark rows cols
    (df.map Cell.val) (freshCells (n.ofInt 0) (rows * cols)) (by simp [len2'])
    (by simp [freshCells]) trivial
  have len3' : (fl.map Cell.val).length = rows * cols := by
    rw [List.length_map, len3]; simp [freshCells]
  have hones : ∀ k < value.length, ¬ NoDataAt inp value k →
      (fl.map Cell.val)[k]? = some (n.ofInt 1) := by
    intro k hk hnd
    rw [hv] at hk
    obtain ⟨d, hd, hdef⟩ := cell2 k ⟨0, false⟩ (by simp [freshCells, List.getElem?_replicate, hk])
    obtain ⟨f, hf, hfl⟩ := cell3 k ⟨n.ofInt 0, false⟩
      (by simp [freshCells, List.getElem?_replicate, hk])
    have := (hfl d.val (map_val_get hd)).ok (by simp [NoDataAt]) rfl rfl
    rw [map_val_get hf, this]
    have hd1 : d.val = 1 := hdef.2.2 hnd
    simp [totalOp, hd1]
  -- convolution of those
  obtain ⟨sw, g4, len4, cell4⟩ := gives_convolve (n.convOps false false) true (markPolicy F mark)
    (vectorArgs_ok n len3' (policyFor_boundTo hp hv) hrows hcols)
    (res := r1.map fun c => ⟨n.ofInt 0, c.masked⟩) (by rw [List.length_map, len1]; exact hres)
  have len1' : r1.length = rows * cols := len1.trans hres
  have len4' : sw.length = rows * cols := by rw [len4, List.length_map, len1']
  have hnb : ∀ i j, vectorNeighbours rows cols (inp.boundTo value) (fl.map Cell.val) i j =
      (vectorNeighbours rows cols inp value i j).map (fun vw => (n.ofInt 1, vw.2)) :=
    vectorNeighbours_ones n rows cols inp (inp.boundTo value) value (fl.map Cell.val)
      (by rw [len3', hv]) (fun k => noDataAt_boundTo inp value _ k) hones
  have hweights : ∀ i < rows, ∀ j < cols, ∃ c1 s, r1[i * cols + j]? = some c1 ∧
      sw[i * cols + j]? = some s ∧ ConvolvedCell (n.convOps false false) (markPolicy F mark)
        (NoDataAt inp value (i * cols + j))
        ((vectorNeighbours rows cols inp value i j).map (fun vw => (n.ofInt 1, n.ofInt vw.2)))
        ⟨n.ofInt 0, c1.masked⟩ s := by
    intro i hi j hj
    obtain ⟨c, s, hc, hs, h⟩ := cell4 i hi j hj
    have hc' : (r1.map fun c => (⟨n.ofInt 0, c.masked⟩ : Cell F))[i * cols + j]? = some c := hc
    rw [List.getElem?_map] at hc'
    obtain ⟨c1, hc1, e⟩ := Option.map_eq_some_iff.1 hc'
    refine ⟨c1, s, hc1, hs, ?_⟩
    rw [← e] at h
    have e2 := neighbourhood_vector hn rows cols (inp.boundTo value) (fl.map Cell.val) i j
    rw [hnb, List.map_map] at e2
    have h' : ConvolvedCell (n.convOps false false) (markPolicy F mark)
      (true = true ∧ NoDataAt (inp.boundTo value) (fl.map Cell.val) (i * cols + j))
      ((neighbourhood (vectorArgs n rows cols (fl.map Cell.val) (inp.boundTo value)) i j).filter
        (fun vw => !n.isZero vw.2)) ⟨n.ofInt 0, c1.masked⟩ s := h
    rw [e2] at h'
    exact convolvedCell_congr (by rw [noDataAt_boundTo]; simp) h'
  -- the assertion
  have hall : (sw.all fun c => at20 c.val) = true := by
    rw [List.all_eq_true]
    intro s hs
    obtain ⟨k, hk, e⟩ := List.mem_iff_getElem.1 hs
    obtain ⟨i, hi, j, hj, rfl⟩ := cell_index (by rw [← len4']; exact hk)
    obtain ⟨c1, s', -, hs', h⟩ := hweights i hi j hj
    have : s' = s := by
      rw [List.getElem?_eq_getElem hk] at hs'
      rw [← e]; exact (Option.some.inj hs').symm
    subst this
    have hfk := vectorNeighbours_fromKernel rows cols inp value i j
    have hz := hn.atMost 0 (by omega) (by omega)
    by_cases hnd : NoDataAt inp value (i * cols + j)
    · rw [markPolicy_val (h.kept hnd)]; exact hz
    · by_cases hl : vectorNeighbours rows cols inp value i j = []
      · rw [markPolicy_val (h.nothing hnd (by simp [hl]))]; exact hz
      · rw [h.ok hnd (by simp [hl]) (by simp [NumOps.convOps])]
        have e1 := sums_weighted n false false
          ((vectorNeighbours rows cols inp value i j).map (fun vw => (n.ofInt 1, vw.2)))
        rw [weightedSum_ones hn hfk, List.map_map] at e1
        have e2 : (n.convOps false false).normalize (sums (n.convOps false false)
            ((vectorNeighbours rows cols inp value i j).map (fun vw => (n.ofInt 1, n.ofInt vw.2)))) =
            n.ofInt (weightSum (vectorNeighbours rows cols inp value i j)) := e1
        simp only [e2]
        exact hn.atMost _ (weightSum_nonneg hfk.1) hfk.2
  -- product, difference, quotient
  obtain ⟨mv, g5, len5, cell5⟩ := gives_binary n.mulOp .skip inp (markPolicy F mark) rows cols
    (sw.map Cell.val) value (freshCells (n.ofInt 0) (rows * cols)) (by simp [len4']) hv
    (by simp [freshCells]) trivial hp
  have len5' : mv.length = rows * cols := by rw [len5]; simp [freshCells]
  have lenz : (List.zipWith (fun c s => (⟨c.val, s.masked⟩ : Cell F)) r1 sw).length = rows * cols := by
    rw [List.length_zipWith, len1', len4', Nat.min_self]
  obtain ⟨r3, g6, len6, cell6⟩ := gives_own_binary n.subOp (p1 := .ownMask)
    (p2 := .bound (cellMaskPolicy mv) (mv.map Cell.val)) (markPolicy F mark) (x1 := .own)
    (x2 := .array (mv.map Cell.val)) rows cols trivial
    ⟨by simp [len5'], by have := policyFor_cellMaskPolicy mv; rwa [len5'] at this⟩ trivial
    (show (mv.map Cell.val).length = rows * cols by simp [len5'])
    (List.zipWith (fun c s => (⟨c.val, s.masked⟩ : Cell F)) r1 sw) lenz (fun _ _ => rfl)
  have len6' : r3.length = rows * cols := len6.trans lenz
  obtain ⟨out, g7, len7, cell7⟩ := gives_own_binary n.divOp (p1 := .ownMask) (p2 := .number false)
    (markPolicy F mark) (x1 := .own) (x2 := .scalar area) rows cols trivial trivial trivial trivial
    r3 len6' (fun _ _ => rfl)
  refine ⟨out, fun m hm => ?_, len7.trans len6', fun i hi j hj => ?_⟩
  · unfold laplacian
    refine Gives.andThen (gives_assert (by simp)) ?_
    refine Gives.andThen (gives_assert (by simp)) ?_
    refine Gives.andThen (g1 m hm) ?_
    refine Gives.andThen (g2 m hm) ?_
    refine Gives.andThen (g3 m hm) ?_
    refine Gives.andThen (g4 m hm) ?_
    refine Gives.andThen (gives_assert hall) ?_
    refine Gives.andThen (g5 m hm) ?_
    refine Gives.andThen (g6 m hm) ?_
    exact g7 m hm
  · have hk : i * cols + j < rows * cols := rowMajor_lt hi hj
    obtain ⟨c, c1, hc, hc1, hconv⟩ := cell1 i hi j hj
    obtain ⟨c1', s, hc1', hs, hw⟩ := hweights i hi j hj
    have e : c1' = c1 := Option.some.inj (hc1'.symm.trans hc1)
    subst e
    have hvk : value[i * cols + j]? = some value[i * cols + j] := List.getElem?_eq_getElem (by omega)
    obtain ⟨u, hu, hmul⟩ := cell5 (i * cols + j) ⟨n.ofInt 0, false⟩
      (by simp [freshCells, List.getElem?_replicate, hk])
    have hmul := hmul s.val _ (map_val_get hs) hvk
    have hz : (List.zipWith (fun c s => (⟨c.val, s.masked⟩ : Cell F)) r1 sw)[i * cols + j]? =
        some ⟨c1'.val, s.masked⟩ := by
      have hc1'' : r1[i * cols + j]? = some c1' := hc1
      rw [List.getElem?_zipWith, hc1'', hs]
    obtain ⟨c3, hc3, hsub⟩ := cell6 _ _ hz
    have hsub := hsub c1'.val u.val ⟨_, hz, rfl⟩ (map_val_get hu)
    obtain ⟨c', hc', hdiv⟩ := cell7 _ _ hc3
    have hdiv := hdiv c3.val area ⟨_, hc3, rfl⟩ rfl
    refine ⟨value[i * cols + j], c, c1', s, u, c3, c', hvk, hc, hc', ?_, hw, ?_, ?_, ?_⟩
    · have h' : ConvolvedCell (n.convOps true false) (markPolicy F mark)
        (true = true ∧ NoDataAt inp value (i * cols + j))
        ((neighbourhood (vectorArgs n rows cols value inp) i j).filter
          (fun vw => !n.isZero vw.2)) c c1' := hconv
      rw [neighbourhood_vector hn] at h'
      exact convolvedCell_congr (by simp) h'
    · exact localCell_congr (by simp [NoDataAt]) hmul
    · refine localCell_congr ?_ hsub
      simp [NoDataBefore, hz, noDataAt_cellMaskPolicy, hu]
    · refine localCell_congr ?_ hdiv
      simp [NoDataBefore, hc3]

/-- What happens to one cell in the Lax average. -/
structure LaxSteps (n : NumOps F) (mark : Bool) (fraction oneMinus v : F) (nd : Prop)
    (l : List (F × Int)) (c c1 c2 u c' : Cell F) : Prop where
  mean : ConvolvedCell (n.convOps true true) (markPolicy F mark) nd
    (l.map (fun vw => (vw.1, n.ofInt vw.2))) c c1
  right : LocalCell n.mulOp (markPolicy F mark) nd (fraction, c1.val) c1 c2
  left : LocalCell n.mulOp (markPolicy F mark) nd (oneMinus, v) ⟨n.ofInt 0, c2.masked⟩ u
  sum : LocalCell n.addOp (markPolicy F mark) nd (u.val, c2.val) ⟨c2.val, u.masked⟩ c'

/-- All runs of the Lax average give the same raster; its cells are obtained step by step. -/
theorem lax_steps {n : NumOps F} {at20 : F → Bool} (hn : SmallInts n at20) (rows cols : Nat)
    (hrows : 2 ≤ rows) (hcols : 2 ≤ cols) (value : List F) (hv : value.length = rows * cols)
    (inp : InPolicy F) (hp : PolicyFor inp (rows * cols)) (mark : Bool) (fraction oneMinus : F)
    (result : List (Cell F)) (hres : result.length = rows * cols) :
    ∃ out, (∀ m : Execution, m.Ok → Gives (lax n m (rows, cols) value inp mark fraction oneMinus
        (rows, cols) result) out) ∧ out.length = rows * cols ∧
      ∀ i < rows, ∀ j < cols, ∃ v c c1 c2 u c', value[i * cols + j]? = some v ∧
        result[i * cols + j]? = some c ∧ out[i * cols + j]? = some c' ∧
        LaxSteps n mark fraction oneMinus v (NoDataAt inp value (i * cols + j))
          (vectorNeighbours rows cols inp value i j) c c1 c2 u c' := by
  obtain ⟨r1, g1, len1, cell1⟩ := gives_convolve (n.convOps true true) true (markPolicy F mark)
    (vectorArgs_ok n hv hp hrows hcols) hres
  have len1' : r1.length = rows * cols := len1.trans hres
  obtain ⟨r2, g2, len2, cell2⟩ := gives_own_binary n.mulOp (p1 := .number false)
    (p2 := .bound inp value) (markPolicy F mark) (x1 := .scalar fraction) (x2 := .own) rows cols
    trivial ⟨hv, hp⟩ trivial trivial r1 len1' (fun _ _ => rfl)
  have len2' : r2.length = rows * cols := len2.trans len1'
  obtain ⟨mv, g3, len3, cell3⟩ := gives_binary_0d2d n.mulOp .skip inp (markPolicy F mark) rows cols
    oneMinus value (r2.map fun c => ⟨n.ofInt 0, c.masked⟩) hv (by simp [len2']) trivial hp
  have len3' : mv.length = rows * cols := by rw [len3, List.length_map, len2']
  have lenz : (List.zipWith (fun c s => (⟨c.val, s.masked⟩ : Cell F)) r2 mv).length = rows * cols := by
    rw [List.length_zipWith, len2', len3', Nat.min_self]
  obtain ⟨out, g4, len4, cell4⟩ := gives_own_binary n.addOp (p1 := .number false)
    (p2 := .bound inp value) (markPolicy F mark) (x1 := .array (mv.map Cell.val)) (x2 := .own)
    rows cols trivial ⟨hv, hp⟩ (show (mv.map Cell.val).length = rows * cols by simp [len3']) trivial
    (List.zipWith (fun c s => (⟨c.val, s.masked⟩ : Cell F)) r2 mv) lenz (fun _ _ => rfl)
  refine ⟨out, fun m hm => ?_, len4.trans lenz, fun i hi j hj => ?_⟩
  · unfold lax
    refine Gives.andThen (gives_assert (by simp)) ?_
    refine Gives.andThen (gives_assert (by simp)) ?_
    refine Gives.andThen (g1 m hm) ?_
    refine Gives.andThen (g2 m hm) ?_
    refine Gives.andThen (g3 m hm) ?_
    exact g4 m hm
  · have hk : i * cols + j < rows * cols := rowMajor_lt hi hj
    obtain ⟨c, c1, hc, hc1, hconv⟩ := cell1 i hi j hj
    have hc1' : r1[i * cols + j]? = some c1 := hc1
    have hvk : value[i * cols + j]? = some value[i * cols + j] := List.getElem?_eq_getElem (by omega)
    obtain ⟨c2, hc2, hmul⟩ := cell2 _ _ hc1'
    have hmul := hmul fraction c1.val rfl ⟨_, hc1', rfl⟩
    obtain ⟨u, hu, hmul2⟩ := cell3 (i * cols + j) ⟨n.ofInt 0, c2.masked⟩ (by simp [hc2])
    have hmul2 := hmul2 _ hvk
    have hz : (List.zipWith (fun c s => (⟨c.val, s.masked⟩ : Cell F)) r2 mv)[i * cols + j]? =
        some ⟨c2.val, u.masked⟩ := by
      rw [List.getElem?_zipWith, hc2, hu]
    obtain ⟨c', hc', hadd⟩ := cell4 _ _ hz
    have hadd := hadd u.val c2.val (map_val_get hu) ⟨_, hz, rfl⟩
    refine ⟨value[i * cols + j], c, c1, c2, u, c', hvk, hc, hc', ?_, ?_, ?_, ?_⟩
    · have h' : ConvolvedCell (n.convOps true true) (markPolicy F mark)
        (true = true ∧ NoDataAt inp value (i * cols + j))
        ((neighbourhood (vectorArgs n rows cols value inp) i j).filter
          (fun vw => !n.isZero vw.2)) c c1 := hconv
      rw [neighbourhood_vector hn] at h'
      exact convolvedCell_congr (by simp) h'
    · exact localCell_congr (by simp [NoDataBefore]) hmul
    · exact localCell_congr (by simp [NoDataAt]) hmul2
    · exact localCell_congr (by simp [NoDataBefore]) hadd

end Fern
