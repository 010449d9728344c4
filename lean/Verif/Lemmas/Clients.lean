import Verif.Spec.Clients
import Mathlib.Data.List.Nodup
import Mathlib.Data.List.Induction

/-!
# Lemmas about clients of libraries
-/

namespace Fern.Clients

open Spec

theorem lookup_cons' {A : Type} (n a : Str) (b : A) (d : List (Str × A)) :
    ((a, b) :: d).lookup n = if n = a then some b else d.lookup n := by
  rw [List.lookup_cons]
  by_cases h : n = a
  · subst h; simp
  · rw [if_neg h, beq_eq_false_iff_ne.2 h]

theorem lookup_eraseName (d : List (Str × Option Nat)) (n m : Str) :
    (eraseName d n).lookup m = if m = n then none else d.lookup m := by
  induction d with
  | nil => simp [eraseName]
  | cons x d ih =>
    obtain ⟨a, b⟩ := x
    rw [eraseName] at ih ⊢
    by_cases h : a = n
    · subst h
      rw [List.filter_cons_of_neg (by simp), ih]
      by_cases hm : m = a
      · rw [if_pos hm, if_pos hm]
      · rw [if_neg hm, if_neg hm, lookup_cons']
        simp [hm]
    · rw [List.filter_cons_of_pos (by simpa using h), lookup_cons', lookup_cons', ih]
      by_cases hm : m = a
      · subst hm; simp [h]
      · simp [hm]

theorem lookup_filter (d : List (Str × Nat)) (n m : Str) :
    (d.filter fun x => x.1 != n).lookup m = if m = n then none else d.lookup m := by
  induction d with
  | nil => simp
  | cons x d ih =>
    obtain ⟨a, b⟩ := x
    by_cases h : a = n
    · subst h
      rw [List.filter_cons_of_neg (by simp), ih]
      by_cases hm : m = a
      · rw [if_pos hm, if_pos hm]
      · rw [if_neg hm, if_neg hm, lookup_cons']
        simp [hm]
    · rw [List.filter_cons_of_pos (by simpa using h), lookup_cons', lookup_cons', ih]
      by_cases hm : m = a
      · subst hm; simp [h]
      · simp [hm]

theorem lookup_isSome (d : List (Str × Nat)) (n : Str) : (d.lookup n).isSome ↔ n ∈ d.map Prod.fst := by
  induction d with
  | nil => simp
  | cons x d ih =>
    obtain ⟨a, b⟩ := x
    rw [lookup_cons', List.map_cons, List.mem_cons, ← ih]
    by_cases h : n = a <;> simp [h]

theorem lookup_mem {d : List (Str × Nat)} (h : (d.map Prod.fst).Nodup) (n : Str) (o : Nat) :
    d.lookup n = some o ↔ (n, o) ∈ d := by
  induction d with
  | nil => simp
  | cons x d ih =>
    obtain ⟨a, b⟩ := x
    rw [List.map_cons, List.nodup_cons] at h
    rw [lookup_cons', List.mem_cons]
    by_cases hn : n = a
    · subst hn
      simp only [if_true, Option.some.injEq, Prod.mk.injEq, true_and]
      exact ⟨fun e => Or.inl e.symm, fun e => e.elim Eq.symm fun hm =>
        absurd (List.mem_map_of_mem (f := Prod.fst) hm) h.1⟩
    · simp [hn, ih h.2]

theorem insertDrivers_spec : ∀ (l : List (Str × Nat)) (d : List (Str × Option Nat)), (l.map Prod.fst).Nodup →
    (∀ n ∈ l.map Prod.fst, d.lookup n = none) →
    ∃ d', insertDrivers l d = some d' ∧ ∀ n, d'.lookup n = (d.lookup n).or ((l.lookup n).map some)
  | [], d, _, _ => ⟨d, rfl, fun n => by simp⟩
  | (a, o) :: l, d, hn, hd => by
    rw [List.map_cons, List.nodup_cons] at hn
    have ha : d.lookup a = none := hd a List.mem_cons_self
    obtain ⟨d', h1, h2⟩ := insertDrivers_spec l (d ++ [(a, some o)]) hn.2 (by
      intro n hm
      rw [List.lookup_append, hd n (List.mem_cons_of_mem _ hm), lookup_cons']
      have : n ≠ a := fun e => hn.1 (e ▸ hm)
      simp [this])
    refine ⟨d', ?_, fun n => ?_⟩
    · rw [insertDrivers, hasDriver, ha]
      exact h1
    · rw [h2, List.lookup_append, lookup_cons', lookup_cons']
      by_cases h : n = a
      · subst h; simp [ha]
      · simp [h]

theorem deregisterAll_spec : ∀ (l : List (Str × Nat)) (d : List (Str × Option Nat)), (l.map Prod.fst).Nodup →
    (∀ n ∈ l.map Prod.fst, (d.lookup n).isSome) →
    ∃ d', deregisterAll l d = some d' ∧ ∀ n, d'.lookup n = if n ∈ l.map Prod.fst then none else d.lookup n
  | [], d, _, _ => ⟨d, rfl, fun n => by simp⟩
  | (a, o) :: l, d, hn, hd => by
    rw [List.map_cons, List.nodup_cons] at hn
    have ha : (d.lookup a).isSome := hd a List.mem_cons_self
    obtain ⟨d', h1, h2⟩ := deregisterAll_spec l (eraseName d a) hn.2 (by
      intro n hm
      have : n ≠ a := fun e => hn.1 (e ▸ hm)
      rw [lookup_eraseName, if_neg this]
      exact hd n (List.mem_cons_of_mem _ hm))
    refine ⟨d', ?_, fun n => ?_⟩
    · rw [deregisterAll, hasDriver, if_pos ha]
      exact h1
    · rw [h2, lookup_eraseName]
      by_cases h : n = a
      · subst h; simp
      · simp only [List.map_cons, List.mem_cons, h, false_or, if_false]

/-- The world with other drivers in GDAL. -/
def World.with' (w : World) (r : List (Str × Nat)) (k : Nat) : World := { w with registered := r, nextObject := k }

theorem allRegister_spec (w : World) : ∀ (l : List Str) (r : List (Str × Nat)) (k : Nat), (r.map Prod.fst).Nodup →
    ∃ r' k', allRegister l (w.with' r k) = w.with' r' k' ∧ (r'.map Prod.fst).Nodup ∧
      (∀ n, n ∈ r'.map Prod.fst ↔ n ∈ r.map Prod.fst ∨ n ∈ l) ∧
      ∀ n ∈ r.map Prod.fst, r'.lookup n = r.lookup n
  | [], r, k, h => ⟨r, k, rfl, h, fun n => by simp, fun n _ => rfl⟩
  | a :: l, r, k, h => by
    rw [allRegister, List.foldl_cons]
    by_cases ha : (r.lookup a).isSome
    · rw [if_pos (show ((w.with' r k).registered.lookup a).isSome from ha)]
      obtain ⟨r', k', h1, h2, h3, h4⟩ := allRegister_spec w l r k h
      refine ⟨r', k', h1, h2, fun n => ?_, h4⟩
      rw [h3, List.mem_cons]
      have := (lookup_isSome r a).1 ha
      constructor
      · rintro (h | h) <;> simp [h]
      · rintro (h | rfl | h)
        · exact Or.inl h
        · exact Or.inl this
        · exact Or.inr h
    · rw [if_neg (show ¬ ((w.with' r k).registered.lookup a).isSome from ha)]
      have ha' : a ∉ r.map Prod.fst := fun hm => ha ((lookup_isSome r a).2 hm)
      obtain ⟨r', k', h1, h2, h3, h4⟩ := allRegister_spec w l (r ++ [(a, k)]) (k + 1) (by
        rw [List.map_append, List.nodup_append]
        refine ⟨h, by simp, ?_⟩
        intro x hx y hy e
        rw [List.map_singleton, List.mem_singleton] at hy
        have hxa : x = a := e.trans hy
        exact ha' (hxa ▸ hx))
      refine ⟨r', k', h1, h2, fun n => ?_, fun n hn => ?_⟩
      · rw [h3, List.map_append, List.mem_append, List.mem_cons]
        simp [or_assoc]
      · rw [h4 n (by rw [List.map_append]; exact List.mem_append_left _ hn), List.lookup_append]
        have := (lookup_isSome r n).2 hn
        obtain ⟨x, hx⟩ := Option.isSome_iff_exists.1 this
        rw [hx]; rfl

/-- The world with other drivers. -/
def World.with2 (w : World) (d : List (Str × Option Nat)) (r : List (Str × Nat)) : World :=
  { w with drivers := d, registered := r }

theorem eraseDrivers_spec (w : World) : ∀ (l : List Str) (d : List (Str × Option Nat)) (r : List (Str × Nat)),
    l.Nodup → (r.map Prod.fst).Nodup → (∀ n ∈ l, (d.lookup n).isSome ∧ (r.lookup n).isSome) →
    ∃ d' r', l.foldlM eraseDriver (w.with2 d r) = some (w.with2 d' r') ∧ (r'.map Prod.fst).Nodup ∧
      (∀ n, d'.lookup n = if n ∈ l then none else d.lookup n) ∧
      ∀ n, r'.lookup n = if n ∈ l then none else r.lookup n
  | [], d, r, _, hr, _ => ⟨d, r, rfl, hr, fun n => by simp, fun n => by simp⟩
  | a :: l, d, r, hl, hr, h => by
    rw [List.nodup_cons] at hl
    obtain ⟨ha1, ha2⟩ := h a List.mem_cons_self
    have he : eraseDriver (w.with2 d r) a = some (w.with2 (eraseName d a) (r.filter fun x => x.1 != a)) := by
      rw [eraseDriver, if_pos (by simp only [hasDriver, World.with2, Bool.and_eq_true]; exact ⟨ha1, ha2⟩)]
      rfl
    obtain ⟨d', r', h1, h2, h3, h4⟩ := eraseDrivers_spec w l (eraseName d a) (r.filter fun x => x.1 != a) hl.2
      (hr.sublist (List.filter_sublist.map _)) (by
        intro n hn
        have : n ≠ a := fun e => hl.1 (e ▸ hn)
        rw [lookup_eraseName, lookup_filter, if_neg this, if_neg this]
        exact h n (List.mem_cons_of_mem _ hn))
    refine ⟨d', r', ?_, h2, fun n => ?_, fun n => ?_⟩
    · rw [List.foldlM_cons, he]
      exact h1
    · rw [h3, lookup_eraseName]
      by_cases e : n = a
      · subst e; simp
      · simp [e]
    · rw [h4, lookup_filter]
      by_cases e : n = a
      · subst e; simp
      · simp [e]

/-! ### What holds after each event -/

/-- The numbers of objects that use the libraries. -/
structure Users where
  hdf5 : Nat
  fern : Nat
  gdal : Nat
  fileGdal : Nat
  python : Nat
  ogr : Nat

/-- The state of the world with given numbers of users. -/
structure Inv (L : Library) (c : Users) (w : World) : Prop where
  hdf5 : w.hdf5Count = c.hdf5
  hdf5Open : w.hdf5Open = decide (0 < w.hdf5Count)
  fern : w.fernCount = c.fern
  gdal : w.gdalCount = c.gdal
  fileGdal : w.fileGdalCount = c.fileGdal
  python : w.pythonCount = c.python
  initialised : w.pythonInitialised = decide (0 < c.python)
  ogr : w.ogrRegistered = decide (0 < c.ogr)
  apart : w.gdalCount = 0 ∨ w.fileGdalCount = 0
  skipped : w.gdalCount = 0 → w.skipped = []
  drivers : ∀ n, w.drivers.lookup n =
    if n = fernName then (if 0 < w.fernCount then some none else none)
    else if 0 < w.gdalCount then (w.registered.lookup n).map some else none
  unregistered : w.gdalCount = 0 → w.fileGdalCount = 0 → w.registered = []
  nodup : (w.registered.map Prod.fst).Nodup
  names : 0 < w.gdalCount → ∀ n, n ∈ w.registered.map Prod.fst ↔ n ∈ L.available ∧ n ∉ L.buggy
  names' : 0 < w.fileGdalCount → ∀ n, n ∈ w.registered.map Prod.fst ↔ n ∈ L.available

variable {L : Library} {c : Users} {w : World}

/-- The parts of the world that matter for the drivers of GDAL. -/
theorem createGdal_inv (hL : Library.Fine L) (h : Inv L c w) (hf : w.fileGdalCount = 0) (k : Nat)
    (hk : k = w.gdalCount + 1) : ∃ s d r o, createGdal L w = some { w with
      gdalCount := k, skipped := s, drivers := d, registered := r, nextObject := o } ∧
    (r.map Prod.fst).Nodup ∧ (∀ n, n ∈ r.map Prod.fst ↔ n ∈ L.available ∧ n ∉ L.buggy) ∧
    (∀ n, d.lookup n = if n = fernName then (if 0 < w.fernCount then some none else none)
      else (r.lookup n).map some) := by
  subst hk
  by_cases h0 : w.gdalCount = 0
  · have hr : w.registered = [] := h.unregistered h0 hf
    have hs : w.skipped = [] := h.skipped h0
    have hd : ∀ n, w.drivers.lookup n = if n = fernName ∧ 0 < w.fernCount then some none else none := by
      intro n
      rw [h.drivers]
      by_cases e : n = fernName <;> simp [e, h0]
    obtain ⟨r, o, h1, h2, h3, -⟩ := allRegister_spec { w with gdalCount := w.gdalCount + 1 } L.available [] w.nextObject
      (by simp)
    have h3' : ∀ n, n ∈ r.map Prod.fst ↔ n ∈ L.available := fun n => by rw [h3]; simp
    obtain ⟨d, h4, h5⟩ := insertDrivers_spec r w.drivers h2 (by
      intro n hn
      rw [hd, if_neg]
      rintro ⟨rfl, -⟩
      exact hL.other ((h3' _).1 hn))
    obtain ⟨d', r', h6, h7, h8, h9⟩ := eraseDrivers_spec
      { w with gdalCount := w.gdalCount + 1, nextObject := o,
               skipped := L.buggy.filter fun n => (r.lookup n).isSome }
      (L.buggy.filter fun n => (r.lookup n).isSome) d r (hL.buggy.sublist List.filter_sublist) h2 (by
        intro n hn
        have hm := (List.mem_filter.1 hn).2
        refine ⟨?_, hm⟩
        obtain ⟨x, hx⟩ := Option.isSome_iff_exists.1 hm
        rw [h5, hx]
        cases d.lookup n <;> cases w.drivers.lookup n <;> rfl)
    have hin : ∀ n, n ∈ (L.buggy.filter fun n => (r.lookup n).isSome) ↔ n ∈ L.buggy ∧ n ∈ L.available := by
      intro n
      rw [List.mem_filter, lookup_isSome, h3']
    refine ⟨L.buggy.filter fun n => (r.lookup n).isSome, d', r', o, ?_, h7, fun n => ?_, fun n => ?_⟩
    · rw [createGdal]
      simp only [h0]
      have e : allRegister L.available { w with gdalCount := 0 + 1 } =
          World.with' { w with gdalCount := w.gdalCount + 1 } r o := by
        rw [← h1, ← hr, h0]; rfl
      rw [e, if_pos trivial]
      simp only [World.with', h4, Option.bind_some, hs, List.nil_append]
      rw [h0] at h6
      simpa [World.with2, h0] using h6
    · rw [← lookup_isSome, h9]
      by_cases hb : n ∈ L.buggy
      · by_cases ha : n ∈ L.available
        · rw [if_pos ((hin n).2 ⟨hb, ha⟩)]; simp [hb]
        · rw [if_neg (fun k => ha ((hin n).1 k).2), lookup_isSome, h3']; simp [ha]
      · rw [if_neg (fun k => hb ((hin n).1 k).1), lookup_isSome, h3']; simp [hb]
    · rw [h8, h9, h5, hd]
      by_cases e : n = fernName
      · have : n ∉ (L.buggy.filter fun n => (r.lookup n).isSome) := fun k => hL.other (e ▸ ((hin n).1 k).2)
        have hn : r.lookup n = none := by
          have := mt (lookup_isSome r n).1 (fun k => hL.other (e ▸ (h3' n).1 k))
          simpa only [Bool.not_eq_true, Option.isSome_eq_false_iff, Option.isNone_iff_eq_none] using this
        rw [if_neg this, hn, if_pos e]
        simp [e]
      · rw [if_neg (show ¬ (n = fernName ∧ 0 < w.fernCount) from fun k => e k.1), if_neg e]
        split <;> simp
  · refine ⟨w.skipped, w.drivers, w.registered, w.nextObject, ?_, h.nodup, h.names (by omega), fun n => ?_⟩
    · rw [createGdal]
      simp only [Nat.add_eq_right, h0, if_false]
    · rw [h.drivers, if_pos (show 0 < w.gdalCount by omega)]

theorem destroyGdal_inv (hL : Library.Fine L) (h : Inv L c w) (hc : 0 < w.gdalCount) (k : Nat)
    (hk : k = w.gdalCount - 1) : ∃ s d r, destroyGdal w = some { w with
      gdalCount := k, skipped := s, drivers := d, registered := r } ∧
    (r.map Prod.fst).Nodup ∧ (0 < k → ∀ n, n ∈ r.map Prod.fst ↔ n ∈ L.available ∧ n ∉ L.buggy) ∧
    (k = 0 → r = [] ∧ s = []) ∧
    (∀ n, d.lookup n = if n = fernName then (if 0 < w.fernCount then some none else none)
      else if 0 < k then (r.lookup n).map some else none) := by
  subst hk
  by_cases h1 : w.gdalCount - 1 = 0
  · obtain ⟨d, h4, h5⟩ := deregisterAll_spec w.registered w.drivers h.nodup (by
      intro n hn
      have hne : n ≠ fernName := by
        rintro rfl
        exact hL.other ((h.names hc _).1 hn).1
      rw [h.drivers, if_neg hne, if_pos hc]
      have := (lookup_isSome _ _).2 hn
      obtain ⟨x, hx⟩ := Option.isSome_iff_exists.1 this
      rw [hx]; rfl)
    refine ⟨[], d, [], ?_, by simp, fun k => by omega, fun _ => ⟨rfl, rfl⟩, fun n => ?_⟩
    · rw [destroyGdal, if_neg (by omega)]
      simp only [h1, if_true, h4, Option.map_some]
    · rw [h5, h.drivers, if_pos hc, if_neg (show ¬ 0 < w.gdalCount - 1 by omega)]
      by_cases e : n = fernName
      · have : n ∉ w.registered.map Prod.fst := fun k => hL.other (e ▸ ((h.names hc _).1 k).1)
        rw [if_neg this, if_pos e, if_pos e]
      · rw [if_neg e, if_neg e]
        split
        · rfl
        · rename_i hn
          have := mt (lookup_isSome w.registered n).1 hn
          simp only [Bool.not_eq_true, Option.isSome_eq_false_iff, Option.isNone_iff_eq_none] at this
          rw [this]; rfl
  · refine ⟨w.skipped, w.drivers, w.registered, ?_, h.nodup, fun _ => h.names hc, fun k => absurd k h1, fun n => ?_⟩
    · rw [destroyGdal, if_neg (by omega)]
      simp only [h1, if_false]
    · rw [h.drivers, if_pos hc, if_pos (show 0 < w.gdalCount - 1 by omega)]

theorem inv_createHdf5 (h : Inv L c w) : Inv L { c with hdf5 := c.hdf5 + 1 } (createHdf5 w) := by
  have e : createHdf5 w = { w with hdf5Count := w.hdf5Count + 1, hdf5Open := true } := by
    rw [createHdf5]
    by_cases h0 : w.hdf5Count = 0
    · simp [h0]
    · have : w.hdf5Open = true := by rw [h.hdf5Open]; simp; omega
      simp only [Nat.add_eq_right, h0, if_false, ← this]
  rw [e]
  exact ⟨by simp [h.hdf5], by simp, h.fern, h.gdal, h.fileGdal, h.python, h.initialised, h.ogr, h.apart, h.skipped,
    h.drivers, h.unregistered, h.nodup, h.names, h.names'⟩

theorem inv_destroyHdf5 (h : Inv L c w) (hc : 0 < c.hdf5) : ∃ w', destroyHdf5 w = some w' ∧
    Inv L { c with hdf5 := c.hdf5 - 1 } w' := by
  have e : destroyHdf5 w = some { w with hdf5Count := w.hdf5Count - 1, hdf5Open := decide (0 < w.hdf5Count - 1) } := by
    rw [destroyHdf5, if_neg (by rw [h.hdf5]; omega)]
    by_cases h0 : w.hdf5Count - 1 = 0
    · simp [h0]
    · have : w.hdf5Open = true := by rw [h.hdf5Open]; simp; omega
      have h1 : decide (0 < w.hdf5Count - 1) = true := by simp; omega
      simp only [h0, if_false, h1, ← this]
  refine ⟨_, e, ?_⟩
  exact ⟨by simp [h.hdf5], by simp, h.fern, h.gdal, h.fileGdal, h.python, h.initialised, h.ogr, h.apart, h.skipped,
    h.drivers, h.unregistered, h.nodup, h.names, h.names'⟩

theorem not_fern (hL : Library.Fine L) (h : Inv L c w) : fernName ∉ w.registered.map Prod.fst := by
  intro k
  by_cases h1 : 0 < w.gdalCount
  · exact hL.other ((h.names h1 _).1 k).1
  · by_cases h2 : 0 < w.fileGdalCount
    · exact hL.other ((h.names' h2 _).1 k)
    · rw [h.unregistered (by omega) (by omega)] at k
      cases k

theorem inv_createFern (h : Inv L c w) : ∃ w', createFern w = some w' ∧
    Inv L { c with fern := c.fern + 1 } w' := by
  have key : ∃ d, createFern w = some { w with fernCount := w.fernCount + 1, drivers := d } ∧
      ∀ n, d.lookup n = if n = fernName then some none else w.drivers.lookup n := by
    rw [createFern]
    by_cases h0 : w.fernCount = 0
    · refine ⟨w.drivers ++ [(fernName, none)], ?_, fun n => ?_⟩
      · have : w.drivers.lookup fernName = none := by rw [h.drivers]; simp [h0]
        simp [h0, hasDriver, this]
      · rw [List.lookup_append, lookup_cons']
        by_cases e : n = fernName
        · subst e; rw [h.drivers]; simp [h0]
        · simp [e]
    · refine ⟨w.drivers, by simp [h0], fun n => ?_⟩
      by_cases e : n = fernName
      · subst e; rw [h.drivers, if_pos rfl, if_pos rfl, if_pos (by omega)]
      · rw [if_neg e]
  obtain ⟨d, e, hd⟩ := key
  refine ⟨_, e, h.hdf5, h.hdf5Open, by simp [h.fern], h.gdal, h.fileGdal, h.python, h.initialised, h.ogr, h.apart,
    h.skipped, fun n => ?_, h.unregistered, h.nodup, h.names, h.names'⟩
  show d.lookup n = _
  rw [hd, h.drivers]
  by_cases e : n = fernName <;> simp [e]

theorem inv_destroyFern (h : Inv L c w) (hc : 0 < c.fern) : ∃ w', destroyFern w = some w' ∧
    Inv L { c with fern := c.fern - 1 } w' := by
  have hw : 0 < w.fernCount := by rw [h.fern]; exact hc
  have key : ∃ d, destroyFern w = some { w with fernCount := w.fernCount - 1, drivers := d } ∧
      ∀ n, d.lookup n = if n = fernName then (if 0 < w.fernCount - 1 then some none else none)
        else w.drivers.lookup n := by
    rw [destroyFern, if_neg (by omega)]
    by_cases h0 : w.fernCount - 1 = 0
    · refine ⟨eraseName w.drivers fernName, ?_, fun n => ?_⟩
      · have : w.drivers.lookup fernName = some none := by rw [h.drivers]; simp [hw]
        simp [h0, hasDriver, this]
      · rw [lookup_eraseName]
        by_cases e : n = fernName <;> simp [e, h0]
    · refine ⟨w.drivers, by simp [h0], fun n => ?_⟩
      by_cases e : n = fernName
      · subst e; rw [h.drivers, if_pos rfl, if_pos rfl, if_pos hw, if_pos (by omega)]
      · rw [if_neg e]
  obtain ⟨d, e, hd⟩ := key
  refine ⟨_, e, h.hdf5, h.hdf5Open, by simp [h.fern], h.gdal, h.fileGdal, h.python, h.initialised, h.ogr, h.apart,
    h.skipped, fun n => ?_, h.unregistered, h.nodup, h.names, h.names'⟩
  show d.lookup n = _
  rw [hd, h.drivers]
  by_cases e : n = fernName <;> simp [e]

theorem inv_createGdal (hL : Library.Fine L) (h : Inv L c w) (hf : c.fileGdal = 0) :
    ∃ w', createGdal L w = some w' ∧ Inv L { c with gdal := c.gdal + 1 } w' := by
  have hf' : w.fileGdalCount = 0 := h.fileGdal.trans hf
  obtain ⟨s, d, r, o, e, h1, h2, h3⟩ := createGdal_inv hL h hf' _ rfl
  refine ⟨_, e, h.hdf5, h.hdf5Open, h.fern, by simp [h.gdal], h.fileGdal, h.python, h.initialised, h.ogr, Or.inr hf',
    fun k => by simp at k, fun n => ?_, fun k => by simp at k, h1, fun _ => h2, fun k => ?_⟩
  · show d.lookup n = _
    rw [h3]; simp
  · have : 0 < w.fileGdalCount := k
    omega

theorem inv_destroyGdal (hL : Library.Fine L) (h : Inv L c w) (hc : 0 < c.gdal) :
    ∃ w', destroyGdal w = some w' ∧ Inv L { c with gdal := c.gdal - 1 } w' := by
  have hw : 0 < w.gdalCount := by rw [h.gdal]; exact hc
  have hf : w.fileGdalCount = 0 := h.apart.resolve_left (by omega)
  obtain ⟨s, d, r, e, h1, h2, h3, h4⟩ := destroyGdal_inv hL h hw _ rfl
  refine ⟨_, e, h.hdf5, h.hdf5Open, h.fern, by simp [h.gdal], h.fileGdal, h.python, h.initialised, h.ogr, Or.inr hf,
    fun k => (h3 k).2, h4, fun k _ => (h3 k).1, h1, h2, fun k => ?_⟩
  have : 0 < w.fileGdalCount := k
  omega

theorem inv_createFileGdal (h : Inv L c w) (hg : c.gdal = 0) :
    Inv L { c with fileGdal := c.fileGdal + 1 } (createFileGdal L w) := by
  have hg' : w.gdalCount = 0 := h.gdal.trans hg
  have key : ∃ r o, createFileGdal L w = { w with
      fileGdalCount := w.fileGdalCount + 1, registered := r, nextObject := o } ∧ (r.map Prod.fst).Nodup ∧
      ∀ n, n ∈ r.map Prod.fst ↔ n ∈ L.available := by
    rw [createFileGdal]
    by_cases h0 : w.fileGdalCount = 0
    · obtain ⟨r, o, h1, h2, h3, -⟩ := allRegister_spec { w with fileGdalCount := w.fileGdalCount + 1 } L.available []
        w.nextObject (by simp)
      refine ⟨r, o, ?_, h2, fun n => by rw [h3]; simp⟩
      simp only [h0]
      rw [if_pos trivial]
      have hr := h.unregistered hg' h0
      rw [h0, ← hr] at h1
      exact h1
    · exact ⟨w.registered, w.nextObject, by simp [h0], h.nodup, h.names' (by omega)⟩
  obtain ⟨r, o, e, h1, h2⟩ := key
  rw [e]
  refine ⟨h.hdf5, h.hdf5Open, h.fern, h.gdal, by simp [h.fileGdal], h.python, h.initialised, h.ogr, Or.inl hg',
    h.skipped, fun n => ?_, fun _ k => by simp at k, h1, fun k => ?_, fun _ => h2⟩
  · show w.drivers.lookup n = _
    rw [h.drivers]
    simp [hg']
  · have : 0 < w.gdalCount := k
    omega

theorem inv_destroyFileGdal (h : Inv L c w) (hc : 0 < c.fileGdal) :
    ∃ w', destroyFileGdal w = some w' ∧ Inv L { c with fileGdal := c.fileGdal - 1 } w' := by
  have hw : 0 < w.fileGdalCount := by rw [h.fileGdal]; exact hc
  have hg : w.gdalCount = 0 := h.apart.resolve_right (by omega)
  have key : ∃ r, destroyFileGdal w = some { w with fileGdalCount := w.fileGdalCount - 1, registered := r } ∧
      (r.map Prod.fst).Nodup ∧ (w.fileGdalCount - 1 = 0 → r = []) ∧
      (0 < w.fileGdalCount - 1 → ∀ n, n ∈ r.map Prod.fst ↔ n ∈ L.available) := by
    rw [destroyFileGdal, if_neg (by omega)]
    by_cases h0 : w.fileGdalCount - 1 = 0
    · exact ⟨[], by simp [h0], by simp, fun _ => rfl, fun k => by omega⟩
    · exact ⟨w.registered, by simp [h0], h.nodup, fun k => absurd k h0, fun _ => h.names' hw⟩
  obtain ⟨r, e, h1, h2, h3⟩ := key
  refine ⟨_, e, h.hdf5, h.hdf5Open, h.fern, h.gdal, by simp [h.fileGdal], h.python, h.initialised, h.ogr, Or.inl hg,
    h.skipped, fun n => ?_, fun _ k => h2 k, h1, fun k => ?_, h3⟩
  · show w.drivers.lookup n = _
    rw [h.drivers]
    simp [hg]
  · have : 0 < w.gdalCount := k
    omega

theorem inv_createPython (h : Inv L c w) (hc : c.python = 0) :
    Inv L { c with python := c.python + 1 } (createPython w) :=
  ⟨h.hdf5, h.hdf5Open, h.fern, h.gdal, h.fileGdal, by simp [createPython, h.python, hc], by simp [createPython], h.ogr,
    h.apart, h.skipped, h.drivers, h.unregistered, h.nodup, h.names, h.names'⟩

theorem inv_destroyPython (h : Inv L c w) (hc : c.python = 1) : ∃ w', destroyPython w = some w' ∧
    Inv L { c with python := c.python - 1 } w' := by
  refine ⟨{ w with pythonInitialised := false, pythonCount := w.pythonCount - 1 }, ?_,
    h.hdf5, h.hdf5Open, h.fern, h.gdal, h.fileGdal, by simp [h.python], by simp [hc], h.ogr, h.apart, h.skipped,
    h.drivers, h.unregistered, h.nodup, h.names, h.names'⟩
  rw [destroyPython, h.initialised, if_pos (by simp [hc]), if_neg (by rw [h.python]; omega)]

theorem inv_createOgr (h : Inv L c w) : Inv L { c with ogr := c.ogr + 1 } { w with ogrRegistered := true } :=
  ⟨h.hdf5, h.hdf5Open, h.fern, h.gdal, h.fileGdal, h.python, h.initialised, by simp, h.apart, h.skipped, h.drivers,
    h.unregistered, h.nodup, h.names, h.names'⟩

theorem inv_destroyOgr (h : Inv L c w) (hc : c.ogr = 1) :
    Inv L { c with ogr := c.ogr - 1 } { w with ogrRegistered := false } :=
  ⟨h.hdf5, h.hdf5Open, h.fern, h.gdal, h.fileGdal, h.python, h.initialised, by simp [hc], h.apart, h.skipped, h.drivers,
    h.unregistered, h.nodup, h.names, h.names'⟩

/-- The users after a history. -/
def usersOf (l : List Event) : Users :=
  ⟨hdf5Users l, fernUsers l, gdalUsers l, live .fileGdal l, live .python l, live .ogr l⟩

theorem live_create (k j : Kind) (l : List Event) (h : WellFormed l) :
    live k (l ++ [.create j]) = live k l + if k = j then 1 else 0 := by
  have := h l (List.prefix_refl l) k
  simp only [live, List.count_append, List.count_singleton]
  by_cases e : k = j
  · subst e; simp; omega
  · have : (Event.create j == Event.create k) = false := by simp [Ne.symm e]
    simp [this, e]

theorem live_destroy (k j : Kind) (l : List Event) :
    live k (l ++ [.destroy j]) = live k l - if k = j then 1 else 0 := by
  simp only [live, List.count_append, List.count_singleton]
  by_cases e : k = j
  · subst e; simp; omega
  · have : (Event.destroy j == Event.destroy k) = false := by simp [Ne.symm e]
    simp [this, e]

theorem live_pos {j : Kind} {l : List Event} (h : WellFormed (l ++ [.destroy j])) : 0 < live j l := by
  have := h _ (List.prefix_refl _) j
  simp only [List.count_append, List.count_singleton] at this
  simp at this
  rw [live]; omega

theorem inv_run (hL : Library.Fine L) (l : List Event) (hw : WellFormed l) (ha : Apart l) (hp : Single .python l)
    (ho : Single .ogr l) : ∃ w, run L .initial l = some w ∧ Inv L (usersOf l) w := by
  induction l using List.reverseRecOn with
  | nil => exact ⟨.initial, rfl, rfl, rfl, rfl, rfl, rfl, rfl, rfl, rfl, Or.inl rfl, fun _ => rfl,
      fun n => by simp [World.initial], fun _ _ => rfl, by simp [World.initial], fun k => absurd k (by decide),
      fun k => absurd k (by decide)⟩
  | append_singleton l e ih =>
    have hpre : l <+: l ++ [e] := List.prefix_append _ _
    have hw' : WellFormed l := fun p h => hw p (h.trans hpre)
    obtain ⟨w, h1, h2⟩ := ih hw' (fun p h => ha p (h.trans hpre)) (fun p h => hp p (h.trans hpre))
      (fun p h => ho p (h.trans hpre))
    have ha' := ha _ (List.prefix_refl _)
    have hp' := hp _ (List.prefix_refl _)
    have ho' := ho _ (List.prefix_refl _)
    have hr : ∀ w', step L w e = some w' → run L .initial (l ++ [e]) = some w' := fun w' h => by
      rw [run, List.foldlM_append, ← run, h1]
      simp [h]
    cases e with
    | create k =>
      simp only [gdalUsers, live_create _ _ _ hw'] at ha' hp' ho'
      cases k with
      | hdf5 =>
        refine ⟨_, hr _ rfl, ?_⟩
        have := inv_createHdf5 h2
        simpa [usersOf, hdf5Users, fernUsers, gdalUsers, live_create _ _ _ hw', Nat.add_right_comm] using this
      | fern =>
        obtain ⟨w', h3, h4⟩ := inv_createFern h2
        refine ⟨_, hr _ h3, ?_⟩
        simpa [usersOf, hdf5Users, fernUsers, gdalUsers, live_create _ _ _ hw', Nat.add_right_comm] using h4
      | gdal =>
        obtain ⟨w', h3, h4⟩ := inv_createGdal hL h2 (by simp [usersOf] at ha' ⊢; omega)
        refine ⟨_, hr _ h3, ?_⟩
        simpa [usersOf, hdf5Users, fernUsers, gdalUsers, live_create _ _ _ hw', Nat.add_right_comm] using h4
      | io =>
        obtain ⟨w1, h3, h4⟩ := inv_createFern (inv_createHdf5 h2)
        obtain ⟨w2, h5, h6⟩ := inv_createGdal hL h4 (by simp [usersOf] at ha' ⊢; omega)
        refine ⟨w2, hr _ ?_, ?_⟩
        · rw [step, h3]; exact h5
        · simpa [usersOf, hdf5Users, fernUsers, gdalUsers, live_create _ _ _ hw', Nat.add_assoc] using h6
      | fileGdal =>
        refine ⟨_, hr _ rfl, ?_⟩
        have := inv_createFileGdal h2 (by simp [usersOf, gdalUsers] at ha' ⊢; omega)
        simpa [usersOf, hdf5Users, fernUsers, gdalUsers, live_create _ _ _ hw'] using this
      | ogr =>
        refine ⟨_, hr _ rfl, ?_⟩
        have := inv_createOgr h2
        simpa [usersOf, hdf5Users, fernUsers, gdalUsers, live_create _ _ _ hw'] using this
      | python =>
        refine ⟨_, hr _ rfl, ?_⟩
        have := inv_createPython h2 (by simp [usersOf] at hp' ⊢; omega)
        simpa [usersOf, hdf5Users, fernUsers, gdalUsers, live_create _ _ _ hw'] using this
    | destroy k =>
      have hpos := live_pos hw
      cases k with
      | hdf5 =>
        obtain ⟨w', h3, h4⟩ := inv_destroyHdf5 h2 (by simp [usersOf, hdf5Users]; omega)
        refine ⟨w', hr _ h3, ?_⟩
        have e : live .hdf5 l + live .io l - 1 = live .hdf5 l - 1 + live .io l := by omega
        simpa [usersOf, hdf5Users, fernUsers, gdalUsers, live_destroy, e] using h4
      | fern =>
        obtain ⟨w', h3, h4⟩ := inv_destroyFern h2 (by simp [usersOf, fernUsers]; omega)
        refine ⟨w', hr _ h3, ?_⟩
        have e : live .fern l + live .io l - 1 = live .fern l - 1 + live .io l := by omega
        simpa [usersOf, hdf5Users, fernUsers, gdalUsers, live_destroy, e] using h4
      | gdal =>
        obtain ⟨w', h3, h4⟩ := inv_destroyGdal hL h2 (by simp [usersOf, gdalUsers]; omega)
        refine ⟨w', hr _ h3, ?_⟩
        have e : live .gdal l + live .io l - 1 = live .gdal l - 1 + live .io l := by omega
        simpa [usersOf, hdf5Users, fernUsers, gdalUsers, live_destroy, e] using h4
      | io =>
        obtain ⟨w1, h3, h4⟩ := inv_destroyGdal hL h2 (by simp [usersOf, gdalUsers]; omega)
        obtain ⟨w2, h5, h6⟩ := inv_destroyFern h4 (by simp [usersOf, fernUsers]; omega)
        obtain ⟨w3, h7, h8⟩ := inv_destroyHdf5 h6 (by simp [usersOf, hdf5Users]; omega)
        refine ⟨w3, hr _ ?_, ?_⟩
        · rw [step, h3, Option.bind_some, h5]; exact h7
        · have e : ∀ n, n + live .io l - 1 = n + (live .io l - 1) := fun n => by omega
          simpa [usersOf, hdf5Users, fernUsers, gdalUsers, live_destroy, e] using h8
      | fileGdal =>
        obtain ⟨w', h3, h4⟩ := inv_destroyFileGdal h2 hpos
        refine ⟨w', hr _ h3, ?_⟩
        simpa [usersOf, hdf5Users, fernUsers, gdalUsers, live_destroy] using h4
      | ogr =>
        refine ⟨_, hr _ rfl, ?_⟩
        have := ho _ hpre
        have := inv_destroyOgr h2 (by simp [usersOf]; omega)
        simpa [usersOf, hdf5Users, fernUsers, gdalUsers, live_destroy] using this
      | python =>
        have := hp _ hpre
        obtain ⟨w', h3, h4⟩ := inv_destroyPython h2 (by simp [usersOf]; omega)
        refine ⟨w', hr _ h3, ?_⟩
        simpa [usersOf, hdf5Users, fernUsers, gdalUsers, live_destroy] using h4

end Fern.Clients
