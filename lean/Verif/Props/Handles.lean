import Verif.Lemmas.Handles
import Mathlib.Data.List.Perm.Basic
import Mathlib.Data.List.Perm.Subperm
import Mathlib.Data.List.Range

/-!
# C105: what is opened is closed once
-/

namespace Fern.Handles

open Fern.Handles.Spec

/-- Whatever a program does with groups and datasets of HDF5, and whatever identifiers the library gives: what is
open belongs to exactly one object, and what is not has been closed once. -/
theorem C105_owned (ops : List Op) (w : World) (h : run .emptied World.initial ops = some w) :
    Owned w :=
  (Inv.initial.run ops h).toOwned

example : ∃ w, run .emptied World.initial
    [.create 0 7, .empty 1, .moveTo 1 0, .create 2 8, .moveTo 1 2, .destroy 0, .create 0 7] = some w ∧
    access w 1 = some 1 ∧ access w 0 = some 2 ∧ access w 2 = none ∧ w.closed = [0] := by
  exact ⟨_, rfl, rfl, rfl, rfl, rfl⟩

/-- If no object is left then everything that was opened has been closed, once. -/
theorem C105_drained (ops : List Op) (w : World) (h : run .emptied World.initial ops = some w)
    (hn : ∀ x, w.object x = none) : w.closed.Perm (List.range w.opened) := by
  have hw := C105_owned ops w h
  refine (List.perm_ext_iff_of_nodup hw.once List.nodup_range).2 fun r => ?_
  rw [List.mem_range, hw.known r]
  refine ⟨.inl, fun hr => hr.resolve_right fun ho => ?_⟩
  obtain ⟨x, hx, -⟩ := hw.owner r ho
  simp [access, hn x] at hx

/-- Writing an attribute closes the group and the dataset, once each, whatever identifiers they have. -/
theorem C105_write (group dataset : Nat) (hg : 0 < group) (hd : 0 < dataset) (h : group ≠ dataset) :
    ∃ w, run .emptied World.initial (writeObjects group dataset) = some w ∧ w.closed = [0, 1] ∧
      w.opened = 2 ∧ w.bad = 0 ∧ (∀ x, w.object x = none) ∧ ∀ id, w.lib id = none := by
  have h' := Ne.symm h
  simp only [run, writeObjects, step, World.initial, World.release, World.close, Function.update_apply,
    hg, hd, h, h', Option.bind_some, Option.some.injEq, exists_eq_left', and_self, if_true, if_false,
    Nat.succ_ne_zero, reduceCtorEq, Nat.one_ne_zero]
  simp [Function.update_apply, hg, hd, h, h']
  constructor
  · intro x; grind
  · intro id; grind

/-- A move hands over what the object has: nothing is opened or closed by constructing. -/
theorem C105_move_new (w v : World) (x y : Nat) (h : step .emptied w (.moveNew x y) = some v) :
    access v x = access w y ∧ v.object y = some 0 ∧ v.lib = w.lib ∧ v.closed = w.closed := by
  simp only [step] at h
  split at h
  · rename_i j hx hy
    cases h
    have hxy : x ≠ y := by rintro rfl; rw [hx] at hy; cases hy
    simp [access, hxy, hy]
  · cases h

/-- Assigning hands over what the other object has and closes what the object had. -/
theorem C105_move_to (ops : List Op) (w v : World) (x y : Nat)
    (hw : run .emptied World.initial ops = some w) (hxy : x ≠ y)
    (h : step .emptied w (.moveTo x y) = some v) :
    access v x = access w y ∧ v.object y = some 0 ∧
      (∀ r, access w x = some r → v.closed = r :: w.closed ∧ ¬ isOpen v r) ∧
      (access w x = none → v.closed = w.closed ∧ v.lib = w.lib) := by
  have hi := Inv.initial.run ops hw
  have hv := (hi.step _ h).toOwned
  simp only [step] at h
  split at h
  · rename_i i j hx hy
    by_cases e : i = 0
    · subst e
      have h0 : w.lib 0 = none := by
        cases hl : w.lib 0 with
        | none => rfl
        | some r => exact absurd rfl (hi.pos 0 r hl)
      cases h
      simp [access, hxy, World.release, hx, hy, h0]
    · obtain ⟨r, hr⟩ := Option.ne_none_iff_exists'.1 (hi.valid x i hx e)
      have hij : j ≠ i := fun c => hxy (hi.inj x y i hx (c ▸ hy) e)
      have hc : v = { w with
          lib := Function.update w.lib i none, closed := r :: w.closed,
          object := Function.update (Function.update w.object x (some j)) y (some 0) } := by
        cases h
        simp [World.release, Nat.pos_of_ne_zero e, close_open w i r hr]
      have hr' : access w x = some r := by simp [access, hx, hr]
      refine ⟨by simp [hc, access, hxy, hy, hij], by simp [hc], fun s hs => ?_, fun c => ?_⟩
      · rw [hr'] at hs; cases hs
        exact ⟨by rw [hc], hv.apart r (by rw [hc]; simp)⟩
      · rw [hr'] at c; cases c
  · cases h

/-- An object that is assigned to itself loses what it has. -/
theorem C105_self (w v : World) (x : Nat) (h : step .emptied w (.moveTo x x) = some v) :
    v.object x = some 0 ∧ ∀ i r, w.object x = some i → 0 < i → w.lib i = some r →
      v.closed = r :: w.closed := by
  simp only [step] at h
  split at h
  · rename_i i j hx hy
    cases h
    refine ⟨by simp, fun i' r hx' hi hr => ?_⟩
    rw [hx] at hx'; cases hx'
    simp [World.release, hi, close_open w i r hr]
  · cases h

/-- Destroying an object closes what it gives access to, and nothing else. -/
theorem C105_destroy (ops : List Op) (w v : World) (x : Nat)
    (hw : run .emptied World.initial ops = some w) (h : step .emptied w (.destroy x) = some v) :
    v.closed = (access w x).toList ++ w.closed := by
  have hi := Inv.initial.run ops hw
  simp only [step] at h
  split at h
  · rename_i i hx
    by_cases e : i = 0
    · subst e
      have h0 : w.lib 0 = none := by
        cases hl : w.lib 0 with
        | none => rfl
        | some r => exact absurd rfl (hi.pos 0 r hl)
      cases h
      simp [access, World.release, hx, h0]
    · obtain ⟨r, hr⟩ := Option.ne_none_iff_exists'.1 (hi.valid x i hx e)
      cases h
      simp [World.release, Nat.pos_of_ne_zero e, close_open w i r hr, access, hx, hr]
  · cases h

/-- No operation touches what the objects that it does not name give access to. -/
theorem C105_others (ops : List Op) (w v : World) (o : Op) (z : Nat)
    (hw : run .emptied World.initial ops = some w) (h : step .emptied w o = some v)
    (hz : z ∉ names o) : access v z = access w z := by
  have hi := Inv.initial.run ops hw
  have key : ∀ x i (f : Nat → Option Nat), w.object x = some i → z ≠ x → f z = w.object z →
      access { w.release .emptied i with object := f } z = access w z := by
    intro x i f hx hzx hf
    by_cases e : i = 0
    · subst e; simp [access, World.release, hf]
    · obtain ⟨r, hr⟩ := Option.ne_none_iff_exists'.1 (hi.valid x i hx e)
      simp only [World.release, Nat.pos_of_ne_zero e, if_true, close_open w i r hr, access, hf]
      cases hz' : w.object z with
      | none => rfl
      | some k =>
        have : k ≠ i := fun c => hzx (hi.inj z x i (c ▸ hz') hx e)
        simp [this]
  cases o with
  | create x id =>
    simp only [names, List.mem_singleton] at hz
    simp only [step] at h
    split at h
    · rename_i c
      cases h
      simp only [access, Function.update_apply, if_neg hz]
      cases hz' : w.object z with
      | none => rfl
      | some k =>
        by_cases e : k = id
        · subst e
          have := hi.valid z k hz' (by omega)
          exact absurd c.2.2 this
        · simp [e]
    · cases h
  | empty x =>
    simp only [names, List.mem_singleton] at hz
    simp only [step] at h
    split at h
    · cases h; simp [access, hz]
    · cases h
  | moveNew x y =>
    simp only [names, List.mem_cons, List.not_mem_nil, or_false, not_or] at hz
    simp only [step] at h
    split at h
    · cases h; simp [access, hz]
    · cases h
  | moveTo x y =>
    simp only [names, List.mem_cons, List.not_mem_nil, or_false, not_or] at hz
    simp only [step] at h
    split at h
    · rename_i i j hx hy
      cases h
      exact key x i _ hx hz.1 (by simp [release_object, hz])
    · cases h
  | destroy x =>
    simp only [names, List.mem_singleton] at hz
    simp only [step] at h
    split at h
    · rename_i i hx
      cases h
      exact key x i _ hx hz (by simp [release_object, hz])
    · cases h

/-! ## Handles of netCDF and GDAL -/

/-- Programs that never move a handle of netCDF or GDAL are right too. -/
theorem C105_still (ops : List Op) (w : World) (hs : ∀ o ∈ ops, Still o)
    (h : run .defaulted World.initial ops = some w) : Owned w := by
  suffices ∀ (ops : List Op) (u w : World), Inv u → (∀ x, u.object x ≠ some 0) → (∀ o ∈ ops, Still o) →
      run .defaulted u ops = some w → Inv w from
    (this ops _ w Inv.initial (by simp [World.initial]) hs h).toOwned
  clear hs h ops w
  intro ops
  induction ops with
  | nil => intro u w hu _ _ h; cases h; exact hu
  | cons o os ih =>
    intro u w hu h0 hs h
    simp only [run, Option.bind_eq_some_iff] at h
    obtain ⟨v, hv, h⟩ := h
    have ho := hs o (by simp)
    have hos : ∀ o ∈ os, Still o := fun p hp => hs p (by simp [hp])
    cases o with
    | create x id =>
      simp only [step] at hv
      split at hv
      · rename_i c
        cases hv
        refine ih _ w (hu.creates x id c.1 c.2.1 c.2.2) (fun z => ?_) hos h
        simp only [Function.update_apply]
        split
        · intro e; have := Option.some.inj e; omega
        · exact h0 z
      · cases hv
    | empty x => simp [step] at hv
    | moveNew x y => exact ho.elim
    | moveTo x y => exact ho.elim
    | destroy x =>
      simp only [step] at hv
      split at hv
      · rename_i i hx
        cases hv
        have hne : i ≠ 0 := fun c => h0 x (c ▸ hx)
        refine ih _ w ?_ (fun z => ?_) hos h
        · have := hu.destroys .defaulted x i hx (.inr hne)
          rwa [release_object]
        · simp only [Function.update_apply, release_object]
          split
          · simp
          · exact h0 z
      · cases hv

example : ∃ w, run .defaulted World.initial [.create 0 7, .create 1 8, .destroy 0, .create 2 7] = some w ∧
    access w 1 = some 1 ∧ access w 2 = some 2 ∧ w.closed = [0] :=
  ⟨_, rfl, rfl, rfl, rfl⟩

/-- A handle of netCDF or GDAL that is moved takes the dataset along when it is destroyed: the new handle gives
access to nothing. -/
theorem C105_moved_false (w u v : World) (x y : Nat) (h : step .defaulted w (.moveNew x y) = some u)
    (hv : step .defaulted u (.destroy y) = some v) : access v x = none := by
  simp only [step] at h
  split at h
  · rename_i j hx hy
    cases h
    have hxy : x ≠ y := by rintro rfl; rw [hx] at hy; cases hy
    have hyx := Ne.symm hxy
    simp only [step, Function.update_apply, if_neg hyx, hy] at hv
    cases hv
    simp only [access, Function.update_apply, if_neg hxy, World.release, World.close]
    cases hl : w.lib j <;> simp [hl]
  · cases h

/-- Destroying both closes one identifier twice. -/
theorem C105_twice_false (w u v t : World) (x y : Nat) (h : step .defaulted w (.moveNew x y) = some u)
    (hv : step .defaulted u (.destroy y) = some v) (ht : step .defaulted v (.destroy x) = some t) :
    w.bad < t.bad := by
  simp only [step] at h
  split at h
  · rename_i j hx hy
    cases h
    have hxy : x ≠ y := by rintro rfl; rw [hx] at hy; cases hy
    have hyx := Ne.symm hxy
    simp only [step, Function.update_apply, if_neg hyx, hy] at hv
    cases hv
    simp only [step, World.release, World.close] at ht
    cases hl : w.lib j <;> simp [hl, Function.update_apply, hxy] at ht <;> subst ht <;> simp <;> omega
  · cases h

/-- If the identifier has been given to another dataset in the meantime then that one is closed, although its
handle exists. -/
theorem C105_reused_false : ∃ w, run .defaulted World.initial
    [.create 0 7, .moveNew 1 0, .destroy 0, .create 2 7, .destroy 1] = some w ∧
    w.object 2 = some 7 ∧ access w 2 = none ∧ w.closed = [1, 0] :=
  ⟨_, rfl, rfl, rfl, rfl⟩

/-- A dataset whose handle is assigned another one is never closed, the other one twice. -/
theorem C105_assigned_false : ∃ w, run .defaulted World.initial
    [.create 0 7, .create 1 8, .moveTo 0 1, .destroy 0, .destroy 1] = some w ∧
    (∀ x, w.object x = none) ∧ isOpen w 0 ∧ w.bad = 1 := by
  refine ⟨_, rfl, fun x => ?_, ⟨7, rfl⟩, rfl⟩
  by_cases h0 : x = 0
  · subst h0; rfl
  · by_cases h1 : x = 1
    · subst h1; rfl
    · simp [Function.update_apply, World.initial, World.release, World.close, h0, h1]

/-! ## Types and spaces -/

/-- Queries leave no spaces open, but each query of a type or its class leaves one type open. -/
theorem C105_queries (n : Ids) (qs : List Query) :
    (queries n qs).spaces = n.spaces ∧
      (queries n qs).types = n.types + (qs.filter fun q => q = .typeClass ∨ q = .type).length := by
  unfold queries
  induction qs generalizing n with
  | nil => exact ⟨rfl, rfl⟩
  | cons q qs ih =>
    rw [List.foldl_cons]
    obtain ⟨h1, h2⟩ := ih (q.ids n)
    rw [h1, h2]
    cases q <;> simp [Query.ids, List.filter_cons] <;> omega

/-- Reading an attribute `k` times leaves `2 k` types open. -/
theorem C105_types_false (n : Ids) (k : Nat) :
    (queries n (List.replicate k readQueries).flatten).types = n.types + 2 * k := by
  rw [(C105_queries n _).2]
  induction k with
  | zero => rfl
  | succ k ih =>
    rw [List.replicate_succ, List.flatten_cons, List.filter_append, List.length_append]
    have : (readQueries.filter fun q => q = .typeClass ∨ q = .type).length = 2 := by decide
    omega

/-- A program that reads attributes (`true`) and writes attributes that exist (`false`), in any order: reading leaves two
types open, writing one. -/
theorem C105_reads_writes_false (n : Ids) (l : List Bool) :
    let after := queries n (l.flatMap fun read => if read then readQueries else rewriteQueries)
    after.types = n.types + 2 * l.count true + l.count false ∧ after.spaces = n.spaces := by
  refine ⟨?_, (C105_queries n _).1⟩
  show Ids.types _ = _
  rw [(C105_queries n _).2]
  induction l with
  | nil => rfl
  | cons b l ih =>
    rw [List.flatMap_cons, List.filter_append, List.length_append]
    have h1 : (readQueries.filter fun q => q = .typeClass ∨ q = .type).length = 2 := by decide
    have h2 : (rewriteQueries.filter fun q => q = .typeClass ∨ q = .type).length = 1 := by decide
    cases b
    · rw [if_neg (by decide), h2, List.count_cons_of_ne (by decide), List.count_cons_self]; omega
    · rw [if_pos rfl, h1, List.count_cons_self, List.count_cons_of_ne (by decide)]; omega

example : (queries ⟨0, 0⟩ ([true, false, true].flatMap fun read => if read then readQueries else rewriteQueries)).types = 5 :=
  by decide

end Fern.Handles
