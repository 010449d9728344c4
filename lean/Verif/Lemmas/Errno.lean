import Verif.Lemmas.Loop
import Verif.Lemmas.LocalOps
import Verif.Spec.Errno
namespace Fern.Errno

open Fern.Spec
open scoped List
open _root_.Fern.Errno.Spec

/-! ### Orders -/

theorem flatten_update {f g : Nat → List Nat} {n t : Nat} (ht : t < n) (h : ∀ u, u ≠ t → g u = f u) :
    ((List.range n).map f).flatten ++ g t ~ ((List.range n).map g).flatten ++ f t := by
  induction n with
  | zero => omega
  | succ n ih =>
    simp only [List.range_succ, List.map_append, List.map_cons, List.map_nil, List.flatten_append,
      List.flatten_cons, List.flatten_nil, List.append_nil]
    by_cases e : t = n
    · subst e
      have : (List.range t).map g = (List.range t).map f := by
        apply List.map_congr_left
        intro u hu
        exact h u (by have := List.mem_range.1 hu; omega)
      rw [this, List.append_assoc, List.append_assoc]
      exact List.Perm.append_left _ List.perm_append_comm
    · rw [h n (fun e' => e e'.symm)]
      have := ih (by omega)
      calc _ ~ ((List.range n).map f).flatten ++ (g t ++ f n) := by
              rw [List.append_assoc]; exact List.Perm.append_left _ List.perm_append_comm
        _ ~ (((List.range n).map g).flatten ++ f t) ++ f n := by
              rw [← List.append_assoc]; exact List.Perm.append_right _ this
        _ ~ _ := by
              rw [List.append_assoc, List.append_assoc]
              exact List.Perm.append_left _ List.perm_append_comm

theorem pool_perm {n : Nat} {queue : List (List Nat)} {busy : Nat → List Nat} {order : List (Nat × Nat)}
    (h : Pool n queue busy order) :
    order.map (·.2) ~ ((List.range n).map busy).flatten ++ queue.flatten := by
  induction h with
  | done busy hb =>
    have : (List.range n).map busy = (List.range n).map fun _ => [] :=
      List.map_congr_left fun t _ => hb t
    rw [this]
    simp
  | take t block queue busy order ht hb _ ih =>
    refine ih.trans ?_
    have := flatten_update (f := busy) (g := fun u => if u = t then block else busy u) ht
      (fun u hu => by simp [hu])
    simp only [if_true, hb, List.append_nil] at this
    rw [List.flatten_cons, ← List.append_assoc]
    exact List.Perm.append_right _ this.symm
  | work t i rest queue busy order ht hb _ ih =>
    have := flatten_update (f := busy) (g := fun u => if u = t then rest else busy u) ht
      (fun u hu => by simp [hu])
    simp only [if_true, hb] at this
    have h2 : ((List.range n).map busy).flatten ~
        i :: ((List.range n).map fun u => if u = t then rest else busy u).flatten := by
      have h3 : ((List.range n).map busy).flatten ++ rest ~
          (i :: ((List.range n).map fun u => if u = t then rest else busy u).flatten) ++ rest := by
        refine this.trans ?_
        exact (List.perm_middle).trans (by simp)
      exact (List.perm_append_right_iff _).1 h3
    rw [List.map_cons]
    exact (List.Perm.cons i ih).trans (by simpa using (List.Perm.append_right _ h2.symm))

theorem execution_perm {n : Nat} {order : List (Nat × Nat)} (h : Execution n order) :
    order.map (·.2) ~ List.range n := by
  have hp : ∀ {t : Nat} {blocks : List (List Nat)}, parallel t blocks order →
      order.map (·.2) ~ blocks.flatten := by
    intro t blocks hp
    have := pool_perm hp
    have e : ((List.range t).map fun _ => ([] : List Nat)).flatten = [] := by simp
    rwa [e, List.nil_append] at this
  cases h with
  | sequential h =>
    subst h
    simp [sequential, Function.comp_def]
  | d1 t blocks hb h => rw [← blocks1d_flatten hb]; exact hp h
  | d2 t n1 n2 blocks hn hb h => rw [hn, ← blocks2d_flatten hb]; exact hp h

/-! ### Runs -/

section

variable {A R : Type} {alg : Algorithm A R} {withinDomain : A → Bool} {outp : OutPolicy R}
  {args : List (Option A)}

/-- `errno` after the body for an element. -/
def seen (alg : Algorithm A R) (withinDomain : A → Bool) (args : List (Option A)) (i : Nat) (e : Errno) :
    Errno :=
  match args[i]? with
  | some (some a) => if withinDomain a then alg.after a e else e
  | _ => e

/-- The element after the body, `e` being `errno` after it. -/
def body (alg : Algorithm A R) (withinDomain : A → Bool) (outp : OutPolicy R) (args : List (Option A))
    (i : Nat) (e : Errno) (c : Cell R) : Cell R :=
  match args[i]? with
  | some (some a) =>
    if withinDomain a then
      if withinRange e then storeAct (alg.compute a) c else outp.mark (storeAct (alg.compute a) c)
    else outp.mark c
  | _ => outp.mark c

theorem step_eq {s : State R} {t i : Nat} {c : Cell R} (ha : i < args.length) (hc : s.cells[i]? = some c) :
    step alg withinDomain outp args s (t, i) =
      some ⟨fun u => if u = t then seen alg withinDomain args i (s.errno t) else s.errno u,
        s.cells.set i (body alg withinDomain outp args i (seen alg withinDomain args i (s.errno t)) c)⟩ := by
  have e : args[i]? = some args[i] := by simp [ha]
  have same : (fun u => if u = t then s.errno t else s.errno u) = s.errno := by
    funext u
    split
    · rename_i h; rw [h]
    · rfl
  unfold step seen body
  rw [e]
  cases args[i] with
  | none => simp [hc, same]
  | some a =>
    cases hd : withinDomain a
    · simp [hc, hd, same]
    · cases hw : withinRange (alg.after a (s.errno t)) <;> simp [hc, hd, hw]

/-- `errno` of a thread after a sequence of bodies. -/
def errnoAfter (alg : Algorithm A R) (withinDomain : A → Bool) (args : List (Option A)) (elements : List Nat)
    (e : Errno) : Errno :=
  elements.foldl (fun e i => seen alg withinDomain args i e) e

theorem run_eq : ∀ (order : List (Nat × Nat)) (s : State R), (order.map (·.2)).Nodup →
    (∀ p ∈ order, p.2 < args.length) → s.cells.length = args.length →
    ∃ s', run alg withinDomain outp args order s = some s' ∧ s'.cells.length = args.length ∧
      (∀ i, i ∉ order.map (·.2) → s'.cells[i]? = s.cells[i]?) ∧
      ∀ k t i c, order[k]? = some (t, i) → s.cells[i]? = some c →
        s'.cells[i]? = some (body alg withinDomain outp args i
          (errnoAfter alg withinDomain args (doneUntil order k t) (s.errno t)) c)
  | [], s, _, _, hl => ⟨s, rfl, hl, fun _ _ => rfl, by simp⟩
  | (u, j) :: order, s, hn, hb, hl => by
    have hj : j < args.length := hb (u, j) (by simp)
    have hc : s.cells[j]? = some s.cells[j] := by simp [hl, hj]
    rw [List.map_cons, List.nodup_cons] at hn
    have hst := step_eq (alg := alg) (withinDomain := withinDomain) (outp := outp) (t := u) hj hc
    generalize hs1 : (⟨fun v => if v = u then seen alg withinDomain args j (s.errno u) else s.errno v,
        s.cells.set j (body alg withinDomain outp args j (seen alg withinDomain args j (s.errno u))
          s.cells[j])⟩ : State R) = s1 at hst
    obtain ⟨s', hr, hl', hout, hin⟩ := run_eq order s1 hn.2 (fun p hp => hb p (by simp [hp]))
      (by rw [← hs1]; simp [hl])
    refine ⟨s', by simp only [run, List.foldlM_cons, hst]; exact hr, hl', ?_, ?_⟩
    · intro i hi
      rw [List.map_cons, List.mem_cons, not_or] at hi
      rw [hout i hi.2, ← hs1]
      simp [List.getElem?_set_ne (Ne.symm hi.1)]
    · intro k t i c hk hci
      cases k with
      | zero =>
        simp only [List.getElem?_cons_zero, Option.some.injEq, Prod.mk.injEq] at hk
        obtain ⟨rfl, rfl⟩ := hk
        rw [hc, Option.some.injEq] at hci
        subst hci
        rw [hout _ hn.1, ← hs1]
        simp [doneUntil, errnoAfter, hl, hj]
      | succ k =>
        rw [List.getElem?_cons_succ] at hk
        have hne : j ≠ i := by
          rintro rfl
          exact hn.1 (List.mem_map.2 ⟨_, List.mem_of_getElem? hk, rfl⟩)
        have h1 : s1.cells[i]? = some c := by
          rw [← hs1]
          simp only [List.getElem?_set_ne hne, hci]
        rw [hin k t i c hk h1]
        congr 2
        rw [← hs1]
        by_cases e : u = t
        · subst e
          simp [doneUntil, errnoAfter]
        · have e' : ¬ t = u := fun h => e h.symm
          simp [doneUntil, errnoAfter, e, e']

/-! ### Errors -/

theorem seen_of_evaluated {i : Nat} {a : A} (h : Evaluated withinDomain args i a) (e : Errno) :
    seen alg withinDomain args i e = alg.after a e := by
  simp [seen, h.1, h.2]

theorem seen_of_not {i : Nat} (h : ∀ a, ¬ Evaluated withinDomain args i a) (e : Errno) :
    seen alg withinDomain args i e = e := by
  unfold seen
  split
  · rename_i a ha
    rw [if_neg fun hd => h a ⟨ha, hd⟩]
  · rfl

theorem body_spec (i : Nat) (e : Errno) (c : Cell R) :
    CellIs alg withinDomain outp args (e = .range) i c (body alg withinDomain outp args i e c) := by
  constructor
  · intro h
    unfold body
    split
    · rename_i a ha
      rw [if_neg fun hd => h a ⟨ha, hd⟩]
      exact mark_spec outp c
    · exact mark_spec outp c
  · intro a ha
    have hb : body alg withinDomain outp args i e c =
        if withinRange e then storeAct (alg.compute a) c else outp.mark (storeAct (alg.compute a) c) := by
      simp [body, ha.1, ha.2]
    rw [hb]
    refine ⟨fun h => ?_, fun h => ?_⟩
    · subst h
      exact mark_spec outp _
    · rw [if_pos (by simp [withinRange, h])]
      rfl

theorem lastError_snoc {elements : List Nat} {i : Nat} {e0 e : Errno} (hr : alg.resets = false)
    (h : LastError alg withinDomain args elements e0 e) :
    LastError alg withinDomain args (elements ++ [i]) e0 (seen alg withinDomain args i e) := by
  by_cases hi : ∃ a, Evaluated withinDomain args i a
  · obtain ⟨a, ha⟩ := hi
    rw [seen_of_evaluated ha, Algorithm.after]
    cases hrep : alg.report a with
    | some r => exact .inl ⟨elements, i, a, [], rfl, ha, hrep, by simp⟩
    | none =>
      have hone : ∀ b, Evaluated withinDomain args i b → alg.report b = none := by
        intro b hb
        have := ha.1.symm.trans hb.1
        simp only [Option.some.injEq] at this
        rw [← this, hrep]
      simp only [hr, Option.getD_none, Bool.false_eq_true, if_false]
      rcases h with ⟨pre, j, a', post, rfl, h1, h2, h3⟩ | ⟨h1, rfl⟩
      · refine .inl ⟨pre, j, a', post ++ [i], by simp, h1, h2, fun k hk b hb => ?_⟩
        rcases List.mem_append.1 hk with hk | hk
        · exact h3 k hk b hb
        · rw [List.mem_singleton] at hk
          subst hk
          exact hone b hb
      · refine .inr ⟨fun k hk b hb => ?_, rfl⟩
        rcases List.mem_append.1 hk with hk | hk
        · exact h1 k hk b hb
        · rw [List.mem_singleton] at hk
          subst hk
          exact hone b hb
  · have hi' : ∀ a, ¬ Evaluated withinDomain args i a := fun a ha => hi ⟨a, ha⟩
    rw [seen_of_not hi']
    rcases h with ⟨pre, j, a', post, rfl, h1, h2, h3⟩ | ⟨h1, rfl⟩
    · refine .inl ⟨pre, j, a', post ++ [i], by simp, h1, h2, fun k hk b hb => ?_⟩
      rcases List.mem_append.1 hk with hk | hk
      · exact h3 k hk b hb
      · rw [List.mem_singleton] at hk
        subst hk
        exact absurd hb (hi' b)
    · refine .inr ⟨fun k hk b hb => ?_, rfl⟩
      rcases List.mem_append.1 hk with hk | hk
      · exact h1 k hk b hb
      · rw [List.mem_singleton] at hk
        subst hk
        exact absurd hb (hi' b)

theorem errnoAfter_last (hr : alg.resets = false) (elements : List Nat) (e : Errno) :
    LastError alg withinDomain args elements e (errnoAfter alg withinDomain args elements e) := by
  induction elements using List.reverseRecOn with
  | nil => exact .inr ⟨by simp, rfl⟩
  | append_singleton elements i ih =>
    rw [errnoAfter, List.foldl_append]
    exact lastError_snoc hr ih

theorem doneUntil_eq {order : List (Nat × Nat)} {k t i : Nat} (h : order[k]? = some (t, i)) :
    ∃ l, doneUntil order k t = l ++ [i] := by
  rw [doneUntil, List.take_add_one, h]
  simp

end

end Fern.Errno
