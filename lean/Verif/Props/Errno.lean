import Verif.Lemmas.Errno
/-
Property C130: range errors detected by `errno`.

`Execution n order`: an order in which the `n` elements can be done, by one thread or by a pool of any number of
threads; `run` does them. `CellIs alg dom outp args detected i c c'` says what becomes of element `i`, given
whether a range error is detected.
-/
namespace Fern.Errno

open Fern.Spec
open _root_.Fern.Errno.Spec

section

variable {A R : Type} (alg : Algorithm A R) (withinDomain : A → Bool) (outp : OutPolicy R)
  (args : List (Option A))

/-- C130, in general: an element is marked as out of range iff the last error that its thread has seen, in this
operation or before, is a range error. -/
theorem C130_sticky (hr : alg.resets = false) {order : List (Nat × Nat)} (h : Execution args.length order)
    (s : State R) (hs : s.cells.length = args.length) :
    ∃ s', run alg withinDomain outp args order s = some s' ∧ s'.cells.length = args.length ∧
      ∀ i c, s.cells[i]? = some c → ∃ k t last c', DoneBy order k t i ∧ s'.cells[i]? = some c' ∧
        LastError alg withinDomain args (doneUntil order k t) (s.errno t) last ∧
        CellIs alg withinDomain outp args (last = .range) i c c' := by
  have hp := execution_perm h
  obtain ⟨s', hrun, hl, -, hin⟩ := run_eq (alg := alg) (withinDomain := withinDomain) (outp := outp)
    (args := args) order s (hp.nodup_iff.2 List.nodup_range)
    (fun p hp' => List.mem_range.1 (hp.mem_iff.1 (List.mem_map.2 ⟨p, hp', rfl⟩))) hs
  refine ⟨s', hrun, hl, fun i c hc => ?_⟩
  have hi : i < args.length := by rw [← hs]; exact (List.getElem?_eq_some_iff.1 hc).1
  obtain ⟨⟨t, j⟩, hm, rfl⟩ := List.mem_map.1 (hp.mem_iff.2 (List.mem_range.2 hi))
  obtain ⟨k, hk⟩ := List.mem_iff_getElem?.1 hm
  exact ⟨k, t, _, _, hk, hin k t j c hk hc, errnoAfter_last hr _ _, body_spec _ _ _⟩

/-- C130: if nothing but range errors is reported and `errno` was not `ERANGE` before: an element is marked as out
of range iff there is a range error for it or for another element that its thread has done before. -/
theorem C130_inherited (hr : alg.resets = false) (honly : ∀ a e, alg.report a = some e → e = .range)
    {order : List (Nat × Nat)} (h : Execution args.length order)
    (s : State R) (hs : s.cells.length = args.length) (hbefore : ∀ t, s.errno t ≠ .range) :
    ∃ s', run alg withinDomain outp args order s = some s' ∧ s'.cells.length = args.length ∧
      ∀ i c, s.cells[i]? = some c → ∃ k t c', DoneBy order k t i ∧ s'.cells[i]? = some c' ∧
        CellIs alg withinDomain outp args
          (∃ j ∈ doneUntil order k t, RangeError alg withinDomain args j) i c c' := by
  obtain ⟨s', hrun, hl, hc⟩ := C130_sticky alg withinDomain outp args hr h s hs
  refine ⟨s', hrun, hl, fun i c hi => ?_⟩
  obtain ⟨k, t, last, c', hk, hc', hlast, hcell⟩ := hc i c hi
  refine ⟨k, t, c', hk, hc', ?_⟩
  have : (last = .range) = ∃ j ∈ doneUntil order k t, RangeError alg withinDomain args j := by
    apply propext
    rcases hlast with ⟨pre, j, a, post, he, h1, h2, -⟩ | ⟨h1, rfl⟩
    · have := honly a last h2
      subst this
      exact ⟨fun _ => ⟨j, by rw [he]; simp, a, h1, h2⟩, fun _ => rfl⟩
    · refine ⟨fun h => absurd h (hbefore t), ?_⟩
      rintro ⟨j, hj, a, ha, hrep⟩
      rw [h1 j hj a ha] at hrep
      exact absurd hrep (by simp)
  rwa [← this]

/-- C130: if the algorithm resets `errno`, as `pow` does, an element is marked as out of range iff there is a range
error for it: threads, their order and what happened before do not matter. -/
theorem C130_reset (hr : alg.resets = true) {order : List (Nat × Nat)} (h : Execution args.length order)
    (s : State R) (hs : s.cells.length = args.length) :
    ∃ s', run alg withinDomain outp args order s = some s' ∧
      Elementwise (fun i => CellIs alg withinDomain outp args (RangeError alg withinDomain args i) i)
        s.cells s'.cells := by
  have hp := execution_perm h
  obtain ⟨s', hrun, hl, -, hin⟩ := run_eq (alg := alg) (withinDomain := withinDomain) (outp := outp)
    (args := args) order s (hp.nodup_iff.2 List.nodup_range)
    (fun p hp' => List.mem_range.1 (hp.mem_iff.1 (List.mem_map.2 ⟨p, hp', rfl⟩))) hs
  refine ⟨s', hrun, hl.trans hs.symm, fun i c hc => ?_⟩
  have hi : i < args.length := by rw [← hs]; exact (List.getElem?_eq_some_iff.1 hc).1
  obtain ⟨⟨t, j⟩, hm, rfl⟩ := List.mem_map.1 (hp.mem_iff.2 (List.mem_range.2 hi))
  obtain ⟨k, hk⟩ := List.mem_iff_getElem?.1 hm
  refine ⟨_, hin k t j c hk hc, ?_⟩
  obtain ⟨l, hdone⟩ := doneUntil_eq hk
  obtain ⟨h1, h2⟩ := body_spec (alg := alg) (withinDomain := withinDomain) (outp := outp) (args := args) j
    (errnoAfter alg withinDomain args (doneUntil order k t) (s.errno t)) c
  refine ⟨h1, fun a ha => ?_⟩
  have e : (errnoAfter alg withinDomain args (doneUntil order k t) (s.errno t) = .range) =
      RangeError alg withinDomain args j := by
    rw [hdone, errnoAfter, List.foldl_append]
    simp only [List.foldl_cons, List.foldl_nil]
    rw [seen_of_evaluated ha, Algorithm.after, hr]
    apply propext
    constructor
    · intro hx
      refine ⟨a, ha, ?_⟩
      cases hrep : alg.report a with
      | none => simp [hrep] at hx
      | some r => simpa [hrep] using hx
    · rintro ⟨b, hb, hrep⟩
      have := ha.1.symm.trans hb.1
      simp only [Option.some.injEq] at this
      subst this
      simp [hrep]
  rw [← e]
  exact h2 a ha

/-- C130: so two executions of `pow` give the same result, whatever `errno` was. -/
theorem C130_reset_unique (hr : alg.resets = true) {order order' : List (Nat × Nat)}
    (h : Execution args.length order) (h' : Execution args.length order') (cells : List (Cell R))
    (hs : cells.length = args.length) (errno errno' : Nat → Errno) :
    (run alg withinDomain outp args order ⟨errno, cells⟩).map (·.cells) =
      (run alg withinDomain outp args order' ⟨errno', cells⟩).map (·.cells) := by
  obtain ⟨s1, r1, l1, e1⟩ := C130_reset alg withinDomain outp args hr h ⟨errno, cells⟩ hs
  obtain ⟨s2, r2, l2, e2⟩ := C130_reset alg withinDomain outp args hr h' ⟨errno', cells⟩ hs
  rw [r1, r2]
  simp only [Option.map_some, Option.some.injEq]
  apply List.ext_getElem? fun i => ?_
  by_cases hi : i < cells.length
  · obtain ⟨c1, hc1, p1⟩ := e1 i cells[i] (by simp [hi])
    obtain ⟨c2, hc2, p2⟩ := e2 i cells[i] (by simp [hi])
    rw [hc1, hc2]
    congr 1
    have huniq : ∀ {c d e : Cell R}, Marked outp c d → Marked outp c e → d = e := by
      intro c d e h1 h2
      cases d; cases e
      cases outp with
      | dontMark => exact Eq.trans (show _ = c from h1) (show _ = c from h2).symm
      | markValue nd => obtain ⟨rfl, rfl⟩ := h1; obtain ⟨a, b⟩ := h2; simp_all
      | markMask => obtain ⟨rfl, a⟩ := h1; obtain ⟨b, d⟩ := h2; simp_all
    by_cases hev : ∃ a, Evaluated withinDomain args i a
    · obtain ⟨a, ha⟩ := hev
      by_cases hre : RangeError alg withinDomain args i
      · exact huniq ((p1.2 a ha).1 hre) ((p2.2 a ha).1 hre)
      · rw [(p1.2 a ha).2 hre, (p2.2 a ha).2 hre]
    · have hev' : ∀ a, ¬ Evaluated withinDomain args i a := fun a ha => hev ⟨a, ha⟩
      exact huniq (p1.1 hev') (p2.1 hev')
  · rw [List.getElem?_eq_none (by rw [l1]; exact Nat.le_of_not_lt hi),
      List.getElem?_eq_none (by rw [l2]; exact Nat.le_of_not_lt hi)]

end

/-- C130 for `pow`. -/
theorem C130_pow {A R : Type} (f : A → R) (report : A → Option Errno) (withinDomain : A → Bool)
    (outp : OutPolicy R) (args : List (Option A)) {order : List (Nat × Nat)} (h : Execution args.length order)
    (s : State R) (hs : s.cells.length = args.length) :
    ∃ s', run (pow f report) withinDomain outp args order s = some s' ∧
      Elementwise (fun i => CellIs (pow f report) withinDomain outp args
        (∃ a, args[i]? = some (some a) ∧ withinDomain a = true ∧ report a = some .range) i) s.cells s'.cells := by
  obtain ⟨s', h1, h2, h3⟩ := C130_reset (pow f report) withinDomain outp args rfl h s hs
  refine ⟨s', h1, h2, fun i c hc => ?_⟩
  obtain ⟨c', hc', hcell⟩ := h3 i c hc
  refine ⟨c', hc', ?_⟩
  have : RangeError (pow f report) withinDomain args i =
      ∃ a, args[i]? = some (some a) ∧ withinDomain a = true ∧ report a = some .range := by
    simp [RangeError, Evaluated, pow, and_assoc]
  beta_reduce
  rwa [← this]

/-- C130 for `tgamma`: it is one of the algorithms that `C130_sticky` and `C130_inherited` are about, and the values
stored are those of the library. -/
theorem C130_tgamma {A R : Type} (f : A → R) (report : A → Option Errno) (withinDomain : A → Bool)
    (outp : OutPolicy R) (args : List (Option A)) (honly : ∀ a e, report a = some e → e = .range)
    {order : List (Nat × Nat)} (h : Execution args.length order)
    (s : State R) (hs : s.cells.length = args.length) (hbefore : ∀ t, s.errno t ≠ .range) :
    ∃ s', run (tgamma f report) withinDomain outp args order s = some s' ∧ s'.cells.length = args.length ∧
      ∀ i c a, s.cells[i]? = some c → args[i]? = some (some a) → withinDomain a = true →
        ∃ k t c', DoneBy order k t i ∧ s'.cells[i]? = some c' ∧
          ((∃ j ∈ doneUntil order k t, ∃ b, args[j]? = some (some b) ∧ withinDomain b = true ∧
              report b = some .range) → Marked outp ⟨f a, c.masked⟩ c') ∧
          ((¬ ∃ j ∈ doneUntil order k t, ∃ b, args[j]? = some (some b) ∧ withinDomain b = true ∧
              report b = some .range) → c' = ⟨f a, c.masked⟩) := by
  obtain ⟨s', h1, h2, h3⟩ := C130_inherited (tgamma f report) withinDomain outp args rfl honly h s hs hbefore
  refine ⟨s', h1, h2, fun i c a hc ha hd => ?_⟩
  obtain ⟨k, t, c', hk, hc', hcell⟩ := h3 i c hc
  have hcell := hcell.2 a ⟨ha, hd⟩
  simp only [RangeError, Evaluated, tgamma, and_assoc] at hcell
  exact ⟨k, t, c', hk, hc', hcell⟩

/-! ### What goes wrong -/

/-- Two threads, two elements, done by one thread or by both. -/
theorem one_thread : Execution 2 [(0, 0), (0, 1)] := by
  refine .d1 2 [[0], [1]] (by decide) ?_
  refine .take 0 _ _ _ _ (by decide) rfl ?_
  refine .work 0 0 [] _ _ _ (by decide) rfl ?_
  refine .take 0 _ _ _ _ (by decide) rfl ?_
  refine .work 0 1 [] _ _ _ (by decide) rfl ?_
  refine .done _ fun t => ?_
  by_cases h : t = 0 <;> simp [h]

theorem two_threads : Execution 2 [(0, 0), (1, 1)] := by
  refine .d1 2 [[0], [1]] (by decide) ?_
  refine .take 0 _ _ _ _ (by decide) rfl ?_
  refine .take 1 _ _ _ _ (by decide) rfl ?_
  refine .work 0 0 [] _ _ _ (by decide) rfl ?_
  refine .work 1 1 [] _ _ _ (by decide) rfl ?_
  refine .done _ fun t => ?_
  by_cases h : t = 0 <;> by_cases h' : t = 1 <;> simp [h, h']

section

variable {A R : Type} (alg : Algorithm A R) (hr : alg.resets = false) (withinDomain : A → Bool)
  {bad good : A} (hbad : alg.report bad = some .range) (hgood : alg.report good = none)
  (dbad : withinDomain bad = true) (dgood : withinDomain good = true)

include hr hbad hgood dbad dgood

/-- C130: for every algorithm that doesn't reset `errno`, an element for which there is no error is marked because
of the one before it, or not, depending on which thread does it: the same call has two results. -/
theorem C130_schedule_false (c : Cell R) (hc : c.masked = false) :
    ∃ o1 o2, Execution 2 o1 ∧ Execution 2 o2 ∧
      (run alg withinDomain .markMask [some bad, some good] o1 ⟨fun _ => .zero, [c, c]⟩).map (·.cells) =
        some [⟨alg.compute bad, true⟩, ⟨alg.compute good, true⟩] ∧
      (run alg withinDomain .markMask [some bad, some good] o2 ⟨fun _ => .zero, [c, c]⟩).map (·.cells) =
        some [⟨alg.compute bad, true⟩, ⟨alg.compute good, false⟩] := by
  refine ⟨_, _, one_thread, two_threads, ?_, ?_⟩ <;>
    simp [run, step, Algorithm.after, hr, hbad, hgood, dbad, dgood, withinRange, storeAct, OutPolicy.mark, hc]

omit hbad dbad in
/-- C130: what was left in `errno` before the call marks elements for which there is no error. -/
theorem C130_before_false (c : Cell R) :
    (run alg withinDomain .markMask [some good] (sequential 1) ⟨fun _ => .range, [c]⟩).map (·.cells) =
      some [⟨alg.compute good, true⟩] := by
  simp [run, step, sequential, Algorithm.after, hr, hgood, dgood, withinRange, storeAct, OutPolicy.mark]

end

/-- A gamma function of natural numbers whose results must be less than a thousand, sequentially: all that follows
`8` is marked. With `pow` only that element is. -/
example :
    (run (tgamma (fun n : Nat => (n - 1).factorial) fun n => if n < 8 then none else some .range) (fun _ => true)
      .markMask [some 3, some 8, none, some 4] (sequential 4) ⟨fun _ => .zero, List.replicate 4 ⟨0, false⟩⟩).map
        (·.cells) = some [⟨2, false⟩, ⟨5040, true⟩, ⟨0, true⟩, ⟨6, true⟩] ∧
    (run (pow (fun p : Nat × Nat => p.1 ^ p.2) fun p => if p.1 ^ p.2 < 1000 then none else some .range)
      (fun _ => true) .markMask [some (2, 3), some (10, 4), some (3, 2)] (sequential 3)
      ⟨fun _ => .range, List.replicate 3 ⟨0, false⟩⟩).map (·.cells) =
        some [⟨8, false⟩, ⟨10000, true⟩, ⟨9, false⟩] := by decide +kernel

end Fern.Errno
