import Verif.Lemmas.FuturesRun
import Verif.Props.Aggregate

/-!
# Values and exceptions of tasks (C116)

Executions are sequences of steps: all interleavings of any number of threads that call operations,
of the workers of the pool, of notifications and time-outs, and of the destruction of the pool.
-/

namespace Fern.Futures

open _root_.Fern.Futures.Spec
open _root_.Fern.Spec (PolicyFor PureAccumulator)

variable {T E : Type}

/-! ### What comes out of operations -/

/-- Whatever the execution: what came out of the operations a thread has called is, one by one and in
order, what comes out of their tasks when these are called one after the other: all values in the
order of the tasks, or the exception of the first task that throws, also when another task threw
before it did. Or it is an exception that tells that the pool was destroyed. -/
theorem C116_results {n : Nat} {programs : Nat → List (List (Task T E))} {steps : List Step}
    {s : Machine T E} (h : (Machine.initial programs).exec n steps = some s) (i : Nat) :
    ∃ called, called <+: programs i ∧ List.Forall₂ (fun ts r => r = thrown (inOrder ts) ∨
      (s.destroyed = true ∧ r = .error .broken)) called (s.caller i).results := by
  obtain ⟨done, h1, h2⟩ := (callerInv_exec h i).made
  refine ⟨done, ?_, h1⟩
  split at h2
  · exact ⟨_, h2.symm⟩
  · obtain ⟨ts, h3, _⟩ := h2
    exact ⟨_, h3.symm⟩
  · obtain ⟨ts0, ts, h3, _⟩ := h2
    exact ⟨_, h3.symm⟩

/-- So when a thread has returned from its last operation, and the pool has not been destroyed, the
results are those of the operations in a single thread. -/
theorem C116_all {n : Nat} {programs : Nat → List (List (Task T E))} {steps : List Step}
    {s : Machine T E} (h : (Machine.initial programs).exec n steps = some s) (i : Nat)
    (hd : s.destroyed = false) (hi : (s.caller i).pc = .idle) (hr : (s.caller i).rest = []) :
    (s.caller i).results = (programs i).map (fun ts => thrown (inOrder ts)) := by
  obtain ⟨done, h1, h2⟩ := (callerInv_exec h i).made
  rw [hi] at h2
  simp only [hr, List.append_nil] at h2
  rw [h2]
  clear h2
  generalize (s.caller i).results = rs at h1
  induction h1 with
  | nil => rfl
  | cons h _ ih =>
    rcases h with h | ⟨h, _⟩
    · rw [List.map_cons, ← ih, h]
    · rw [hd] at h; cases h

/-- Two tasks: the second throws first, and the operation waits for the first. The exception is that
of the first. -/
def twoThrow : Nat → List (List (Task Nat Nat)) :=
  fun i => if i = 0 then [[⟨1, .error 7⟩, ⟨1, .error 8⟩], [⟨0, .ok 5⟩, ⟨0, .ok 6⟩]] else []

/-- Worker `w` comes to the task it takes next. -/
def takes (w : Nat) : List Step := [.pool (.worker w), .pool (.worker w), .pool (.worker w)]

/-- An execution with two workers. -/
def twoSteps : List Step :=
  [.call 0, .submit 0, .submit 0, .submit 0] ++ takes 0 ++ takes 1 ++
  [.access 1, .pool (.worker 1), .access 0, .pool (.worker 0), .get 0,
   .call 0, .submit 0, .submit 0, .submit 0] ++ takes 1 ++ [.pool (.worker 1)] ++ takes 1 ++
  [.pool (.worker 1), .get 0, .get 0, .get 0]

/-- For looking at results. -/
def shown : Except (Failure Nat) (List Nat) → List Nat × Option (Failure Nat)
  | .ok l => (l, none)
  | .error e => ([], some e)

example : ((Machine.initial twoThrow).exec 2 twoSteps).map
      (fun s => ((s.caller 0).results.map shown, s.destroyed, (s.caller 0).rest.length)) =
    some ([([], some (.thrown 7)), ([5, 6], none)], false, 0) := by decide +kernel

/-- Parallel aggregations of 1D arrays, end to end: any number of threads with one pool, any
interleaving. The tasks return what came out of their block; what the operation then makes of them is
what the sequential operation computes. -/
theorem C116_aggregate_1d {S V R : Type} (A : Accumulator S V R) (P : S → Prop) (Q : V → Prop)
    (f : S → V → S) (m : S → S → S) (hA : PureAccumulator A P Q f m) (p : InPolicy V)
    (vals : List V) (hv : ∀ v ∈ vals, Q v) (hp : PolicyFor p vals.length) {n : Nat} (hn : 1 ≤ n)
    {ranges : List IndexRange} (hr : indexRanges n vals.length = some ranges)
    {blocks : List (Aggregated S)} (hb : ranges.mapM (aggregate1d A p vals) = some blocks)
    {programs : Nat → List (List (Task (Aggregated S) E))} {i : Nat}
    {ts : List (Task (Aggregated S) E)} (hts : ts.map Task.outcome = blocks.map Except.ok)
    (hpr : programs i = [ts]) {steps : List Step} {s : Machine (Aggregated S) E}
    (h : (Machine.initial programs).exec n steps = some s) (hd : s.destroyed = false)
    (hi : (s.caller i).pc = .idle) (hrest : (s.caller i).rest = []) (outp : OutPolicy R)
    (c : Cell R) : ∃ got, (s.caller i).results = [.ok got] ∧
      ((mergeBlocks A got ⟨false, false, A.init⟩).bind fun a => storeAggregate A outp a c) =
        aggregateSeq1d A p vals outp c := by
  refine ⟨blocks, ?_, ?_⟩
  · rw [C116_all h i hd hi hrest, hpr]
    have : inOrder ts = .ok blocks := by
      refine inOrder_ok ?_
      clear hb hpr
      induction ts generalizing blocks with
      | nil =>
        cases blocks with
        | nil => exact .nil
        | cons b bs => simp at hts
      | cons t ts ih =>
        cases blocks with
        | nil => simp at hts
        | cons b bs =>
          simp only [List.map_cons, List.cons.injEq] at hts
          exact .cons hts.1 (ih hts.2)
    simp [this, thrown]
  · rw [← C36_parallel_1d A P Q f m hA p vals hv hp n hn outp c]
    simp [aggregatePar1d, hr, hb]

/-- Parallel aggregations of 2D arrays, end to end. -/
theorem C116_aggregate_2d {S V R : Type} (A : Accumulator S V R) (P : S → Prop) (Q : V → Prop)
    (f : S → V → S) (m : S → S → S) (hA : PureAccumulator A P Q f m) (p : InPolicy V)
    (n1 n2 : Nat) (vals : List V) (hsz : vals.length = n1 * n2) (hv : ∀ v ∈ vals, Q v)
    (hp : PolicyFor p vals.length) {n : Nat} (hn : 1 ≤ n)
    {ranges : List IndexRanges2} (hr : indexRanges2 n n1 n2 = some ranges)
    {blocks : List (Aggregated S)} (hb : ranges.mapM (aggregate2d A p vals n2) = some blocks)
    {programs : Nat → List (List (Task (Aggregated S) E))} {i : Nat}
    {ts : List (Task (Aggregated S) E)} (hts : ts.map Task.outcome = blocks.map Except.ok)
    (hpr : programs i = [ts]) {steps : List Step} {s : Machine (Aggregated S) E}
    (h : (Machine.initial programs).exec n steps = some s) (hd : s.destroyed = false)
    (hi : (s.caller i).pc = .idle) (hrest : (s.caller i).rest = []) (outp : OutPolicy R)
    (c : Cell R) : ∃ got, (s.caller i).results = [.ok got] ∧
      ((mergeBlocks A got ⟨false, false, A.init⟩).bind fun a => storeAggregate A outp a c) =
        aggregateSeq2d A p vals n1 n2 outp c := by
  refine ⟨blocks, ?_, ?_⟩
  · rw [C116_all h i hd hi hrest, hpr]
    have : inOrder ts = .ok blocks := by
      refine inOrder_ok ?_
      clear hb hpr
      induction ts generalizing blocks with
      | nil =>
        cases blocks with
        | nil => exact .nil
        | cons b bs => simp at hts
      | cons t ts ih =>
        cases blocks with
        | nil => simp at hts
        | cons b bs =>
          simp only [List.map_cons, List.cons.injEq] at hts
          exact .cons hts.1 (ih hts.2)
    simp [this, thrown]
  · rw [← C36_parallel_2d A P Q f m hA p n1 n2 vals hsz hv hp n hn outp c]
    simp [aggregatePar2d, hr, hb]

/-- The sum of five numbers, three blocks by one of two workers. -/
example : ((indexRanges 2 5).bind fun rs =>
      rs.mapM (aggregate1d (sumAcc .discard .u8) (.detect (· == 255)) [255, 255, 200, 100, 1])) =
    some [⟨false, true, 0⟩, ⟨true, true, 44⟩, ⟨true, true, 1⟩] ∧
  ((Machine.initial (E := Nat) (fun i => if i = 0 then
      [[⟨2, .ok (⟨false, true, 0⟩ : Aggregated Int)⟩, ⟨1, .ok ⟨true, true, 44⟩⟩,
        ⟨0, .ok ⟨true, true, 1⟩⟩]] else [])).exec 2
    ([.call 0, .submit 0, .submit 0, .submit 0, .submit 0] ++ takes 0 ++
      [.access 0, .access 0, .pool (.worker 0)] ++ takes 0 ++ [.access 0, .pool (.worker 0)] ++
      takes 0 ++ [.pool (.worker 0), .get 0, .get 0, .get 0, .get 0])).map
    (fun s => (s.destroyed, (s.caller 0).rest.length, (s.caller 0).results.map (fun r =>
      match r with
      | .ok l => l
      | .error _ => []))) =
    some (false, 0, [[⟨false, true, 0⟩, ⟨true, true, 44⟩, ⟨true, true, 1⟩]]) := by decide +kernel

/-! ### Workers and exceptions -/

/-- A task that throws does not stop a worker: whichever tasks throw, every task that was submitted
ends. There is a number such that its future is ready once each worker has made that many steps,
unless destruction of the pool has begun. -/
theorem C116_ready {n : Nat} (hn : 1 ≤ n) {programs : Nat → List (List (Task T E))}
    {before : List Step} {s : Machine T E}
    (h : (Machine.initial programs).exec n before = some s) (f : Nat) (hf : f < s.next) :
    ∃ k : Nat, ∀ (steps : List Step) (s' : Machine T E), s.exec n steps = some s' →
      s'.pool.done = false → (∀ v < n, k ≤ steps.countP (ownStep v)) → s'.ready f = true := by
  obtain ⟨ls, u, h1, h2, h3⟩ := sim_initial_exec h
  obtain ⟨k, hk⟩ := PoolRun.C114_ready hn h1 f (by rw [h2.next]; exact hf)
  refine ⟨k, fun steps s' he hd hc => ?_⟩
  obtain ⟨ls', u', k1, k2, _, _, k5⟩ := sim_exec (callerInv_exec h) h2 h3 he
  rw [← sim_ready k2]
  exact hk ls' u' k1 (by rw [k2.pool]; exact hd) fun v hv => by rw [k5]; exact hc v hv

/-- And a thread that waits for a future that is ready goes on; so does one that waits for any future
once the pool has been destroyed. -/
theorem C116_get {n : Nat} {programs : Nat → List (List (Task T E))} {steps : List Step}
    {s : Machine T E} (h : (Machine.initial programs).exec n steps = some s) (i : Nat)
    {got : List T} {f : Nat} {fs : List Nat} (hi : (s.caller i).pc = .waiting got (f :: fs)) :
    f < s.next ∧ ((s.ready f = true ∨ s.destroyed = true) ↔ ∃ s', s.step n (.get i) = some s') := by
  obtain ⟨done, h1, h2⟩ := (callerInv_exec h i).made
  rw [hi] at h2
  obtain ⟨ts0, ts, h3, h4, h5⟩ := h2
  cases h5 with
  | @cons _ t _ ts' h6 h7 =>
  have hc : s.caller i = ⟨.waiting got (f :: fs), (s.caller i).rest, (s.caller i).results⟩ := by
    rw [← hi]
  refine ⟨h6.1, ?_, ?_⟩
  · intro hor
    simp only [Machine.step, Machine.get]
    rw [hc]
    simp only
    by_cases hr : s.ready f = true
    · rw [if_pos hr, h6.2]
      obtain ⟨a, o⟩ := t
      cases o <;> exact ⟨_, rfl⟩
    · rw [if_neg hr]
      have hd := hor.resolve_left hr
      obtain ⟨_, u, _, k1, k2⟩ := sim_initial_exec h
      have hex := fexec_invariant (P := fun s => s.destroyed = true → ∀ w < n, s.pool.pc w = .exit)
        destroyed_step (by simp [Machine.initial]) h hd
      have ht := k2.total f
      rw [k1.pool, k1.next, if_pos h6.1] at ht
      have z1 : at_ n s.pool (.start f) = 0 :=
        Finset.sum_eq_zero fun v hv => by simp [hex v (Finset.mem_range.1 hv)]
      have z2 : at_ n s.pool (.run f) = 0 :=
        Finset.sum_eq_zero fun v hv => by simp [hex v (Finset.mem_range.1 hv)]
      have z3 : (Fern.Spec.finished s.pool.log).count f = 0 :=
        List.count_eq_zero.2 fun hm => hr (ready_iff.2 hm)
      have hq : f ∈ s.pool.queue := by
        rw [← List.count_pos_iff]
        omega
      rw [if_pos (by simp [hd, hq])]
      exact ⟨_, rfl⟩
  · rintro ⟨s', hs⟩
    have := FStep.of_step hs
    cases this with
    | value i' f' got' fs' rest rs j v hc' hr hj hv =>
      rw [hc'] at hi; cases hi; exact .inl hr
    | throws i' f' got' fs' rest rs j e hc' hr hj hv =>
      rw [hc'] at hi; cases hi; exact .inl hr
    | broken i' f' got' fs' rest rs hc' hd hq => exact .inr hd
    | «return» i' got' rest rs hc' => rw [hc'] at hi; cases hi

/-- The destructor: a task that is queued when the workers have left is never called, and the thread
that asks for its value gets an exception. -/
example : ((Machine.initial twoThrow).exec 1
      ([.call 0, .submit 0, .submit 0, .submit 0] ++ takes 0 ++
        [.access 0, .pool .destroy, .pool (.worker 0), .pool (.worker 0), .dispose, .get 0, .call 0])).map (fun s => ((s.caller 0).results.map shown, s.pool.queue)) =
    some ([([], some (.thrown 7))], [1]) ∧
  ((Machine.initial (fun i => if i = 1 then [[⟨1, .ok 4⟩, ⟨1, .ok 5⟩]] else
      ([] : List (List (Task Nat Nat))))).exec 1
      ([.call 1, .submit 1, .submit 1, .submit 1] ++ takes 0 ++
        [.access 0, .pool .destroy, .pool (.worker 0), .pool (.worker 0), .dispose, .get 1,
          .get 1])).map (fun s => (s.caller 1).results.map shown) =
    some [([], some .broken)] := by decide +kernel

/-! ### What belongs to operations -/

/-- When no task throws, except possibly the last one of an operation, no task reads anything that
belonged to an operation that has returned or thrown; also when the pool is destroyed meanwhile. -/
theorem C116_safe {n : Nat} {programs : Nat → List (List (Task T E))}
    (ho : ∀ i, ∀ ts ∈ programs i, OnlyLast ts) {steps : List Step} {s : Machine T E}
    (h : (Machine.initial programs).exec n steps = some s) : s.dangling = false :=
  (no_dangling ho h).2

/-- Without this it may: an operation leaves with the exception of a task, without waiting for the
tasks after it; these read the operation's ranges and arguments through references. For any number of
workers, and any such operation. -/
theorem C116_dangling {n i : Nat} (hn : 1 ≤ n) {programs : Nat → List (List (Task T E))}
    {ts : List (Task T E)} {rest : List (List (Task T E))} (hp : programs i = ts :: rest)
    (h : Early ts) : ∃ steps s, (Machine.initial programs).exec n steps = some s ∧
      s.dangling = true ∧ ∃ e, (s.caller i).results = [.error (.thrown e)] := by
  obtain ⟨s, ⟨ls, h1⟩, h2, h3⟩ := dangling_exec hn hp h
  exact ⟨ls, s, h1, h2, h3⟩

theorem early_of_not_onlyLast {ts : List (Task T E)} (ha : ∀ t ∈ ts, 0 < t.accesses)
    (h : ¬ OnlyLast ts) : Early ts := by
  simp only [OnlyLast, not_forall, not_not] at h
  obtain ⟨t, ht, hth⟩ := h
  have hne : ts ≠ [] := by rintro rfl; simp at ht
  obtain ⟨l, r, hlr⟩ := List.append_of_mem ht
  refine ⟨l, t, r, ts.getLast hne, [], ?_, hth, ha _ (List.getLast_mem hne)⟩
  conv_lhs => rw [← List.dropLast_concat_getLast hne, hlr]

/-- Hence for an operation all of whose tasks read something: it is safe exactly when no task but the
last one throws. -/
theorem C116_safe_iff {n : Nat} (hn : 1 ≤ n) {ts : List (Task T E)}
    (ha : ∀ t ∈ ts, 0 < t.accesses) :
    (∀ (steps : List Step) (s : Machine T E), (Machine.initial
      (fun i => if i = 0 then [ts] else [])).exec n steps = some s → s.dangling = false) ↔
    OnlyLast ts := by
  constructor
  · intro h
    by_contra hc
    obtain ⟨steps, s, h1, h2, _⟩ := C116_dangling (i := 0) hn
      (programs := fun i => if i = 0 then [ts] else []) (rest := []) rfl
      (early_of_not_onlyLast ha hc)
    rw [h steps s h1] at h2
    cases h2
  · intro ho steps s h
    refine C116_safe (fun i ts' hts' => ?_) h
    split at hts'
    · simp only [List.mem_singleton] at hts'
      subst hts'
      exact ho
    · simp at hts'

/-- One worker, two tasks, the first throws: the operation has thrown while the second is queued. -/
example : ((Machine.initial twoThrow).exec 1
      ([.call 0, .submit 0, .submit 0, .submit 0] ++ takes 0 ++
        [.access 0, .pool (.worker 0), .get 0] ++ takes 0 ++ [.access 0])).map
      (fun s => (s.dangling, (s.caller 0).results.map shown)) =
    some (true, [([], some (.thrown 7))]) ∧
  OnlyLast [(⟨1, .ok 5⟩ : Task Nat Nat), ⟨1, .error 8⟩] ∧
  ¬ OnlyLast [(⟨1, .error 7⟩ : Task Nat Nat), ⟨1, .ok 5⟩] := by
  refine ⟨by decide +kernel, ?_, fun h => h ⟨1, .error 7⟩ (by simp) ⟨7, rfl⟩⟩
  rintro t ht ⟨e, he⟩
  simp at ht
  subst ht
  cases he

end Fern.Futures
