import Verif.Lemmas.ThreadPool

/-!
# The thread pool (C06, C07)

Executions are sequences of steps: all interleavings, of any number of workers with any number of
submitting threads and the destructor.
-/

namespace Fern

/-! ### C06 -/

/-- Tasks are taken from the queue in the order in which they were submitted: the tasks taken up to
now, followed by the tasks that are queued, are the tasks submitted. -/
theorem C06_order (timed : Bool) (n : Nat) (steps : List PoolStep) (s : Pool)
    (h : Pool.initial.exec timed n steps = some s) :
    Spec.submitted s.log = Spec.taken s.log ++ s.queue :=
  (exec_invariant (P := OrderInv) orderInv_step (by rfl) h).symm

/-- No task is started more often than it was submitted. -/
theorem C06_at_most_once (timed : Bool) (n : Nat) (steps : List PoolStep) (s : Pool)
    (h : Pool.initial.exec timed n steps = some s) (t : Nat) :
    (Spec.started s.log).count t ≤ (Spec.submitted s.log).count t := by
  rw [C06_order timed n steps s h, List.count_append]
  have := (exec_invariant (P := CountInv n) countInv_step (countInv_initial n) h t).1
  omega

/-- So when the tasks submitted are distinct, none is started twice, none is taken twice, and only
submitted tasks are started. -/
theorem C06_once (timed : Bool) (n : Nat) (steps : List PoolStep) (s : Pool)
    (h : Pool.initial.exec timed n steps = some s) (hn : (Spec.submitted s.log).Nodup) :
    (Spec.started s.log).Nodup ∧ (Spec.taken s.log).Nodup ∧
      ∀ t ∈ Spec.started s.log, t ∈ Spec.submitted s.log := by
  refine ⟨List.nodup_iff_count_le_one.2 fun t => ?_, ?_, fun t ht => ?_⟩
  · exact (C06_at_most_once timed n steps s h t).trans (List.nodup_iff_count_le_one.1 hn t)
  · rw [C06_order timed n steps s h] at hn
    exact (List.nodup_append.1 hn).1
  · have h1 := List.count_pos_iff.2 ht
    exact List.count_pos_iff.1 (lt_of_lt_of_le h1 (C06_at_most_once timed n steps s h t))

/-- Two workers, three tasks; the second worker starts its task before the first one does. -/
example : ∃ s, Pool.initial.exec true 2 [.submit 10, .notify none, .submit 11, .worker 0, .worker 1,
      .worker 0, .worker 1, .submit 12, .worker 1, .worker 0, .worker 1] = some s ∧
    Spec.taken s.log = [10, 11] ∧ Spec.started s.log = [11, 10] ∧ Spec.finished s.log = [11] ∧
    s.queue = [12] := ⟨_, rfl, by decide, by decide, by decide, by decide⟩

/-! ### C07: progress -/

/-- Whatever the others do: while the pool is not being destroyed, a task at the front of the queue
has been taken after at most seven steps of any one worker. (A notification that is missed does not
matter for this.) -/
theorem C07_progress (n : Nat) (before steps : List PoolStep) (s s' : Pool) (t : Nat)
    (q : List Nat) (h0 : Pool.initial.exec true n before = some s)
    (h : s.exec true n steps = some s') (hd : s'.done = false) (hq : s.queue = t :: q) (w : Nat)
    (hw : 7 ≤ steps.countP (Spec.ownStep w)) :
    ∃ more, Spec.taken s'.log = Spec.taken s.log ++ t :: more := by
  have hlk : LockInv s := exec_invariant lockInv_step lockInv_initial h0
  have hne : s.queue ≠ [] := by rw [hq]; simp
  have hlt : (Spec.taken s.log).length < (Spec.taken s'.log).length := by
    refine lt_of_le_of_ne (taken_length_mono h) fun he => ?_
    obtain ⟨h1, h2⟩ := popRank_exec h hd hne he.symm w
    have hr : popRank (s.pc w) ≤ 7 := by cases s.pc w <;> simp [popRank]
    have : popRank (s'.pc w) = 0 := by omega
    have hx : s'.pc w = .exit := by
      cases hc : s'.pc w <;> rw [hc] at this <;> simp [popRank] at this ⊢
    have hlk' : LockInv s' := exec_invariant lockInv_step hlk h
    rw [hlk'.2 w hx] at hd
    simp at hd
  -- the tasks taken in addition are the first ones of the queue
  have h1 := C06_order true n before s h0
  have h' : Pool.initial.exec true n (before ++ steps) = some s' := by
    rw [Pool.exec, List.foldlM_append]
    change (Pool.initial.exec true n before).bind _ = _
    rw [h0, Option.bind_some]
    exact h
  have h2 := C06_order true n (before ++ steps) s' h'
  obtain ⟨e, he⟩ := exec_log_prefix h
  have e1 : Spec.taken s'.log = Spec.taken s.log ++ Spec.taken e := by
    rw [← he, Spec.taken, Spec.taken, Spec.taken, List.filterMap_append]
  have e2 : Spec.submitted s'.log = Spec.submitted s.log ++ Spec.submitted e := by
    rw [← he, Spec.submitted, Spec.submitted, Spec.submitted, List.filterMap_append]
  rw [e2, h1, e1, hq, List.append_assoc, List.append_assoc, List.append_right_inj] at h2
  cases hte : Spec.taken e with
  | nil => rw [e1, hte, List.append_nil] at hlt; omega
  | cons x more =>
    rw [hte] at h2
    simp only [List.cons_append, List.cons.injEq] at h2
    exact ⟨more, by rw [e1, hte, h2.1]⟩

/-- No worker is ever stuck: it can make a step, be it by its time-out, or it waits for the mutex
and the worker that has the mutex can make a step. -/
theorem C07_enabled (n : Nat) (steps : List PoolStep) (s : Pool)
    (h : Pool.initial.exec true n steps = some s) (w : Nat) (hw : w < n) (hx : s.pc w ≠ .exit) :
    (∃ s', s.step true n (.worker w) = some s') ∨ (∃ s', s.step true n (.wake w) = some s') ∨
    ∃ v, v ≠ w ∧ s.mutex = some v ∧ ∃ s', s.workerStep v = some s' := by
  have hlk : LockInv s := exec_invariant lockInv_step lockInv_initial h
  have blocked : s.pc w = .lock ∨ s.pc w = .relock → s.mutex ≠ none →
      ∃ v, v ≠ w ∧ s.mutex = some v ∧ ∃ s', s.workerStep v = some s' := by
    intro hp hm
    cases hv : s.mutex with
    | none => exact absurd hv hm
    | some v =>
      refine ⟨v, ?_, rfl, ?_⟩
      · rintro rfl
        rcases (hlk.1 v).1 hv with h | h <;> rcases hp with h' | h' <;> rw [h] at h' <;> simp at h'
      · rcases (hlk.1 v).1 hv with h | h
        · rw [Pool.workerStep, h]
          simp only
          split <;> exact ⟨_, rfl⟩
        · rw [Pool.workerStep, h]
          exact ⟨_, rfl⟩
  have own : (∃ s', s.workerStep w = some s') → ∃ s', s.step true n (.worker w) = some s' := by
    rintro ⟨s', h⟩
    exact ⟨s', by rw [Pool.step, if_pos hw, h]⟩
  cases hp : s.pc w with
  | exit => exact absurd hp hx
  | wait => exact .inr (.inl ⟨_, by rw [Pool.step, if_pos ⟨hw, rfl, hp⟩]⟩)
  | lock =>
    by_cases hm : s.mutex = none
    · exact .inl (own ⟨_, by rw [Pool.workerStep, hp]; simp only; rw [if_pos hm]⟩)
    · exact .inr (.inr (blocked (.inl hp) hm))
  | relock =>
    by_cases hm : s.mutex = none
    · exact .inl (own ⟨_, by rw [Pool.workerStep, hp]; simp only; rw [if_pos hm]⟩)
    · exact .inr (.inr (blocked (.inr hp) hm))
  | check => exact .inl (own ⟨_, by rw [Pool.workerStep, hp]⟩)
  | pop =>
    refine .inl (own ?_)
    cases hq : s.queue with
    | nil => exact ⟨_, by rw [Pool.workerStep, hp]; simp only; rw [hq]⟩
    | cons t q => exact ⟨_, by rw [Pool.workerStep, hp]; simp only; rw [hq]⟩
  | start t => exact .inl (own ⟨_, by rw [Pool.workerStep, hp]⟩)
  | run t => exact .inl (own ⟨_, by rw [Pool.workerStep, hp]⟩)
  | recheck =>
    refine .inl (own ?_)
    rw [Pool.workerStep, hp]
    simp only
    split <;> exact ⟨_, rfl⟩
  | unlock => exact .inl (own ⟨_, by rw [Pool.workerStep, hp]⟩)

/-- At most one worker is between locking and unlocking the mutex. -/
theorem C07_mutual_exclusion (timed : Bool) (n : Nat) (steps : List PoolStep) (s : Pool)
    (h : Pool.initial.exec timed n steps = some s) (v w : Nat)
    (hv : s.pc v = .recheck ∨ s.pc v = .unlock) (hw : s.pc w = .recheck ∨ s.pc w = .unlock) :
    v = w := by
  have hlk : LockInv s := exec_invariant lockInv_step lockInv_initial h
  have h1 := (hlk.1 v).2 hv
  have h2 := (hlk.1 w).2 hw
  rw [h1] at h2
  exact Option.some.inj h2

/-- The hypotheses of `C07_progress` are met: the worker misses the notification, and takes the
task after its time-out. -/
example : ∃ s s', Pool.initial.exec true 1 [.worker 0, .worker 0, .submit 5, .notify none] = some s ∧
    s.queue = [5] ∧
    s.exec true 1 [.worker 0, .worker 0, .wake 0, .worker 0, .worker 0, .worker 0, .worker 0] =
      some s' ∧ s'.done = false ∧ Spec.taken s'.log = [5] :=
  ⟨_, _, rfl, by decide, rfl, by decide, by decide⟩

/-- The time-out is what saves a task whose notification was missed: with the waiting that is
commented out, the only worker waits for ever, unless another task is submitted or the pool is
destroyed. -/
theorem C07_time_out_needed : ∃ steps s, Pool.initial.exec false 1 steps = some s ∧
    s.queue = [5] ∧ s.done = false ∧ s.toNotify = 0 ∧
    (∀ l s', s.step false 1 l = some s' → (∃ t, l = .submit t) ∨ l = .destroy) := by
  refine ⟨[.worker 0, .worker 0, .submit 5, .notify none, .worker 0, .worker 0], _, rfl, rfl, rfl, rfl, ?_⟩
  intro l s' h
  cases l with
  | submit t => exact .inl ⟨t, rfl⟩
  | destroy => exact .inr rfl
  | worker w =>
    rw [Pool.step] at h
    split at h
    · rename_i hw
      have : w = 0 := by omega
      subst this
      exact absurd h (by simp [Pool.workerStep, Pool.goto])
    · simp at h
  | wake w => simp [Pool.step] at h
  | notify o => cases o <;> simp [Pool.step, Pool.goto, Pool.initial] at h
  | notifyAll => simp [Pool.step, Pool.goto, Pool.initial] at h

/-! ### C07: destruction -/

/-- After `_done` has been set a worker takes at most one more task, and that only if it had passed
the test of `_done` and not looked in the queue yet. -/
theorem C07_after_destroy (timed : Bool) (n : Nat) (steps : List PoolStep) (s s' : Pool)
    (h : s.exec timed n steps = some s') (hd : s.done = true) (w : Nat) :
    Spec.takenBy w s'.log ≤ Spec.takenBy w s.log + (if s.pc w = .pop then 1 else 0) := by
  have := (exitRank_exec h hd w).2.1
  omega

/-- Once all workers have seen that the pool is being destroyed, no task is taken or started any
more, whatever is queued or submitted. -/
theorem C07_no_more (timed : Bool) (n : Nat) (steps : List PoolStep) (s s' : Pool)
    (hx : ∀ w < n, s.pc w = .exit) (h : s.exec timed n steps = some s') :
    Spec.taken s'.log = Spec.taken s.log ∧ Spec.started s'.log = Spec.started s.log ∧
      ∀ w < n, s'.pc w = .exit := by
  refine exec_invariant (P := fun u => Spec.taken u.log = Spec.taken s.log ∧
    Spec.started u.log = Spec.started s.log ∧ ∀ w < n, u.pc w = .exit) ?_ ⟨rfl, rfl, hx⟩ h
  rintro u l u' ⟨i1, i2, i3⟩ hs
  cases hs with
  | worker w _ hw hs =>
    have := i3 w hw
    cases hs <;> simp_all
  | wake w hw _ hp => rw [i3 w hw] at hp; simp at hp
  | submit t =>
    refine ⟨?_, ?_, i3⟩
    · rw [← i1]; simp [Spec.taken, List.filterMap_append]
    · rw [← i2]; simp [Spec.started, List.filterMap_append]
  | notifyNone => exact ⟨i1, i2, i3⟩
  | notify w hw hp => rw [i3 w hw] at hp; simp at hp
  | destroy => exact ⟨i1, i2, i3⟩
  | notifyAll hd =>
    refine ⟨i1, i2, fun w hw => ?_⟩
    simp [i3 w hw]

/-- The destructor's wait for the workers ends: after `_done` has been set a worker makes at most
seven steps (returning from its current task being one of them); until it has left, it can make a
step by `C07_enabled`. -/
theorem C07_exit (timed : Bool) (n : Nat) (steps : List PoolStep) (s s' : Pool)
    (h : s.exec timed n steps = some s') (hd : s.done = true) (w : Nat) :
    steps.countP (Spec.ownStep w) ≤ 7 ∧
      (7 ≤ steps.countP (Spec.ownStep w) → s'.pc w = .exit) := by
  have := (exitRank_exec h hd w).1
  have hr : exitRank (s.pc w) ≤ 7 := by cases s.pc w <;> simp [exitRank]
  refine ⟨by omega, fun h7 => ?_⟩
  have h0 : exitRank (s'.pc w) = 0 := by omega
  cases hc : s'.pc w <;> rw [hc] at h0 <;> simp [exitRank] at h0 ⊢

/-- When all workers have left: each task that was taken has finished (once), and the other tasks
submitted are still in the queue, to be dropped. -/
theorem C07_final (timed : Bool) (n : Nat) (steps : List PoolStep) (s : Pool)
    (h : Pool.initial.exec timed n steps = some s) (hx : ∀ w < n, s.pc w = .exit) :
    (Spec.finished s.log).Perm (Spec.taken s.log) ∧
      (Spec.finished s.log ++ s.queue).Perm (Spec.submitted s.log) := by
  have hc := exec_invariant (P := CountInv n) countInv_step (countInv_initial n) h
  have hz : ∀ q, q ≠ WorkerPc.exit → at_ n s q = 0 := by
    intro q hq
    refine Finset.sum_eq_zero fun v hv => ?_
    rw [hx v (Finset.mem_range.1 hv), if_neg (fun h => hq h.symm)]
  have hp : (Spec.finished s.log).Perm (Spec.taken s.log) := by
    refine List.perm_iff_count.2 fun t => ?_
    obtain ⟨h1, h2⟩ := hc t
    rw [hz _ (by simp)] at h1 h2
    omega
  refine ⟨hp, ?_⟩
  rw [C06_order timed n steps s h]
  exact hp.append_right _

/-- Tasks are dropped: a pool that is destroyed while a task is queued. -/
theorem C07_dropped : ∃ steps s, Pool.initial.exec true 1 steps = some s ∧ s.pc 0 = .exit ∧
    Spec.submitted s.log = [1, 2] ∧ Spec.finished s.log = [1] ∧ s.queue = [2] :=
  ⟨[.submit 1, .notify none, .submit 2, .notify none, .worker 0, .worker 0, .worker 0, .destroy,
    .notifyAll, .worker 0, .worker 0], _, rfl, by decide, by decide, by decide, by decide⟩

end Fern
