import Verif.Spec.ThreadPool
import Verif.Lemmas.Scope
import Mathlib.Algebra.BigOperators.Group.Finset.Basic
import Mathlib.Algebra.Order.BigOperators.Group.Finset
import Mathlib.Tactic.Ring

/-!
Lemmas about the thread pool.
-/

namespace Fern

open WorkerPc

/-- The steps of a worker, case by case. -/
inductive WStep (s : Pool) (w : Nat) : Pool → Prop
  | checkExit : s.pc w = .check → s.done = true → WStep s w (s.goto w .exit)
  | checkPop : s.pc w = .check → s.done = false → WStep s w (s.goto w .pop)
  | empty : s.pc w = .pop → s.queue = [] → WStep s w (s.goto w .lock)
  | take (t : Nat) (q : List Nat) : s.pc w = .pop → s.queue = t :: q →
      WStep s w { s.gotoLog w (.start t) (.took w t) with queue := q }
  | start (t : Nat) : s.pc w = .start t → WStep s w (s.gotoLog w (.run t) (.started w t))
  | finish (t : Nat) : s.pc w = .run t → WStep s w (s.gotoLog w .check (.finished w t))
  | lock : s.pc w = .lock → s.mutex = none → WStep s w { s.goto w .recheck with mutex := some w }
  | recheckDone : s.pc w = .recheck → s.done = true → WStep s w (s.goto w .unlock)
  | recheckWait : s.pc w = .recheck → s.done = false →
      WStep s w { s.goto w .wait with mutex := none }
  | relock : s.pc w = .relock → s.mutex = none → WStep s w { s.goto w .unlock with mutex := some w }
  | unlock : s.pc w = .unlock → WStep s w { s.goto w .check with mutex := none }

theorem WStep.of_step {s s' : Pool} {w : Nat} (h : s.workerStep w = some s') : WStep s w s' := by
  rw [Pool.workerStep] at h
  split at h
  · rename_i hp
    cases h
    cases hd : s.done
    · exact .checkPop hp hd
    · exact .checkExit hp hd
  · rename_i hp
    split at h
    · rename_i hq; cases h; exact .empty hp hq
    · rename_i t q hq; cases h; exact .take t q hp hq
  · rename_i t hp; cases h; exact .start t hp
  · rename_i t hp; cases h; exact .finish t hp
  · rename_i hp
    split at h
    · rename_i hm; cases h; exact .lock hp hm
    · simp at h
  · rename_i hp
    split at h
    · rename_i hd; cases h; exact .recheckDone hp hd
    · rename_i hd; cases h; exact .recheckWait hp (by simpa using hd)
  · simp at h
  · rename_i hp
    split at h
    · rename_i hm; cases h; exact .relock hp hm
    · simp at h
  · rename_i hp; cases h; exact .unlock hp
  · simp at h

/-- The steps of a pool, case by case. -/
inductive PStep (timed : Bool) (n : Nat) (s : Pool) : PoolStep → Pool → Prop
  | worker (w : Nat) (s' : Pool) : w < n → WStep s w s' → PStep timed n s (.worker w) s'
  | wake (w : Nat) : w < n → timed = true → s.pc w = .wait →
      PStep timed n s (.wake w) (s.goto w .relock)
  | submit (t : Nat) : PStep timed n s (.submit t) { s with
      queue := s.queue ++ [t], toNotify := s.toNotify + 1, log := s.log ++ [.submitted t] }
  | notifyNone : PStep timed n s (.notify none) { s with toNotify := s.toNotify - 1 }
  | notify (w : Nat) : w < n → s.pc w = .wait →
      PStep timed n s (.notify (some w)) { s.goto w .relock with toNotify := s.toNotify - 1 }
  | destroy : PStep timed n s .destroy { s with done := true }
  | notifyAll : s.done = true → PStep timed n s .notifyAll
      { s with pc := fun w => if s.pc w = .wait then .relock else s.pc w }

theorem PStep.of_step {timed : Bool} {n : Nat} {s s' : Pool} {l : PoolStep}
    (h : s.step timed n l = some s') : PStep timed n s l s' := by
  cases l with
  | worker w =>
    rw [Pool.step] at h
    split at h
    · rename_i hw; exact .worker w s' hw (.of_step h)
    · simp at h
  | wake w =>
    rw [Pool.step] at h
    split at h
    · rename_i hw; cases h; exact .wake w hw.1 hw.2.1 hw.2.2
    · simp at h
  | submit t => cases h; exact .submit t
  | notify o =>
    cases o with
    | none =>
      rw [Pool.step] at h
      split at h
      · cases h; exact .notifyNone
      · simp at h
    | some w =>
      rw [Pool.step] at h
      split at h
      · rename_i hw; cases h; exact .notify w hw.2.1 hw.2.2
      · simp at h
  | destroy => cases h; exact .destroy
  | notifyAll =>
    rw [Pool.step] at h
    split at h
    · rename_i hw; cases h; exact .notifyAll hw
    · simp at h

theorem exec_nil (timed : Bool) (n : Nat) (s : Pool) : s.exec timed n [] = some s := rfl

theorem exec_snoc {timed : Bool} {n : Nat} {s s' : Pool} {ls : List PoolStep} {l : PoolStep}
    (h : s.exec timed n (ls ++ [l]) = some s') :
    ∃ u, s.exec timed n ls = some u ∧ PStep timed n u l s' := by
  rw [Pool.exec, foldlM_snoc] at h
  obtain ⟨u, hu, hl⟩ := Option.bind_eq_some_iff.1 h
  exact ⟨u, hu, .of_step hl⟩

theorem exec_append {timed : Bool} {n : Nat} {s s' : Pool} {l1 l2 : List PoolStep}
    (h : s.exec timed n (l1 ++ l2) = some s') :
    ∃ u, s.exec timed n l1 = some u ∧ u.exec timed n l2 = some s' := by
  rw [Pool.exec, List.foldlM_append] at h
  exact Option.bind_eq_some_iff.1 h

theorem exec_invariant {timed : Bool} {n : Nat} {P : Pool → Prop}
    (hP : ∀ s l s', P s → PStep timed n s l s' → P s') {s s' : Pool} {ls : List PoolStep}
    (h0 : P s) (h : s.exec timed n ls = some s') : P s' := by
  induction ls using List.reverseRecOn generalizing s' with
  | nil => cases h; exact h0
  | append_singleton ls l ih =>
    obtain ⟨u, hu, hl⟩ := exec_snoc h
    exact hP u l s' (ih hu) hl

/-! ### Locking -/

/-- The mutex is held by the workers that are where it is held; workers leave only when the pool is
being destroyed. -/
def LockInv (s : Pool) : Prop :=
  (∀ v, s.mutex = some v ↔ s.pc v = .recheck ∨ s.pc v = .unlock) ∧ ∀ v, s.pc v = .exit → s.done = true

theorem lockInv_initial : LockInv Pool.initial := by
  constructor <;> intro v <;> simp [Pool.initial]

theorem update_pc (f : Nat → WorkerPc) (w : Nat) (p : WorkerPc) (v : Nat) :
    Function.update f w p v = if v = w then p else f v := by
  rw [Function.update_apply]

theorem lockInv_step {timed : Bool} {n : Nat} (s : Pool) (l : PoolStep) (s' : Pool) (hi : LockInv s)
    (h : PStep timed n s l s') : LockInv s' := by
  obtain ⟨h1, h2⟩ := hi
  cases h with
  | worker w s' hw hs =>
    have hw1 := h1 w
    cases hs with
    | checkExit hp hd =>
      refine ⟨fun v => ?_, fun v hv => hd⟩
      simp only [Pool.goto, update_pc]
      by_cases hv : v = w
      · subst hv; simp [h1, hp]
      · simp [hv, h1]
    | checkPop hp hd =>
      refine ⟨fun v => ?_, fun v hv => ?_⟩
      · simp only [Pool.goto, update_pc]
        by_cases hv : v = w
        · subst hv; simp [h1, hp]
        · simp [hv, h1]
      · simp only [Pool.goto, update_pc] at hv
        split at hv
        · simp at hv
        · exact h2 v hv
    | empty hp hq =>
      refine ⟨fun v => ?_, fun v hv => ?_⟩
      · simp only [Pool.goto, update_pc]
        by_cases hv : v = w
        · subst hv; simp [h1, hp]
        · simp [hv, h1]
      · simp only [Pool.goto, update_pc] at hv
        split at hv
        · simp at hv
        · exact h2 v hv
    | take t q hp hq =>
      refine ⟨fun v => ?_, fun v hv => ?_⟩
      · simp only [Pool.gotoLog, Pool.goto, update_pc]
        by_cases hv : v = w
        · subst hv; simp [h1, hp]
        · simp [hv, h1]
      · simp only [Pool.gotoLog, Pool.goto, update_pc] at hv
        split at hv
        · simp at hv
        · exact h2 v hv
    | start t hp =>
      refine ⟨fun v => ?_, fun v hv => ?_⟩
      · simp only [Pool.gotoLog, Pool.goto, update_pc]
        by_cases hv : v = w
        · subst hv; simp [h1, hp]
        · simp [hv, h1]
      · simp only [Pool.gotoLog, Pool.goto, update_pc] at hv
        split at hv
        · simp at hv
        · exact h2 v hv
    | finish t hp =>
      refine ⟨fun v => ?_, fun v hv => ?_⟩
      · simp only [Pool.gotoLog, Pool.goto, update_pc]
        by_cases hv : v = w
        · subst hv; simp [h1, hp]
        · simp [hv, h1]
      · simp only [Pool.gotoLog, Pool.goto, update_pc] at hv
        split at hv
        · simp at hv
        · exact h2 v hv
    | lock hp hm =>
      refine ⟨fun v => ?_, fun v hv => ?_⟩
      · simp only [Pool.goto, update_pc]
        by_cases hv : v = w
        · subst hv; simp
        · have := h1 v
          rw [hm] at this
          simp only [hv, if_false, ← this]
          have hwv : ¬ w = v := fun h => hv h.symm
          simp [hwv]
      · simp only [Pool.goto, update_pc] at hv
        split at hv
        · simp at hv
        · exact h2 v hv
    | recheckDone hp hd =>
      refine ⟨fun v => ?_, fun v hv => hd⟩
      simp only [Pool.goto, update_pc]
      by_cases hv : v = w
      · subst hv; simp [h1, hp]
      · simp [hv, h1]
    | recheckWait hp hd =>
      have hmw : s.mutex = some w := (h1 w).2 (.inl hp)
      refine ⟨fun v => ?_, fun v hv => ?_⟩
      · simp only [Pool.goto, update_pc]
        by_cases hv : v = w
        · subst hv; simp
        · have := h1 v
          rw [hmw] at this
          simp only [hv, if_false, ← this]
          have hwv : ¬ w = v := fun h => hv h.symm
          simp [hwv]
      · simp only [Pool.goto, update_pc] at hv
        split at hv
        · simp at hv
        · exact h2 v hv
    | relock hp hm =>
      refine ⟨fun v => ?_, fun v hv => ?_⟩
      · simp only [Pool.goto, update_pc]
        by_cases hv : v = w
        · subst hv; simp
        · have := h1 v
          rw [hm] at this
          simp only [hv, if_false, ← this]
          have hwv : ¬ w = v := fun h => hv h.symm
          simp [hwv]
      · simp only [Pool.goto, update_pc] at hv
        split at hv
        · simp at hv
        · exact h2 v hv
    | unlock hp =>
      have hmw : s.mutex = some w := (h1 w).2 (.inr hp)
      refine ⟨fun v => ?_, fun v hv => ?_⟩
      · simp only [Pool.goto, update_pc]
        by_cases hv : v = w
        · subst hv; simp
        · have := h1 v
          rw [hmw] at this
          simp only [hv, if_false, ← this]
          have hwv : ¬ w = v := fun h => hv h.symm
          simp [hwv]
      · simp only [Pool.goto, update_pc] at hv
        split at hv
        · simp at hv
        · exact h2 v hv
  | wake w hw ht hp =>
    refine ⟨fun v => ?_, fun v hv => ?_⟩
    · simp only [Pool.goto, update_pc]
      by_cases hv : v = w
      · subst hv; simp [h1, hp]
      · simp [hv, h1]
    · simp only [Pool.goto, update_pc] at hv
      split at hv
      · simp at hv
      · exact h2 v hv
  | submit t => exact ⟨h1, h2⟩
  | notifyNone => exact ⟨h1, h2⟩
  | notify w hw hp =>
    refine ⟨fun v => ?_, fun v hv => ?_⟩
    · simp only [Pool.goto, update_pc]
      by_cases hv : v = w
      · subst hv; simp [h1, hp]
      · simp [hv, h1]
    · simp only [Pool.goto, update_pc] at hv
      split at hv
      · simp at hv
      · exact h2 v hv
  | destroy => exact ⟨h1, fun _ _ => rfl⟩
  | notifyAll hd =>
    refine ⟨fun v => ?_, fun v hv => hd⟩
    simp only
    by_cases hv : s.pc v = .wait
    · simp [hv, h1]
    · simp [hv, h1]

/-! ### What happens to the tasks -/

/-- The tasks taken followed by those still queued are the tasks submitted. -/
def OrderInv (s : Pool) : Prop := Spec.taken s.log ++ s.queue = Spec.submitted s.log

theorem orderInv_step {timed : Bool} {n : Nat} (s : Pool) (l : PoolStep) (s' : Pool)
    (hi : OrderInv s) (h : PStep timed n s l s') : OrderInv s' := by
  rw [OrderInv] at *
  cases h with
  | worker w s' hw hs =>
    cases hs with
    | take t q hp hq =>
      rw [hq] at hi
      simp only [Pool.gotoLog, Spec.taken, Spec.submitted, List.filterMap_append] at *
      simp only [List.filterMap_cons, List.filterMap_nil, List.append_nil, List.append_assoc]
      exact hi
    | start t hp =>
      simpa [Pool.gotoLog, Pool.goto, Spec.taken, Spec.submitted, List.filterMap_append] using hi
    | finish t hp =>
      simpa [Pool.gotoLog, Pool.goto, Spec.taken, Spec.submitted, List.filterMap_append] using hi
    | _ => exact hi
  | submit t =>
    simp only [Spec.taken, Spec.submitted, List.filterMap_append] at *
    simp only [List.filterMap_cons, List.filterMap_nil, List.append_nil, ← hi, List.append_assoc]
  | _ => exact hi

/-- Number of workers that are at `p`. -/
def at_ (n : Nat) (s : Pool) (p : WorkerPc) : Nat := ∑ v ∈ Finset.range n, if s.pc v = p then 1 else 0

theorem sum_update {n w : Nat} (hw : w < n) (f : Nat → WorkerPc) (p q : WorkerPc) :
    (∑ v ∈ Finset.range n, if Function.update f w p v = q then 1 else 0) +
      (if f w = q then 1 else 0) =
    (∑ v ∈ Finset.range n, if f v = q then 1 else 0) + (if p = q then 1 else 0) := by
  rw [← Finset.add_sum_erase (Finset.range n) _ (Finset.mem_range.2 hw),
    ← Finset.add_sum_erase (Finset.range n) (fun v => if f v = q then 1 else 0)
      (Finset.mem_range.2 hw)]
  have : ∑ v ∈ (Finset.range n).erase w, (if Function.update f w p v = q then 1 else 0) =
      ∑ v ∈ (Finset.range n).erase w, (if f v = q then 1 else 0) :=
    Finset.sum_congr rfl fun v hv => by
      rw [Function.update_of_ne (Finset.ne_of_mem_erase hv)]
  rw [this, Function.update_self]
  ring

theorem at_update {n w : Nat} (hw : w < n) {s s' : Pool} {p : WorkerPc}
    (h : s'.pc = Function.update s.pc w p) (q : WorkerPc) :
    at_ n s' q + (if s.pc w = q then 1 else 0) = at_ n s q + (if p = q then 1 else 0) := by
  rw [at_, at_, h]
  exact sum_update hw s.pc p q

/-- Tasks taken have been started or are about to be, tasks started have finished or are running. -/
def CountInv (n : Nat) (s : Pool) : Prop :=
  ∀ t, (Spec.taken s.log).count t = (Spec.started s.log).count t + at_ n s (.start t) ∧
    (Spec.started s.log).count t = (Spec.finished s.log).count t + at_ n s (.run t)

theorem countInv_goto {n w : Nat} {s s' : Pool} (hw : w < n) (hi : CountInv n s) (p : WorkerPc)
    (hs : s'.pc = Function.update s.pc w p) (hlog : s'.log = s.log)
    (h1 : ∀ t, s.pc w ≠ .start t ∧ s.pc w ≠ .run t) (h2 : ∀ t, p ≠ .start t ∧ p ≠ .run t) :
    CountInv n s' := by
  intro t
  obtain ⟨i1, i2⟩ := hi t
  have e1 := at_update hw hs (.start t)
  have e2 := at_update hw hs (.run t)
  rw [if_neg (h1 t).1, if_neg (h2 t).1] at e1
  rw [if_neg (h1 t).2, if_neg (h2 t).2] at e2
  rw [hlog]
  omega

theorem countInv_initial (n : Nat) : CountInv n Pool.initial := by
  intro t; simp [Pool.initial, at_, Spec.taken, Spec.started, Spec.finished]

theorem countInv_step {timed : Bool} {n : Nat} (s : Pool) (l : PoolStep) (s' : Pool)
    (hi : CountInv n s) (h : PStep timed n s l s') : CountInv n s' := by
  cases h with
  | worker w s' hw hs =>
    cases hs with
    | checkExit hp hd => exact countInv_goto hw hi _ rfl rfl (by simp [hp]) (by simp)
    | checkPop hp hd => exact countInv_goto hw hi _ rfl rfl (by simp [hp]) (by simp)
    | empty hp hq => exact countInv_goto hw hi _ rfl rfl (by simp [hp]) (by simp)
    | take t q hp hq =>
      intro t'
      obtain ⟨i1, i2⟩ := hi t'
      have e1 := at_update hw (s := s) (s' := { s.gotoLog w (.start t) (.took w t) with queue := q }) rfl (.start t')
      have e2 := at_update hw (s := s) (s' := { s.gotoLog w (.start t) (.took w t) with queue := q }) rfl (.run t')
      rw [hp] at e1 e2
      generalize at_ n ({ s.gotoLog w (.start t) (.took w t) with queue := q }) (.start t') = x1 at *
      generalize at_ n ({ s.gotoLog w (.start t) (.took w t) with queue := q }) (.run t') = x2 at *
      simp only [Pool.gotoLog, Pool.goto, Spec.taken, Spec.started, Spec.finished,
        List.filterMap_append, List.filterMap_cons, List.filterMap_nil, List.count_append,
        List.count_nil, List.count_singleton, reduceCtorEq, if_false, Nat.add_zero,
        WorkerPc.start.injEq, WorkerPc.run.injEq, beq_iff_eq] at *
      constructor <;> omega
    | start t hp =>
      intro t'
      obtain ⟨i1, i2⟩ := hi t'
      have e1 := at_update hw (s := s) (s' := s.gotoLog w (.run t) (.started w t)) rfl (.start t')
      have e2 := at_update hw (s := s) (s' := s.gotoLog w (.run t) (.started w t)) rfl (.run t')
      rw [hp] at e1 e2
      generalize at_ n (s.gotoLog w (.run t) (.started w t)) (.start t') = x1 at *
      generalize at_ n (s.gotoLog w (.run t) (.started w t)) (.run t') = x2 at *
      simp only [Pool.gotoLog, Pool.goto, Spec.taken, Spec.started, Spec.finished,
        List.filterMap_append, List.filterMap_cons, List.filterMap_nil, List.count_append,
        List.count_nil, List.count_singleton, reduceCtorEq, if_false, Nat.add_zero,
        WorkerPc.start.injEq, WorkerPc.run.injEq, beq_iff_eq] at *
      constructor <;> omega
    | finish t hp =>
      intro t'
      obtain ⟨i1, i2⟩ := hi t'
      have e1 := at_update hw (s := s) (s' := s.gotoLog w .check (.finished w t)) rfl (.start t')
      have e2 := at_update hw (s := s) (s' := s.gotoLog w .check (.finished w t)) rfl (.run t')
      rw [hp] at e1 e2
      generalize at_ n (s.gotoLog w .check (.finished w t)) (.start t') = x1 at *
      generalize at_ n (s.gotoLog w .check (.finished w t)) (.run t') = x2 at *
      simp only [Pool.gotoLog, Pool.goto, Spec.taken, Spec.started, Spec.finished,
        List.filterMap_append, List.filterMap_cons, List.filterMap_nil, List.count_append,
        List.count_nil, List.count_singleton, reduceCtorEq, if_false, Nat.add_zero,
        WorkerPc.start.injEq, WorkerPc.run.injEq, beq_iff_eq] at *
      constructor <;> omega
    | lock hp hm => exact countInv_goto hw hi _ rfl rfl (by simp [hp]) (by simp)
    | recheckDone hp hd => exact countInv_goto hw hi _ rfl rfl (by simp [hp]) (by simp)
    | recheckWait hp hd => exact countInv_goto hw hi _ rfl rfl (by simp [hp]) (by simp)
    | relock hp hm => exact countInv_goto hw hi _ rfl rfl (by simp [hp]) (by simp)
    | unlock hp => exact countInv_goto hw hi _ rfl rfl (by simp [hp]) (by simp)
  | wake w hw ht hp => exact countInv_goto hw hi _ rfl rfl (by simp [hp]) (by simp)
  | submit t =>
    intro t'
    have := hi t'
    simpa [Spec.taken, Spec.started, Spec.finished, List.filterMap_append, at_] using this
  | notifyNone => exact hi
  | notify w hw hp => exact countInv_goto hw hi _ rfl rfl (by simp [hp]) (by simp)
  | destroy => exact hi
  | notifyAll hd =>
    intro t
    have hs : ∀ q : WorkerPc, q ≠ .wait → q ≠ .relock →
        at_ n { s with pc := fun w => if s.pc w = .wait then .relock else s.pc w } q = at_ n s q := by
      intro q h1 h2
      refine Finset.sum_congr rfl fun v _ => ?_
      simp only
      by_cases hv : s.pc v = .wait
      · have e1 : ¬ wait = q := fun h => h1 h.symm
        have e2 : ¬ relock = q := fun h => h2 h.symm
        simp [hv, e1, e2]
      · simp [hv]
    rw [hs _ (by simp) (by simp), hs _ (by simp) (by simp)]
    exact hi t

/-! ### Progress -/

/-- Number of steps a worker needs for calling `try_pop`. -/
def popRank : WorkerPc → Nat
  | .pop => 1
  | .check => 2
  | .run _ => 3
  | .unlock => 3
  | .start _ => 4
  | .relock => 4
  | .wait => 5
  | .recheck => 6
  | .lock => 7
  | .exit => 0

/-- Number of steps a worker needs for leaving when the pool is being destroyed. -/
def exitRank : WorkerPc → Nat
  | .exit => 0
  | .check => 1
  | .run _ => 2
  | .unlock => 2
  | .start _ => 3
  | .relock => 3
  | .wait => 4
  | .recheck => 5
  | .lock => 6
  | .pop => 7

/-- The log only grows. -/
theorem log_prefix {timed : Bool} {n : Nat} {s s' : Pool} {l : PoolStep} (h : PStep timed n s l s') :
    s.log <+: s'.log := by
  cases h with
  | worker w s' hw hs => cases hs <;> simp [Pool.gotoLog, Pool.goto]
  | _ => simp [Pool.goto]

theorem exec_log_prefix {timed : Bool} {n : Nat} {s s' : Pool} {ls : List PoolStep}
    (h : s.exec timed n ls = some s') : s.log <+: s'.log :=
  exec_invariant (P := fun u => s.log <+: u.log) (fun _ _ _ hp hs => hp.trans (log_prefix hs))
    (List.prefix_refl _) h

/-- Once set, `_done` remains set. -/
theorem done_step {timed : Bool} {n : Nat} {s s' : Pool} {l : PoolStep} (h : PStep timed n s l s')
    (hd : s.done = true) : s'.done = true := by
  cases h with
  | worker w s' hw hs => cases hs <;> exact hd
  | destroy => rfl
  | _ => exact hd

theorem taken_length_mono {timed : Bool} {n : Nat} {s s' : Pool} {ls : List PoolStep}
    (h : s.exec timed n ls = some s') : (Spec.taken s.log).length ≤ (Spec.taken s'.log).length := by
  obtain ⟨e, he⟩ := exec_log_prefix h
  rw [← he, Spec.taken, Spec.taken, List.filterMap_append, List.length_append]
  omega

/-- A step without a task being taken, while the pool is not being destroyed and a task is queued,
brings the worker that makes it closer to `try_pop`. -/
theorem popRank_step {timed : Bool} {n : Nat} {s s' : Pool} {l : PoolStep}
    (h : PStep timed n s l s') (hd : s'.done = false) (hq : s.queue ≠ [])
    (ht : (Spec.taken s'.log).length = (Spec.taken s.log).length) (w : Nat) :
    popRank (s'.pc w) + (if Spec.ownStep w l then 1 else 0) ≤ popRank (s.pc w) ∧
      s'.queue ≠ [] := by
  have hd0 : s.done = false := by
    cases h0 : s.done with
    | false => rfl
    | true => rw [done_step h h0] at hd; simp at hd
  cases h with
  | worker v s' hv hs =>
    have hown : Spec.ownStep w (.worker v) = decide (v = w) := by
      simp [Spec.ownStep]
    rw [hown]
    cases hs with
    | checkExit hp hd' => rw [hd0] at hd'; simp at hd'
    | empty hp hq' => exact absurd hq' hq
    | take t q hp hq' =>
      simp [Pool.gotoLog, Pool.goto, Spec.taken, List.filterMap_append] at ht
    | recheckDone hp hd' => rw [hd0] at hd'; simp at hd'
    | checkPop hp _ | start _ hp | finish _ hp | lock hp _ | recheckWait hp _ | relock hp _ | unlock hp =>
      refine ⟨?_, hq⟩
      simp only [Pool.goto, Pool.gotoLog, update_pc]
      by_cases hw : w = v
      · subst hw; simp [hp, popRank]
      · have hvw : ¬ v = w := fun h => hw h.symm
        simp [hw, hvw]
  | wake v hv ht' hp =>
    refine ⟨?_, hq⟩
    have hown : Spec.ownStep w (.wake v) = decide (v = w) := by
      simp [Spec.ownStep]
    rw [hown]
    simp only [Pool.goto, Pool.gotoLog, update_pc]
    by_cases hw : w = v
    · subst hw; simp [hp, popRank]
    · have hvw : ¬ v = w := fun h => hw h.symm
      simp [hw, hvw]
  | submit t => exact ⟨by simp [Spec.ownStep], by simp⟩
  | notifyNone => exact ⟨by simp [Spec.ownStep], hq⟩
  | notify v hv hp =>
    refine ⟨?_, hq⟩
    simp only [Pool.goto, update_pc]
    by_cases hw : w = v
    · subst hw; simp [hp, popRank, Spec.ownStep]
    · simp [hw, Spec.ownStep]
  | destroy => simp at hd
  | notifyAll hd' => rw [hd0] at hd'; simp at hd'

theorem popRank_exec {timed : Bool} {n : Nat} {s s' : Pool} {ls : List PoolStep}
    (h : s.exec timed n ls = some s') (hd : s'.done = false) (hq : s.queue ≠ [])
    (ht : (Spec.taken s'.log).length = (Spec.taken s.log).length) (w : Nat) :
    popRank (s'.pc w) + ls.countP (Spec.ownStep w) ≤ popRank (s.pc w) ∧ s'.queue ≠ [] := by
  induction ls using List.reverseRecOn generalizing s' with
  | nil => cases h; exact ⟨by simp, hq⟩
  | append_singleton ls l ih =>
    obtain ⟨u, hu, hs⟩ := exec_snoc h
    have hud : u.done = false := by
      cases h0 : u.done with
      | false => rfl
      | true => rw [done_step hs h0] at hd; simp at hd
    have m1 := taken_length_mono hu
    obtain ⟨e, he⟩ := log_prefix hs
    have m2 : (Spec.taken u.log).length ≤ (Spec.taken s'.log).length := by
      rw [← he, Spec.taken, Spec.taken, List.filterMap_append, List.length_append]
      omega
    obtain ⟨i1, i2⟩ := ih hu hud (by omega)
    obtain ⟨j1, j2⟩ := popRank_step hs hd i2 (by omega) w
    refine ⟨?_, j2⟩
    rw [List.countP_append, List.countP_singleton]
    omega

theorem exitRank_step {timed : Bool} {n : Nat} {s s' : Pool} {l : PoolStep}
    (h : PStep timed n s l s') (hd : s.done = true) (w : Nat) :
    exitRank (s'.pc w) + (if Spec.ownStep w l then 1 else 0) ≤ exitRank (s.pc w) ∧
      Spec.takenBy w s'.log + (if s'.pc w = .pop then 1 else 0) ≤
        Spec.takenBy w s.log + (if s.pc w = .pop then 1 else 0) := by
  cases h with
  | worker v s' hv hs =>
    have hown : Spec.ownStep w (.worker v) = decide (v = w) := by
      simp [Spec.ownStep]
    rw [hown]
    cases hs with
    | checkPop hp hd' => rw [hd] at hd'; simp at hd'
    | recheckWait hp hd' => rw [hd] at hd'; simp at hd'
    | take t q hp hq =>
      simp only [Pool.goto, Pool.gotoLog, update_pc, Spec.takenBy, List.countP_append,
        List.countP_singleton]
      by_cases hw : w = v
      · subst hw; simp [hp, exitRank]
      · have hvw : ¬ v = w := fun h => hw h.symm
        simp [hw, hvw]
    | start t hp | finish t hp =>
      simp only [Pool.goto, Pool.gotoLog, update_pc, Spec.takenBy, List.countP_append,
        List.countP_singleton]
      by_cases hw : w = v
      · subst hw; simp [hp, exitRank]
      · have hvw : ¬ v = w := fun h => hw h.symm
        simp [hw, hvw]
    | checkExit hp _ | empty hp _ | lock hp _ | recheckDone hp _ | relock hp _ | unlock hp =>
      simp only [Pool.goto, update_pc]
      by_cases hw : w = v
      · subst hw; simp [hp, exitRank]
      · have hvw : ¬ v = w := fun h => hw h.symm
        simp [hw, hvw]
  | wake v hv ht hp =>
    have hown : Spec.ownStep w (.wake v) = decide (v = w) := by
      simp [Spec.ownStep]
    rw [hown]
    simp only [Pool.goto, update_pc]
    by_cases hw : w = v
    · subst hw; simp [hp, exitRank]
    · have hvw : ¬ v = w := fun h => hw h.symm
      simp [hw, hvw]
  | submit t =>
    simp [Spec.ownStep, Spec.takenBy, List.countP_append]
  | notifyNone => simp [Spec.ownStep]
  | notify v hv hp =>
    simp only [Pool.goto, update_pc]
    by_cases hw : w = v
    · subst hw; simp [hp, exitRank, Spec.ownStep]
    · simp [hw, Spec.ownStep]
  | destroy => simp [Spec.ownStep]
  | notifyAll hd' =>
    simp only
    by_cases hw : s.pc w = .wait
    · simp [hw, exitRank, Spec.ownStep]
    · simp [hw, Spec.ownStep]

theorem exitRank_exec {timed : Bool} {n : Nat} {s s' : Pool} {ls : List PoolStep}
    (h : s.exec timed n ls = some s') (hd : s.done = true) (w : Nat) :
    exitRank (s'.pc w) + ls.countP (Spec.ownStep w) ≤ exitRank (s.pc w) ∧
      Spec.takenBy w s'.log + (if s'.pc w = .pop then 1 else 0) ≤
        Spec.takenBy w s.log + (if s.pc w = .pop then 1 else 0) ∧ s'.done = true := by
  induction ls using List.reverseRecOn generalizing s' with
  | nil => cases h; exact ⟨by simp, by simp, hd⟩
  | append_singleton ls l ih =>
    obtain ⟨u, hu, hs⟩ := exec_snoc h
    obtain ⟨i1, i2, i3⟩ := ih hu
    obtain ⟨j1, j2⟩ := exitRank_step hs i3 w
    refine ⟨?_, by omega, done_step hs i3⟩
    rw [List.countP_append, List.countP_singleton]
    omega

end Fern
