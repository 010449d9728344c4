import Verif.Lemmas.ThreadSafeQueue

/-!
# The thread-safe queue (C08)
-/

namespace Fern

open Spec

variable {V : Type}

/-- Every execution's calls and returns are those of a FIFO queue whose operations take effect at
once at some moment between call and return. -/
theorem C08_linearizable (steps : List (QueueStep V)) (s : SharedQueue V)
    (h : (SharedQueue.initial V).exec steps = some s) : Linearizable s.history := by
  obtain ⟨m, q, hi⟩ := queueInv_exec h
  exact ⟨m, hi.history, fun t => ⟨_, hi.follows t⟩, q, hi.fifo⟩

/-- When no thread is in a call, what is in the queue is what is left in that FIFO queue. -/
theorem C08_contents (steps : List (QueueStep V)) (s : SharedQueue V)
    (h : (SharedQueue.initial V).exec steps = some s) (hq : ∀ t, s.pc t = .idle) :
    ∃ m q, seen m = s.history ∧ (∀ t, Follows t m .outside) ∧ FifoRun m q ∧ s.data = q.map some := by
  obtain ⟨m, q, hi⟩ := queueInv_exec h
  refine ⟨m, q, hi.history, fun t => ?_, hi.fifo, hi.free ?_⟩
  · have := hi.follows t
    rwa [hq t] at this
  · cases hm : s.mutex with
    | none => rfl
    | some t =>
      have := (hi.mutex t).1 hm
      rw [hq t] at this
      simp [QueuePc.inside] at this

/-- Of a FIFO queue: the values come out in the order in which they were pushed, each at most once,
none invented. -/
theorem C08_fifo (m : List (Moment V)) (q : List V) (h : FifoRun m q) :
    pushedValues m = poppedValues m ++ q := by
  induction h with
  | nil => rfl
  | @effect m q q' t c r _ hf ih =>
    rw [pushedValues, poppedValues, List.filterMap_append, List.filterMap_append, ← pushedValues,
      ← poppedValues, ih]
    cases hf <;> simp
  | call t c _ ih =>
    rw [pushedValues, poppedValues, List.filterMap_append, List.filterMap_append, ← pushedValues,
      ← poppedValues, ih]
    simp
  | ret t r _ ih =>
    rw [pushedValues, poppedValues, List.filterMap_append, List.filterMap_append, ← pushedValues,
      ← poppedValues, ih]
    simp

/-- `try_pop` fails, and `empty` returns true, only when the FIFO queue is empty at the moment of
effect: everything pushed before has been popped. -/
theorem C08_fails_only_if_empty (m : List (Moment V)) (q : List V) (t : Nat) (c : QueueCall V)
    (r : QueueResult V) (hr : r = .popped none ∨ r = .empty true)
    (h : FifoRun (m ++ [.effect t c r]) q) : pushedValues m = poppedValues m := by
  generalize he : m ++ [Moment.effect t c r] = x at h
  cases h with
  | nil => simp at he
  | @effect m' q0 q' t' c' r' hm hf =>
    obtain ⟨h1, h2⟩ := List.append_inj' he rfl
    simp only [List.cons.injEq, Moment.effect.injEq, and_true] at h2
    obtain ⟨-, rfl, rfl⟩ := h2
    subst h1
    have := C08_fifo _ _ hm
    cases hf with
    | popEmpty => simpa using this
    | isEmpty => simpa using this
    | push => rcases hr with hr | hr <;> simp at hr
    | pop => rcases hr with hr | hr <;> simp at hr
    | notEmpty => rcases hr with hr | hr <;> simp at hr
  | call t' c' hm =>
    obtain ⟨-, he⟩ := List.append_inj' he rfl
    simp at he
  | ret t' r' hm =>
    obtain ⟨-, he⟩ := List.append_inj' he rfl
    simp at he

/-- No undefined behaviour and no deadlock: a thread in a call can always make a step, unless it
waits for the mutex, in which case the thread that has it can make a step. -/
theorem C08_progress (steps : List (QueueStep V)) (s : SharedQueue V)
    (h : (SharedQueue.initial V).exec steps = some s) (t : Nat) (ht : s.pc t ≠ .idle) :
    (∃ s', s.step (.next t) = some s') ∨
      ((∃ c, s.pc t = .lock c) ∧ ∃ u s', s.mutex = some u ∧ s.step (.next u) = some s') := by
  obtain ⟨m, q, hi⟩ := queueInv_exec h
  have inside : ∀ u, (s.pc u).inside = true → ∃ s', s.step (.next u) = some s' := by
    intro u hu
    have hd := hi.held u ((hi.mutex u).2 hu)
    simp only [SharedQueue.step, SharedQueue.next]
    cases hp : s.pc u with
    | idle => rw [hp] at hu; simp [QueuePc.inside] at hu
    | lock c => rw [hp] at hu; simp [QueuePc.inside] at hu
    | ret r => rw [hp] at hu; simp [QueuePc.inside] at hu
    | push v => exact ⟨_, rfl⟩
    | test => exact ⟨_, rfl⟩
    | askEmpty => exact ⟨_, rfl⟩
    | unlock r => exact ⟨_, rfl⟩
    | front =>
      rw [hp] at hd
      obtain ⟨h1, h2⟩ : q ≠ [] ∧ s.data = q.map some := hd
      cases hs : s.data with
      | nil => rw [hs] at h2; cases q <;> simp at h1 h2
      | cons x d => exact ⟨_, rfl⟩
    | pop v =>
      rw [hp] at hd
      obtain ⟨x, q', -, -, h2⟩ : ∃ x q', v = some x ∧ q = x :: q' ∧ s.data = none :: q'.map some := hd
      rw [h2]
      exact ⟨_, rfl⟩
  cases hp : s.pc t with
  | idle => exact absurd hp ht
  | ret r => exact .inl ⟨_, by simp only [SharedQueue.step, SharedQueue.next]; rw [hp]⟩
  | lock c =>
    cases hm : s.mutex with
    | none =>
      refine .inl ⟨{ s.goto t (SharedQueue.afterLock c) with mutex := some t }, ?_⟩
      simp only [SharedQueue.step, SharedQueue.next]
      rw [hp]
      simp only
      rw [hm]
      rfl
    | some u =>
      obtain ⟨s', hs'⟩ := inside u ((hi.mutex u).1 hm)
      exact .inr ⟨⟨c, rfl⟩, u, s', rfl, hs'⟩
  | _ => exact .inl (inside t (by rw [hp]; rfl))

/-- No two threads access the underlying queue at the same time. -/
theorem C08_mutual_exclusion (steps : List (QueueStep V)) (s : SharedQueue V)
    (h : (SharedQueue.initial V).exec steps = some s) (t u : Nat)
    (ht : s.pc t ≠ .idle ∧ (∀ c, s.pc t ≠ .lock c) ∧ ∀ r, s.pc t ≠ .ret r)
    (hu : s.pc u ≠ .idle ∧ (∀ c, s.pc u ≠ .lock c) ∧ ∀ r, s.pc u ≠ .ret r) : t = u := by
  obtain ⟨m, q, hi⟩ := queueInv_exec h
  have key : ∀ w, s.pc w ≠ .idle ∧ (∀ c, s.pc w ≠ .lock c) ∧ (∀ r, s.pc w ≠ .ret r) →
      s.mutex = some w := by
    rintro w ⟨h1, h2, h3⟩
    rw [hi.mutex]
    cases hp : s.pc w with
    | idle => exact absurd hp h1
    | lock c => exact absurd hp (h2 c)
    | ret r => exact absurd hp (h3 r)
    | _ => rfl
  have h1 := key t ht
  rw [key u hu] at h1
  exact (Option.some.inj h1).symm

/-- Two threads; the pop by thread 1 is called before the push by thread 0 has returned. -/
example : ∃ s, (SharedQueue.initial Nat).exec [.call 0 (.push 7), .next 0, .call 1 .tryPop, .next 0,
      .next 0, .next 1, .next 1, .next 1, .next 1, .next 1, .next 1, .next 0] = some s ∧
    s.history = [.call 0 (.push 7), .call 1 .tryPop, .ret 1 (.popped (some 7)), .ret 0 .pushed] :=
  ⟨_, rfl, rfl⟩

end Fern
