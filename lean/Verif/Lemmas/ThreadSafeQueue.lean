import Verif.Spec.ThreadSafeQueue
import Verif.Lemmas.Scope

/-!
Lemmas about the thread-safe queue.
-/

namespace Fern

open Spec

variable {V : Type}

/-- The thread has the mutex. -/
def QueuePc.inside : QueuePc V → Bool
  | .idle | .lock _ | .ret _ => false
  | _ => true

/-- What the call has come to, calls taking effect when `_data_queue` is changed, or found empty. -/
def QueuePc.phase : QueuePc V → Phase V
  | .idle => .outside
  | .lock c => .called c
  | .push v => .called (.push v)
  | .test => .called .tryPop
  | .front => .called .tryPop
  | .pop _ => .called .tryPop
  | .askEmpty => .called .empty
  | .unlock r => .effected r
  | .ret r => .effected r

/-- The contents of `_data_queue` given the contents `q` of the FIFO queue, for a thread that has
the mutex. -/
def QueuePc.dataOk (q : List V) (d : List (Option V)) : QueuePc V → Prop
  | .pop v => ∃ x q', v = some x ∧ q = x :: q' ∧ d = none :: q'.map some
  | .front => q ≠ [] ∧ d = q.map some
  | _ => d = q.map some

/-- The invariant. -/
structure QueueInv (s : SharedQueue V) (m : List (Moment V)) (q : List V) : Prop where
  history : seen m = s.history
  fifo : FifoRun m q
  follows : ∀ t, Follows t m (s.pc t).phase
  mutex : ∀ t, s.mutex = some t ↔ (s.pc t).inside = true
  free : s.mutex = none → s.data = q.map some
  held : ∀ t, s.mutex = some t → (s.pc t).dataOk q s.data

theorem queueInv_initial : QueueInv (SharedQueue.initial V) [] [] where
  history := rfl
  fifo := .nil
  follows := fun _ => .nil
  mutex := fun t => by simp [SharedQueue.initial, QueuePc.inside]
  free := fun _ => rfl
  held := fun t h => by simp [SharedQueue.initial] at h

theorem seen_call (m : List (Moment V)) (t : Nat) (c : QueueCall V) :
    seen (m ++ [.call t c]) = seen m ++ [.call t c] := by
  simp [seen, List.filterMap_append]

theorem seen_ret (m : List (Moment V)) (t : Nat) (r : QueueResult V) :
    seen (m ++ [.ret t r]) = seen m ++ [.ret t r] := by
  simp [seen, List.filterMap_append]

theorem seen_effect (m : List (Moment V)) (t : Nat) (c : QueueCall V) (r : QueueResult V) :
    seen (m ++ [.effect t c r]) = seen m := by
  simp [seen, List.filterMap_append]

/-- A thread that has the mutex and keeps it. -/
theorem queueInv_inside {s : SharedQueue V} {m m' : List (Moment V)} {q q' : List V} {t : Nat}
    {p : QueuePc V} {d : List (Option V)}
    (hi : QueueInv s m q) (ht : (s.pc t).inside = true) (hp : p.inside = true)
    (hs : seen m' = seen m) (hf : FifoRun m' q') (hm : Follows t m' p.phase)
    (hm' : ∀ u, u ≠ t → Follows u m' (s.pc u).phase) (hd : p.dataOk q' d) :
    QueueInv { s.goto t p with data := d } m' q' where
  history := by rw [hs, hi.history]; rfl
  fifo := hf
  follows := fun u => by
    simp only [SharedQueue.goto]
    by_cases hu : u = t
    · subst hu; rw [Function.update_self]; exact hm
    · rw [Function.update_of_ne hu]; exact hm' u hu
  mutex := fun u => by
    simp only [SharedQueue.goto]
    by_cases hu : u = t
    · subst hu; rw [Function.update_self, hp, hi.mutex, ht]
    · rw [Function.update_of_ne hu]; exact hi.mutex u
  free := fun h => by
    have := (hi.mutex t).2 ht
    simp only [SharedQueue.goto] at h
    rw [this] at h
    simp at h
  held := fun u h => by
    have := (hi.mutex t).2 ht
    simp only [SharedQueue.goto] at h
    rw [this] at h
    cases h
    simp only [SharedQueue.goto, Function.update_self]
    exact hd

/-- The invariant is kept. -/
theorem queueInv_step {s s' : SharedQueue V} {m : List (Moment V)} {q : List V} {l : QueueStep V}
    (hi : QueueInv s m q) (h : s.step l = some s') : ∃ m' q', QueueInv s' m' q' := by
  cases l with
  | call t c =>
    simp only [SharedQueue.step] at h
    split at h
    swap
    · simp at h
    rename_i hp
    cases h
    refine ⟨m ++ [.call t c], q, ?_⟩
    constructor
    · rw [seen_call, hi.history]
    · exact .call _ _ hi.fifo
    · intro u
      simp only [SharedQueue.goto]
      by_cases hu : u = t
      · subst hu
        rw [Function.update_self]
        have := hi.follows u
        rw [hp] at this
        exact .call c this
      · rw [Function.update_of_ne hu]
        exact .otherCall t c (fun h => hu h.symm) (hi.follows u)
    · intro u
      simp only [SharedQueue.goto]
      by_cases hu : u = t
      · subst hu
        rw [Function.update_self, hi.mutex, hp]
        simp [QueuePc.inside]
      · rw [Function.update_of_ne hu]; exact hi.mutex u
    · exact hi.free
    · intro u h
      have := hi.held u h
      have hu : u ≠ t := by
        rintro rfl
        have := (hi.mutex u).1 h
        rw [hp] at this
        simp [QueuePc.inside] at this
      simp only [SharedQueue.goto]
      rw [Function.update_of_ne hu]
      exact this
  | next t =>
    simp only [SharedQueue.step, SharedQueue.next] at h
    have hft := hi.follows t
    have hmt := hi.mutex t
    have hht := hi.held t
    split at h
    · simp at h
    · -- lock
      rename_i c hp
      split at h
      swap
      · simp at h
      rename_i hm
      cases h
      have hm : s.mutex = none := by simpa using hm
      refine ⟨m, q, ?_⟩
      constructor
      · exact hi.history
      · exact hi.fifo
      · intro u
        simp only [SharedQueue.goto]
        by_cases hu : u = t
        · subst hu
          rw [Function.update_self]
          rw [hp] at hft
          cases c <;> exact hft
        · rw [Function.update_of_ne hu]; exact hi.follows u
      · intro u
        simp only [SharedQueue.goto]
        by_cases hu : u = t
        · subst hu
          rw [Function.update_self]
          cases c <;> simp [QueuePc.inside, SharedQueue.afterLock]
        · rw [Function.update_of_ne hu, ← hi.mutex u, hm]
          have hu' : ¬ t = u := fun h => hu h.symm
          simp [hu']
      · intro h; simp at h
      · intro u h
        simp only [Option.some.injEq] at h
        subst h
        simp only [SharedQueue.goto, Function.update_self]
        have := hi.free hm
        cases c <;> exact this
    · -- push
      rename_i v hp
      cases h
      rw [hp] at hft hmt hht
      have hd : s.data = q.map some := hht (hmt.2 rfl)
      refine ⟨m ++ [.effect t (.push v) .pushed], q ++ [v],
        queueInv_inside hi (by rw [hp]; rfl) rfl (seen_effect _ _ _ _)
          (.effect t _ _ hi.fifo (.push q v)) (.effect _ _ hft)
          (fun u hu => .otherEffect t _ _ (fun h => hu h.symm) (hi.follows u)) ?_⟩
      change _ = _
      rw [hd, List.map_append]
      rfl
    · -- test
      rename_i hp
      cases h
      rw [hp] at hft hmt hht
      have hd : s.data = q.map some := hht (hmt.2 rfl)
      cases q with
      | nil =>
        have he : s.data.isEmpty = true := by rw [hd]; rfl
        rw [he, if_pos rfl]
        exact ⟨m ++ [.effect t .tryPop (.popped none)], [],
          queueInv_inside hi (by rw [hp]; rfl) rfl (seen_effect _ _ _ _)
            (.effect t _ _ hi.fifo .popEmpty) (.effect _ _ hft)
            (fun u hu => .otherEffect t _ _ (fun h => hu h.symm) (hi.follows u)) hd⟩
      | cons x q =>
        have he : s.data.isEmpty = false := by rw [hd]; rfl
        rw [he, if_neg (by simp)]
        exact ⟨m, x :: q, queueInv_inside hi (by rw [hp]; rfl) rfl rfl hi.fifo hft
          (fun u _ => hi.follows u) ⟨by simp, hd⟩⟩
    · -- front
      rename_i hp
      rw [hp] at hft hmt hht
      obtain ⟨hq, hd⟩ : q ≠ [] ∧ s.data = q.map some := hht (hmt.2 rfl)
      split at h
      · simp at h
      rename_i v d hsd
      cases h
      cases q with
      | nil => exact absurd rfl hq
      | cons x q =>
        rw [hsd] at hd
        simp only [List.map_cons, List.cons.injEq] at hd
        exact ⟨m, x :: q, queueInv_inside hi (by rw [hp]; rfl) rfl rfl hi.fifo hft
          (fun u _ => hi.follows u) ⟨x, q, hd.1, rfl, by rw [hd.2]⟩⟩
    · -- pop
      rename_i v hp
      rw [hp] at hft hmt hht
      obtain ⟨x, q', rfl, rfl, hd⟩ : ∃ x q', v = some x ∧ q = x :: q' ∧ s.data = none :: q'.map some :=
        hht (hmt.2 rfl)
      split at h
      · simp at h
      rename_i v d hsd
      cases h
      rw [hsd] at hd
      simp only [List.cons.injEq] at hd
      exact ⟨m ++ [.effect t .tryPop (.popped (some x))], q',
        queueInv_inside hi (by rw [hp]; rfl) rfl (seen_effect _ _ _ _)
          (.effect t _ _ hi.fifo (.pop q' x)) (.effect _ _ hft)
          (fun u hu => .otherEffect t _ _ (fun h => hu h.symm) (hi.follows u)) hd.2⟩
    · -- askEmpty
      rename_i hp
      cases h
      rw [hp] at hft hmt hht
      have hd : s.data = q.map some := hht (hmt.2 rfl)
      refine ⟨m ++ [.effect t .empty (.empty s.data.isEmpty)], q,
        queueInv_inside hi (by rw [hp]; rfl) rfl (seen_effect _ _ _ _)
          (.effect t _ _ hi.fifo ?_) (.effect _ _ hft)
          (fun u hu => .otherEffect t _ _ (fun h => hu h.symm) (hi.follows u)) hd⟩
      rw [hd]
      cases q with
      | nil => exact .isEmpty
      | cons x q => exact .notEmpty x q
    · -- unlock
      rename_i r hp
      cases h
      rw [hp] at hft hmt hht
      have hm := hmt.2 rfl
      have hd : s.data = q.map some := hht hm
      refine ⟨m, q, ?_⟩
      constructor
      · exact hi.history
      · exact hi.fifo
      · intro u
        simp only [SharedQueue.goto]
        by_cases hu : u = t
        · subst hu; rw [Function.update_self]; exact hft
        · rw [Function.update_of_ne hu]; exact hi.follows u
      · intro u
        simp only [SharedQueue.goto]
        by_cases hu : u = t
        · subst hu; rw [Function.update_self]; simp [QueuePc.inside]
        · rw [Function.update_of_ne hu, ← hi.mutex u, hm]
          have hu' : ¬ t = u := fun h => hu h.symm
          simp [hu']
      · intro _; exact hd
      · intro u h; simp at h
    · -- ret
      rename_i r hp
      cases h
      rw [hp] at hft hmt hht
      refine ⟨m ++ [.ret t r], q, ?_⟩
      constructor
      · rw [seen_ret, hi.history]
      · exact .ret _ _ hi.fifo
      · intro u
        simp only [SharedQueue.goto]
        by_cases hu : u = t
        · subst hu; rw [Function.update_self]; exact .ret r hft
        · rw [Function.update_of_ne hu]
          exact .otherRet t r (fun h => hu h.symm) (hi.follows u)
      · intro u
        simp only [SharedQueue.goto]
        by_cases hu : u = t
        · subst hu; rw [Function.update_self, hmt]; simp [QueuePc.inside]
        · rw [Function.update_of_ne hu]; exact hi.mutex u
      · exact hi.free
      · intro u h
        have := hi.held u h
        have hu : u ≠ t := by
          rintro rfl
          have := hmt.1 h
          simp [QueuePc.inside] at this
        simp only [SharedQueue.goto]
        rw [Function.update_of_ne hu]
        exact this

theorem queueInv_exec {s : SharedQueue V} {steps : List (QueueStep V)}
    (h : (SharedQueue.initial V).exec steps = some s) : ∃ m q, QueueInv s m q := by
  induction steps using List.reverseRecOn generalizing s with
  | nil => cases h; exact ⟨_, _, queueInv_initial⟩
  | append_singleton ls l ih =>
    rw [SharedQueue.exec, foldlM_snoc] at h
    obtain ⟨u, hu, hl⟩ := Option.bind_eq_some_iff.1 h
    obtain ⟨m, q, hi⟩ := ih hu
    exact queueInv_step hi hl

end Fern
