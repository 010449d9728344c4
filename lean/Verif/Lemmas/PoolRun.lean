import Verif.Spec.PoolRun
import Verif.Lemmas.ThreadPool
import Verif.Lemmas.Loop

/-!
Lemmas about operations that are executed by a thread pool.
-/

namespace Fern

theorem Interleave.cons_nil {α : Type} {ts : List (List α)} {l : List α} (h : Interleave ts l) :
    Interleave ([] :: ts) l := by
  induction h with
  | done h => exact .done (by simpa using h)
  | @step pre post a t l _ ih => exact .step (pre := [] :: pre) ih

namespace PoolRun

open _root_.Fern.PoolRun.Spec

variable {γ : Type}

/-- The steps, case by case. -/
inductive MStep (n : Nat) (s : Machine γ) : Step → Machine γ → Prop
  | undefined (i : Nat) (op : Nat → List γ → Option (List (List (Act γ)))) (rest : List (Call γ))
      (m : List γ) : s.active n i = true → (s.thread i).pc = .idle →
      (s.thread i).rest = .operate op :: rest → (s.thread i).memory = some m → op n m = none →
      MStep n s (.call i) (s.setThread i { s.thread i with memory := none, rest := rest })
  | operate (i : Nat) (op : Nat → List γ → Option (List (List (Act γ)))) (rest : List (Call γ))
      (m : List γ) (ts : List (List (Act γ))) : s.active n i = true → (s.thread i).pc = .idle →
      (s.thread i).rest = .operate op :: rest → (s.thread i).memory = some m →
      op n m = some ts →
      MStep n s (.call i) (s.setThread i { s.thread i with pc := .submitting [] ts, rest := rest })
  | launch (i j : Nat) (rest : List (Call γ)) : s.active n i = true → (s.thread i).pc = .idle →
      (s.thread i).rest = .launch j :: rest →
      MStep n s (.call i) ((s.submit (.program j)).setThread i { s.thread i with rest := rest })
  | submit (i : Nat) (fs : List Nat) (l : List (Act γ)) (ls : List (List (Act γ))) :
      s.active n i = true → (s.thread i).pc = .submitting fs (l :: ls) →
      MStep n s (.submit i) ((s.submit (.acts i l)).setThread i
        { s.thread i with pc := .submitting (fs ++ [s.next]) ls })
  | submitted (i : Nat) (fs : List Nat) : s.active n i = true →
      (s.thread i).pc = .submitting fs [] →
      MStep n s (.submit i) (s.setThread i { s.thread i with pc := .waiting fs })
  | get (i f : Nat) (fs : List Nat) : s.active n i = true →
      (s.thread i).pc = .waiting (f :: fs) → s.ready f = true →
      MStep n s (.get i) (s.setThread i { s.thread i with pc := .waiting fs })
  | return (i : Nat) : s.active n i = true → (s.thread i).pc = .waiting [] →
      MStep n s (.get i) (s.setThread i { s.thread i with pc := .idle })
  | act (w t i : Nat) (l : List (Act γ)) (a : Act γ) (as : List (Act γ)) : w < n →
      s.pool.pc w = .run t → s.work t = .acts i l → s.todo w = a :: as →
      MStep n s (.act w) ({ s with todo := Function.update s.todo w as }.setThread i
        { s.thread i with memory := (s.thread i).memory.bind (modifyAt a.idx a.fn) })
  | start (w t : Nat) : w < n → s.pool.pc w = .start t →
      MStep n s (.pool (.worker w)) { s with
        pool := s.pool.gotoLog w (.run t) (.started w t)
        todo := Function.update s.todo w (s.work t).actions }
  | finish (w t : Nat) : w < n → s.pool.pc w = .run t → s.taskEnded w t = true →
      MStep n s (.pool (.worker w)) { s with
        pool := s.pool.gotoLog w .check (.finished w t) }
  | pool (l : PoolStep) (p : Pool) : PStep true n s.pool l p → (∀ t, l ≠ .submit t) →
      (∀ w t, l = .worker w → s.pool.pc w ≠ .start t ∧ s.pool.pc w ≠ .run t) →
      MStep n s (.pool l) { s with pool := p }

theorem MStep.of_step {n : Nat} {s s' : Machine γ} {l : Step} (h : s.step n l = some s') :
    MStep n s l s' := by
  cases l with
  | call i =>
    simp only [Machine.step] at h
    split at h
    · rename_i ha
      simp only [Machine.call] at h
      split at h
      · rename_i op rest hpc hrest
        split at h
        · simp at h
        · rename_i m hm
          split at h
          · rename_i ho
            cases h
            exact .undefined i op rest m ha hpc hrest hm ho
          · rename_i ts ho
            cases h
            exact .operate i op rest m ts ha hpc hrest hm ho
      · rename_i j rest hpc hrest
        cases h
        exact .launch i j rest ha hpc hrest
      · simp at h
    · simp at h
  | submit i =>
    simp only [Machine.step] at h
    split at h
    · rename_i ha
      simp only [Machine.submitting] at h
      split at h
      · rename_i fs l ls hpc
        cases h
        exact .submit i fs l ls ha hpc
      · rename_i fs hpc
        cases h
        exact .submitted i fs ha hpc
      · simp at h
    · simp at h
  | get i =>
    simp only [Machine.step] at h
    split at h
    · rename_i ha
      simp only [Machine.get] at h
      split at h
      · rename_i f fs hpc
        split at h
        · rename_i hr
          cases h
          exact .get i f fs ha hpc hr
        · simp at h
      · rename_i hpc
        cases h
        exact .return i ha hpc
      · simp at h
    · simp at h
  | act w =>
    simp only [Machine.step, Machine.act] at h
    split at h
    · rename_i hw
      split at h
      · rename_i t hpc
        split at h
        · rename_i i l a as hwk htd
          cases h
          exact .act w t i l a as hw hpc hwk htd
        · simp at h
      · simp at h
    · simp at h
  | pool l =>
    simp only [Machine.step] at h
    cases l with
    | submit t => simp [Machine.poolStep] at h
    | worker w =>
      simp only [Machine.poolStep] at h
      split at h
      · rename_i t hpc
        split at h
        · rename_i he
          rw [Option.map_eq_some_iff] at h
          obtain ⟨p, hp, rfl⟩ := h
          simp only [Pool.step] at hp
          split at hp
          · rename_i hw
            simp only [Pool.workerStep, hpc, Option.some.injEq] at hp
            subst hp
            exact .finish w t hw hpc he
          · simp at hp
        · simp at h
      · rename_i t hpc
        rw [Option.map_eq_some_iff] at h
        obtain ⟨p, hp, rfl⟩ := h
        simp only [Pool.step] at hp
        split at hp
        · rename_i hw
          simp only [Pool.workerStep, hpc, Option.some.injEq] at hp
          subst hp
          exact .start w t hw hpc
        · simp at hp
      · rename_i h1 h2
        rw [Option.map_eq_some_iff] at h
        obtain ⟨p, hp, rfl⟩ := h
        refine .pool _ _ (.of_step hp) (by simp) ?_
        rintro v t hv
        cases hv
        exact ⟨fun h => h2 t h, fun h => h1 t h⟩
    | _ =>
      simp only [Machine.poolStep] at h
      rw [Option.map_eq_some_iff] at h
      obtain ⟨p, hp, rfl⟩ := h
      exact .pool _ _ (.of_step hp) (by simp) (by simp)

theorem mexec_snoc {n : Nat} {s s' : Machine γ} {ls : List Step} {l : Step}
    (h : s.exec n (ls ++ [l]) = some s') :
    ∃ u, s.exec n ls = some u ∧ MStep n u l s' := by
  rw [Machine.exec, foldlM_snoc] at h
  obtain ⟨u, hu, hl⟩ := Option.bind_eq_some_iff.1 h
  exact ⟨u, hu, .of_step hl⟩

theorem mexec_append {n : Nat} {s u s' : Machine γ} {l1 l2 : List Step}
    (h1 : s.exec n l1 = some u) (h2 : u.exec n l2 = some s') : s.exec n (l1 ++ l2) = some s' := by
  rw [Machine.exec, List.foldlM_append]
  change (s.exec n l1).bind _ = _
  rw [h1, Option.bind_some]
  exact h2

theorem mexec_invariant {n : Nat} {P : Machine γ → Prop}
    (hP : ∀ s l s', P s → MStep n s l s' → P s') {s s' : Machine γ} {ls : List Step}
    (h0 : P s) (h : s.exec n ls = some s') : P s' := by
  induction ls using List.reverseRecOn generalizing s' with
  | nil => cases h; exact h0
  | append_singleton ls l ih =>
    obtain ⟨u, hu, hl⟩ := mexec_snoc h
    exact hP _ _ _ (ih hu) hl

/-! ### The pool -/

/-- What is known of the pool. -/
structure PoolInv (n : Nat) (s : Machine γ) : Prop where
  order : OrderInv s.pool
  count : CountInv n s.pool
  lock : LockInv s.pool
  submitted : Fern.Spec.submitted s.pool.log = List.range s.next

theorem poolInv_initial (n : Nat) (programs : Nat → List (Call γ)) (memories : Nat → List γ)
    (inPool : Nat → Bool) : PoolInv n (Machine.initial programs memories inPool) :=
  ⟨by rfl, countInv_initial n, lockInv_initial, by rfl⟩

theorem poolInv_submit {n : Nat} {s : Machine γ} (h : PoolInv n s) (w : Work γ) :
    PoolInv n (s.submit w) := by
  have hp : PStep true n s.pool (.submit s.next) (s.submit w).pool := .submit s.next
  refine ⟨orderInv_step _ _ _ h.order hp, countInv_step _ _ _ h.count hp,
    lockInv_step _ _ _ h.lock hp, ?_⟩
  have := h.submitted
  simp only [Machine.submit, Fern.Spec.submitted, List.filterMap_append] at this ⊢
  rw [this, List.range_succ]
  rfl

theorem submitted_step {n : Nat} {p p' : Pool} {l : PoolStep} (h : PStep true n p l p')
    (hl : ∀ t, l ≠ .submit t) : Fern.Spec.submitted p'.log = Fern.Spec.submitted p.log := by
  cases h with
  | worker w s' hw hs =>
    cases hs <;> simp [Pool.gotoLog, Pool.goto, Fern.Spec.submitted, List.filterMap_append]
  | submit t => exact absurd rfl (hl t)
  | _ => rfl

theorem poolInv_pool {n : Nat} {s : Machine γ} (h : PoolInv n s) {l : PoolStep} {p : Pool}
    (hp : PStep true n s.pool l p) (hl : ∀ t, l ≠ .submit t) (todo : Nat → List (Act γ)) :
    PoolInv n { s with pool := p, todo := todo } :=
  ⟨orderInv_step _ _ _ h.order hp, countInv_step _ _ _ h.count hp, lockInv_step _ _ _ h.lock hp,
    (submitted_step hp hl).trans h.submitted⟩

theorem poolInv_step {n : Nat} (s : Machine γ) (l : Step) (s' : Machine γ) (h : PoolInv n s)
    (hs : MStep n s l s') : PoolInv n s' := by
  cases hs with
  | launch i j rest ha hpc hr =>
    have := poolInv_submit h (.program j)
    exact ⟨this.order, this.count, this.lock, this.submitted⟩
  | submit i fs l ls ha hpc =>
    have := poolInv_submit h (.acts i l)
    exact ⟨this.order, this.count, this.lock, this.submitted⟩
  | start w t hw hpc =>
    exact poolInv_pool h (.worker w _ hw (.start t hpc)) (by simp) _
  | finish w t hw hpc he =>
    exact poolInv_pool h (.worker w _ hw (.finish t hpc)) (by simp) s.todo
  | pool l p hp hl hn => exact poolInv_pool h hp hl s.todo
  | _ => exact ⟨h.order, h.count, h.lock, h.submitted⟩

theorem at_pos {n w : Nat} {s : Pool} {p : WorkerPc} (hw : w < n) (h : s.pc w = p) :
    1 ≤ at_ n s p := by
  have := Finset.single_le_sum (s := Finset.range n)
    (f := fun v => if s.pc v = p then 1 else 0) (fun _ _ => by simp) (Finset.mem_range.2 hw)
  simpa [at_, h] using this

theorem at_two {n v w : Nat} {s : Pool} {p : WorkerPc} (hv : v < n) (hw : w < n) (hne : v ≠ w)
    (h : s.pc v = p) (h' : s.pc w = p) : 2 ≤ at_ n s p := by
  rw [at_, ← Finset.add_sum_erase (Finset.range n) _ (Finset.mem_range.2 hv)]
  have hm : w ∈ (Finset.range n).erase v := Finset.mem_erase.2 ⟨hne.symm, Finset.mem_range.2 hw⟩
  have := Finset.single_le_sum (s := (Finset.range n).erase v)
    (f := fun v => if s.pc v = p then 1 else 0) (fun _ _ => by simp) hm
  simp only [h', h, if_true] at this ⊢
  omega

/-- A task is at one place. -/
theorem PoolInv.total {n : Nat} {s : Machine γ} (h : PoolInv n s) (t : Nat) :
    s.pool.queue.count t + at_ n s.pool (.start t) + at_ n s.pool (.run t) +
      (Fern.Spec.finished s.pool.log).count t = if t < s.next then 1 else 0 := by
  have h1 := h.order
  rw [OrderInv] at h1
  have h2 := congrArg (List.count t) h1
  rw [h.submitted, List.count_append, List.count_range] at h2
  obtain ⟨c1, c2⟩ := h.count t
  omega

theorem ready_iff {s : Machine γ} {t : Nat} :
    s.ready t = true ↔ t ∈ Fern.Spec.finished s.pool.log := by
  simp only [Machine.ready, Fern.Spec.finished, List.any_eq_true, List.mem_filterMap]
  constructor
  · rintro ⟨e, he, h⟩
    cases e <;> simp at h
    subst h
    exact ⟨_, he, rfl⟩
  · rintro ⟨e, he, h⟩
    cases e <;> simp at h
    subst h
    exact ⟨_, he, by simp⟩

/-! ### What remains of the tasks -/

/-- The futures a thread has to wait for. -/
def Pc.futures : Pc γ → List Nat
  | .idle => []
  | .submitting fs _ => fs
  | .waiting fs => fs

/-- `rem` is what remains to be done of the tasks. -/
structure RemInv (n : Nat) (s : Machine γ) (rem : Nat → List (Act γ)) : Prop where
  queued : ∀ t ∈ s.pool.queue, rem t = (s.work t).actions
  starting : ∀ w < n, ∀ t, s.pool.pc w = .start t → rem t = (s.work t).actions
  running : ∀ w < n, ∀ t, s.pool.pc w = .run t → rem t = s.todo w
  finished : ∀ t ∈ Fern.Spec.finished s.pool.log, rem t = []
  program : ∀ t j, s.work t = .program j → rem t = []
  /-- Actions that remain are those of operations that have not returned. -/
  owned : ∀ t < s.next, ∀ i l, s.work t = .acts i l → rem t = [] ∨ t ∈ (s.thread i).pc.futures

/-- A thread in an operation, with the futures `fs`, and tasks to be submitted. -/
def InOp (n : Nat) (programs : Nat → List (Call γ)) (memories : Nat → List γ)
    (rem : Nat → List (Act γ)) (work : Nat → Work γ) (next i : Nat) (t : Thread γ)
    (fs : List Nat) (ts : List (List (Act γ))) : Prop :=
  ∃ done op m all l, programs i = done ++ .operate op :: t.rest ∧
    Outcome n done (memories i) (some m) ∧ op n m = some all ∧ t.memory = runActs l m ∧
    (∀ l', Interleave (fs.map rem ++ ts) l' → Interleave all (l ++ l')) ∧ fs.Nodup ∧
    ∀ f ∈ fs, f < next ∧ ∃ l, work f = .acts i l

/-- What is known of thread `i`. -/
def ThreadInv (n : Nat) (programs : Nat → List (Call γ)) (memories : Nat → List γ)
    (rem : Nat → List (Act γ)) (work : Nat → Work γ) (next i : Nat) (t : Thread γ) : Prop :=
  match t.pc with
  | .idle => ∃ done, programs i = done ++ t.rest ∧ Outcome n done (memories i) t.memory
  | .submitting fs ts => InOp n programs memories rem work next i t fs ts
  | .waiting fs => InOp n programs memories rem work next i t fs []

/-- All that is known. -/
def Inv (n : Nat) (programs : Nat → List (Call γ)) (memories : Nat → List γ) (s : Machine γ) :
    Prop :=
  PoolInv n s ∧ ∃ rem, RemInv n s rem ∧
    ∀ i, ThreadInv n programs memories rem s.work s.next i (s.thread i)

theorem Outcome.append {n : Nat} {cs cs' : List (Call γ)} {m m' : List γ} {o : Option (List γ)}
    {o' : Option (List γ)} (h : Outcome n cs m o') (ho : o' = some m') (h' : Outcome n cs' m' o) :
    Outcome n (cs ++ cs') m o := by
  induction h with
  | nothing m => cases ho; exact h'
  | launch _ ih => exact .launch (ih ho)
  | operate hp _ ih => exact .operate hp (ih ho)
  | undefined hp => simp at ho

theorem outcome_none {n : Nat} {cs : List (Call γ)} {m : List γ} {o : Option (List γ)}
    (h : Outcome n cs m o) (ho : o = none) (cs' : List (Call γ)) :
    Outcome n (cs ++ cs') m none := by
  induction h with
  | nothing m => cases ho
  | launch _ ih => exact .launch (ih ho)
  | operate hp _ ih => exact .operate hp (ih ho)
  | undefined hp => exact .undefined hp

theorem inOp_frame {n : Nat} {programs : Nat → List (Call γ)} {memories : Nat → List γ}
    {rem rem' : Nat → List (Act γ)} {work work' : Nat → Work γ} {next next' i : Nat}
    {t : Thread γ} {fs : List Nat} {ts : List (List (Act γ))}
    (h : InOp n programs memories rem work next i t fs ts) (hn : next ≤ next')
    (hw : ∀ f < next, work' f = work f)
    (hr : ∀ f < next, (∃ l, work f = .acts i l) → rem' f = rem f) :
    InOp n programs memories rem' work' next' i t fs ts := by
  obtain ⟨done, op, m, all, l, h1, h2, h3, h4, h5, h6, h7⟩ := h
  refine ⟨done, op, m, all, l, h1, h2, h3, h4, ?_, h6, fun f hf => ?_⟩
  · have : fs.map rem' = fs.map rem := List.map_congr_left fun f hf =>
      hr f (h7 f hf).1 (h7 f hf).2
    rw [this]
    exact h5
  · obtain ⟨a, l, hl⟩ := h7 f hf
    exact ⟨by omega, l, by rw [hw f a, hl]⟩

theorem threadInv_frame {n : Nat} {programs : Nat → List (Call γ)} {memories : Nat → List γ}
    {rem rem' : Nat → List (Act γ)} {work work' : Nat → Work γ} {next next' i : Nat}
    {t : Thread γ} (h : ThreadInv n programs memories rem work next i t) (hn : next ≤ next')
    (hw : ∀ f < next, work' f = work f)
    (hr : ∀ f < next, (∃ l, work f = .acts i l) → rem' f = rem f) :
    ThreadInv n programs memories rem' work' next' i t := by
  rw [ThreadInv] at h ⊢
  split at h
  · exact h
  · exact inOp_frame h hn hw hr
  · exact inOp_frame h hn hw hr

theorem inv_initial (n : Nat) (programs : Nat → List (Call γ)) (memories : Nat → List γ)
    (inPool : Nat → Bool) :
    Inv n programs memories (Machine.initial programs memories inPool) := by
  refine ⟨poolInv_initial n _ _ _, fun _ => [], ⟨?_, ?_, ?_, ?_, ?_, ?_⟩, fun i => ?_⟩
  · simp [Machine.initial, Pool.initial]
  · simp [Machine.initial, Pool.initial]
  · simp [Machine.initial, Pool.initial]
  · simp
  · simp
  · simp
  · exact ⟨[], rfl, .nothing _⟩

theorem PoolInv.lt {n : Nat} {s : Machine γ} (h : PoolInv n s) {t : Nat}
    (ht : t ∈ s.pool.queue ∨ (∃ w < n, s.pool.pc w = .start t) ∨ (∃ w < n, s.pool.pc w = .run t) ∨
      t ∈ Fern.Spec.finished s.pool.log) : t < s.next := by
  have ht2 := h.total t
  by_contra hn
  rw [if_neg hn] at ht2
  rcases ht with h1 | ⟨w, hw, h1⟩ | ⟨w, hw, h1⟩ | h1
  · have := List.count_pos_iff.2 h1
    omega
  · have := at_pos hw h1
    omega
  · have := at_pos hw h1
    omega
  · have := List.count_pos_iff.2 h1
    omega

/-- A task that is being executed is nowhere else. -/
theorem PoolInv.alone {n : Nat} {s : Machine γ} (h : PoolInv n s) {w t : Nat} (hw : w < n)
    (hp : s.pool.pc w = .run t) : t ∉ s.pool.queue ∧ (∀ v < n, s.pool.pc v ≠ .start t) ∧
      (∀ v < n, v ≠ w → s.pool.pc v ≠ .run t) ∧ t ∉ Fern.Spec.finished s.pool.log := by
  have ht := h.total t
  have h1 := at_pos hw hp
  have hle : (if t < s.next then 1 else 0) ≤ 1 := by split <;> omega
  refine ⟨fun hq => ?_, fun v hv hs => ?_, fun v hv hne hr => ?_, fun hf => ?_⟩
  · have := List.count_pos_iff.2 hq
    omega
  · have := at_pos hv hs
    omega
  · have := at_two hv hw hne hr hp
    omega
  · have := List.count_pos_iff.2 hf
    omega

theorem setThread_self (s : Machine γ) (i : Nat) (t : Thread γ) :
    (s.setThread i t).thread i = t := by
  simp [Machine.setThread]

theorem setThread_ne (s : Machine γ) {i j : Nat} (h : j ≠ i) (t : Thread γ) :
    (s.setThread i t).thread j = s.thread j := by
  simp [Machine.setThread, Function.update_of_ne h]

theorem remInv_thread {n : Nat} {s : Machine γ} {rem : Nat → List (Act γ)} (h : RemInv n s rem)
    {i : Nat} {th : Thread γ} (hf : ∀ t ∈ (s.thread i).pc.futures, rem t ≠ [] → t ∈ th.pc.futures) :
    RemInv n (s.setThread i th) rem := by
  refine ⟨h.queued, h.starting, h.running, h.finished, h.program, fun t ht j l hw => ?_⟩
  by_cases hj : j = i
  · subst hj
    rw [setThread_self]
    rcases h.owned t ht j l hw with h1 | h1
    · exact .inl h1
    · by_cases hr : rem t = []
      · exact .inl hr
      · exact .inr (hf t h1 hr)
  · rw [setThread_ne s hj]
    exact h.owned t ht j l hw

theorem threads_update {n : Nat} {programs : Nat → List (Call γ)} {memories : Nat → List γ}
    {rem : Nat → List (Act γ)} {s : Machine γ}
    (h : ∀ i, ThreadInv n programs memories rem s.work s.next i (s.thread i)) {i : Nat}
    {th : Thread γ} (hi : ThreadInv n programs memories rem s.work s.next i th) (j : Nat) :
    ThreadInv n programs memories rem (s.setThread i th).work (s.setThread i th).next j
      ((s.setThread i th).thread j) := by
  by_cases hj : j = i
  · subst hj
    rw [setThread_self]
    exact hi
  · rw [setThread_ne s hj]
    exact h j

/-- Submitting a task. -/
theorem remInv_submit {n : Nat} {s : Machine γ} {rem : Nat → List (Act γ)} (hp : PoolInv n s)
    (h : RemInv n s rem) {i : Nat} {th : Thread γ} (wk : Work γ)
    (hf : ∀ t ∈ (s.thread i).pc.futures, rem t ≠ [] → t ∈ th.pc.futures)
    (hn : ∀ j l, wk = .acts j l → j = i ∧ s.next ∈ th.pc.futures) :
    RemInv n ((s.submit wk).setThread i th) (Function.update rem s.next wk.actions) := by
  have hlt : ∀ {t}, t < s.next → Function.update rem s.next wk.actions t = rem t := fun {t} ht =>
    Function.update_of_ne (by omega) _ _
  have hwk : ∀ {t}, t < s.next → Function.update s.work s.next wk t = s.work t := fun {t} ht =>
    Function.update_of_ne (by omega) _ _
  refine ⟨fun t ht => ?_, fun w hw t ht => ?_, fun w hw t ht => ?_, fun t ht => ?_,
    fun t j ht => ?_, fun t ht j l hw => ?_⟩
  · change t ∈ s.pool.queue ++ [s.next] at ht
    change _ = (Function.update s.work s.next wk t).actions
    rw [List.mem_append, List.mem_singleton] at ht
    rcases ht with ht | rfl
    · have := hp.lt (.inl ht)
      rw [hlt this, hwk this]
      exact h.queued t ht
    · simp
  · change s.pool.pc w = _ at ht
    change _ = (Function.update s.work s.next wk t).actions
    have := hp.lt (.inr (.inl ⟨w, hw, ht⟩))
    rw [hlt this, hwk this]
    exact h.starting w hw t ht
  · change s.pool.pc w = _ at ht
    have := hp.lt (.inr (.inr (.inl ⟨w, hw, ht⟩)))
    rw [hlt this]
    exact h.running w hw t ht
  · have ht' : t ∈ Fern.Spec.finished s.pool.log := by
      change t ∈ Fern.Spec.finished (s.pool.log ++ [_]) at ht
      simpa [Fern.Spec.finished, List.filterMap_append] using ht
    have := hp.lt (.inr (.inr (.inr ht')))
    rw [hlt this]
    exact h.finished t ht'
  · change Function.update s.work s.next wk t = _ at ht
    by_cases hts : t = s.next
    · subst hts
      rw [Function.update_self] at ht ⊢
      rw [ht]
      rfl
    · rw [Function.update_of_ne hts] at ht ⊢
      exact h.program t j ht
  · change Function.update s.work s.next wk t = _ at hw
    change t < s.next + 1 at ht
    by_cases hts : t = s.next
    · subst hts
      rw [Function.update_self] at hw
      obtain ⟨rfl, h2⟩ := hn j l hw
      rw [setThread_self]
      exact .inr h2
    · have hlt' : t < s.next := by omega
      rw [hwk hlt'] at hw
      rw [hlt hlt']
      by_cases hj : j = i
      · subst hj
        rw [setThread_self]
        rcases h.owned t hlt' j l hw with h1 | h1
        · exact .inl h1
        · by_cases hr : rem t = []
          · exact .inl hr
          · exact .inr (hf t h1 hr)
      · rw [setThread_ne _ hj]
        exact h.owned t hlt' j l hw

theorem runActs_snoc (l : List (Act γ)) (a : Act γ) (m : List γ) :
    runActs (l ++ [a]) m = (runActs l m).bind (modifyAt a.idx a.fn) := by
  rw [runActs, runActs, forIn'_append]
  cases forIn' l (fun a s => modifyAt a.idx a.fn s) m with
  | none => rfl
  | some x => simp [forIn']

theorem map_update_mem {rem : Nat → List (Act γ)} {t : Nat} {l : List (Act γ)} {fs : List Nat}
    (h : t ∈ fs) (hn : fs.Nodup) : ∃ pre post, fs.map rem = pre ++ rem t :: post ∧
      fs.map (Function.update rem t l) = pre ++ l :: post := by
  obtain ⟨f1, f2, rfl⟩ := List.append_of_mem h
  have hd := List.nodup_append.1 hn
  have h1 : t ∉ f1 := fun h => hd.2.2 t h t (by simp) rfl
  have h2 : t ∉ f2 := (List.nodup_cons.1 hd.2.1).1
  refine ⟨f1.map rem, f2.map rem, by simp, ?_⟩
  rw [List.map_append, List.map_cons, Function.update_self]
  congr 1
  · exact List.map_congr_left fun x hx => Function.update_of_ne (fun e : x = t => h1 (e ▸ hx)) _ _
  · congr 1
    exact List.map_congr_left fun x hx => Function.update_of_ne (fun e : x = t => h2 (e ▸ hx)) _ _

theorem finished_step {n : Nat} {p p' : Pool} {l : PoolStep} (h : PStep true n p l p')
    (hl : ∀ w t, l = .worker w → p.pc w ≠ .start t ∧ p.pc w ≠ .run t) :
    Fern.Spec.finished p'.log = Fern.Spec.finished p.log := by
  cases h with
  | worker w s' hw hs =>
    cases hs with
    | finish t hp => exact absurd hp (hl w t rfl).2
    | _ => simp [Pool.gotoLog, Pool.goto, Fern.Spec.finished, List.filterMap_append]
  | submit t => simp [Fern.Spec.finished, List.filterMap_append]
  | _ => rfl

/-- Steps of the pool other than calling a task and returning from one. -/
theorem place_step {n : Nat} {p p' : Pool} {l : PoolStep} (h : PStep true n p l p')
    (hs : ∀ t, l ≠ .submit t)
    (hl : ∀ w t, l = .worker w → p.pc w ≠ .start t ∧ p.pc w ≠ .run t) :
    (∀ t ∈ p'.queue, t ∈ p.queue) ∧
    (∀ w t, p'.pc w = .start t → p.pc w = .start t ∨ t ∈ p.queue) ∧
    (∀ w t, p'.pc w = .run t → p.pc w = .run t) := by
  have key : ∀ (f : Nat → WorkerPc) (w : Nat) (q : WorkerPc), (∀ t, q ≠ .start t ∧ q ≠ .run t) →
      (∀ v t, Function.update f w q v = .start t → f v = .start t ∨ t ∈ p.queue) ∧
      (∀ v t, Function.update f w q v = .run t → f v = .run t) := by
    intro f w q hq
    constructor
    · intro v t hv
      rw [update_pc] at hv
      split at hv
      · exact absurd hv (hq t).1
      · exact .inl hv
    · intro v t hv
      rw [update_pc] at hv
      split at hv
      · exact absurd hv (hq t).2
      · exact hv
  cases h with
  | worker w s' hw hs =>
    cases hs with
    | take t q hp hq =>
      refine ⟨fun u hu => by rw [hq]; exact List.mem_cons_of_mem _ hu, fun v u hv => ?_,
        fun v u hv => ?_⟩
      · change Function.update p.pc w (.start t) v = _ at hv
        rw [update_pc] at hv
        split at hv
        · cases hv
          exact .inr (by rw [hq]; simp)
        · exact .inl hv
      · change Function.update p.pc w (.start t) v = _ at hv
        rw [update_pc] at hv
        split at hv
        · cases hv
        · exact hv
    | start t hp => exact absurd hp (hl w t rfl).1
    | finish t hp => exact absurd hp (hl w t rfl).2
    | _ => exact ⟨fun _ h => h, key p.pc w _ (by simp)⟩
  | submit t => exact absurd rfl (hs t)
  | wake w hw _ hp => exact ⟨fun _ h => h, key p.pc w _ (by simp)⟩
  | notify w hw hp => exact ⟨fun _ h => h, key p.pc w _ (by simp)⟩
  | notifyNone => exact ⟨fun _ h => h, fun _ _ h => .inl h, fun _ _ h => h⟩
  | destroy => exact ⟨fun _ h => h, fun _ _ h => .inl h, fun _ _ h => h⟩
  | notifyAll hd =>
    refine ⟨fun _ h => h, fun w t h => ?_, fun w t h => ?_⟩
    · simp only at h
      split at h
      · cases h
      · exact .inl h
    · simp only at h
      split at h
      · cases h
      · exact h

theorem inv_step {n : Nat} {programs : Nat → List (Call γ)} {memories : Nat → List γ}
    (s : Machine γ) (l : Step) (s' : Machine γ) (h : Inv n programs memories s)
    (hs : MStep n s l s') : Inv n programs memories s' := by
  refine ⟨poolInv_step s l s' h.1 hs, ?_⟩
  obtain ⟨hp, rem, hr, ht⟩ := h
  cases hs with
  | undefined i op rest m ha hpc hrest hm ho =>
    refine ⟨rem, remInv_thread hr (by rw [hpc]; simp [Pc.futures]), threads_update ht ?_⟩
    have hti := ht i
    rw [ThreadInv, hpc] at hti
    obtain ⟨done, h1, h2⟩ := hti
    simp only [ThreadInv, hpc]
    refine ⟨done ++ [.operate op], by rw [h1, hrest]; simp, ?_⟩
    exact Outcome.append h2 hm (.undefined (by rw [ho]; rfl))
  | operate i op rest m ts ha hpc hrest hm ho =>
    refine ⟨rem, remInv_thread hr (by rw [hpc]; simp [Pc.futures]), threads_update ht ?_⟩
    have hti := ht i
    rw [ThreadInv, hpc] at hti
    obtain ⟨done, h1, h2⟩ := hti
    rw [hm] at h2
    simp only [ThreadInv]
    exact ⟨done, op, m, ts, [], by rw [h1, hrest], h2, ho, hm, by simp, by simp, by simp⟩
  | launch i j rest ha hpc hrest =>
    refine ⟨_, remInv_submit hp hr (.program j) (by rw [hpc]; simp [Pc.futures]) (by simp), ?_⟩
    intro k
    have hfr := threadInv_frame (ht k) (Nat.le_succ s.next)
      (work' := Function.update s.work s.next (.program j))
      (rem' := Function.update rem s.next (Work.program j : Work γ).actions)
      (fun f hf => Function.update_of_ne (by omega) _ _)
      (fun f hf _ => Function.update_of_ne (by omega) _ _)
    by_cases hk : k = i
    · subst hk
      rw [setThread_self]
      have hti := ht k
      rw [ThreadInv, hpc] at hti
      obtain ⟨done, h1, h2⟩ := hti
      simp only [ThreadInv, hpc]
      refine ⟨done ++ [.launch j], by rw [h1, hrest]; simp, ?_⟩
      cases hm : (s.thread k).memory with
      | some m =>
        rw [hm] at h2
        exact Outcome.append h2 rfl (.launch (.nothing m))
      | none =>
        rw [hm] at h2
        exact outcome_none h2 rfl _
    · rw [setThread_ne _ hk]
      exact hfr
  | submit i fs l ls ha hpc =>
    refine ⟨_, remInv_submit hp hr (.acts i l) ?_ ?_, ?_⟩
    · rw [hpc]
      intro t ht _
      exact List.mem_append_left _ ht
    · intro j l' hjl
      cases hjl
      exact ⟨rfl, by simp [Pc.futures]⟩
    · intro k
      by_cases hk : k = i
      · subst hk
        rw [setThread_self]
        have hti := ht k
        rw [ThreadInv, hpc] at hti
        have h7 := hti.choose_spec.choose_spec.choose_spec.choose_spec.choose_spec.2.2.2.2.2.2
        have hti := inOp_frame hti (Nat.le_succ s.next)
          (work' := Function.update s.work s.next (.acts k l))
          (rem' := Function.update rem s.next (Work.acts k l : Work γ).actions)
          (fun f hf => Function.update_of_ne (by omega) _ _)
          (fun f hf _ => Function.update_of_ne (by omega) _ _)
        obtain ⟨done, op, m, all, l0, h1, h2, h3, h4, h5, h6, _⟩ := hti
        simp only [ThreadInv]
        refine ⟨done, op, m, all, l0, h1, h2, h3, h4, ?_, ?_, ?_⟩
        · intro l' hl'
          apply h5
          simpa [Work.actions] using hl'
        · refine List.nodup_append.2 ⟨h6, by simp, ?_⟩
          intro a ha' b hb
          have := (h7 a ha').1
          rw [List.mem_singleton] at hb
          omega
        · intro f hf
          rw [List.mem_append, List.mem_singleton] at hf
          change f < s.next + 1 ∧ ∃ l', Function.update s.work s.next (.acts k l) f = _
          rcases hf with hf | rfl
          · obtain ⟨a, l', hl'⟩ := h7 f hf
            exact ⟨by omega, l', by rw [Function.update_of_ne (by omega), hl']⟩
          · exact ⟨by omega, l, by rw [Function.update_self]⟩
      · rw [setThread_ne _ hk]
        exact threadInv_frame (ht k) (Nat.le_succ s.next)
          (fun f hf => Function.update_of_ne (by omega) _ _)
          (fun f hf _ => Function.update_of_ne (by omega) _ _)
  | submitted i fs ha hpc =>
    refine ⟨rem, remInv_thread hr (by rw [hpc]; exact fun t h _ => h), threads_update ht ?_⟩
    have hti := ht i
    rw [ThreadInv, hpc] at hti
    exact hti
  | get i f fs ha hpc hrd =>
    have hf := hr.finished f (ready_iff.1 hrd)
    refine ⟨rem, remInv_thread hr ?_, threads_update ht ?_⟩
    · rw [hpc]
      intro t ht hne
      rcases List.mem_cons.1 ht with rfl | h
      · exact absurd hf hne
      · exact h
    · have hti := ht i
      rw [ThreadInv, hpc] at hti
      obtain ⟨done, op, m, all, l, h1, h2, h3, h4, h5, h6, h7⟩ := hti
      simp only [ThreadInv]
      refine ⟨done, op, m, all, l, h1, h2, h3, h4, ?_, (List.nodup_cons.1 h6).2,
        fun g hg => h7 g (List.mem_cons_of_mem _ hg)⟩
      intro l' hl'
      apply h5
      rw [List.map_cons, hf]
      exact hl'.cons_nil
  | «return» i ha hpc =>
    refine ⟨rem, remInv_thread hr (by rw [hpc]; simp [Pc.futures]), threads_update ht ?_⟩
    have hti := ht i
    rw [ThreadInv, hpc] at hti
    obtain ⟨done, op, m, all, l, h1, h2, h3, h4, h5, h6, h7⟩ := hti
    simp only [ThreadInv]
    refine ⟨done ++ [.operate op], by rw [h1]; simp, ?_⟩
    have hall : Interleave all l := by simpa using h5 [] (.done (by simp))
    have hpar : ParResult (op n m) m (s.thread i).memory := by
      rw [h3]
      exact ⟨l, hall, h4.symm⟩
    cases hm : (s.thread i).memory with
    | none => exact Outcome.append h2 rfl (.undefined (hm ▸ hpar))
    | some m' => exact Outcome.append h2 rfl (.operate (hm ▸ hpar) (.nothing m'))
  | act w t i l a as hw hpc hwk htd =>
    obtain ⟨a1, a2, a3, a4⟩ := hp.alone hw hpc
    have hrt : rem t = a :: as := (hr.running w hw t hpc).trans htd
    have hlt := hp.lt (.inr (.inr (.inl ⟨w, hw, hpc⟩)))
    have hne : ∀ {u}, u ≠ t → Function.update rem t as u = rem u := fun h =>
      Function.update_of_ne h _ _
    refine ⟨Function.update rem t as, ⟨fun u hu => ?_, fun v hv u hu => ?_, fun v hv u hu => ?_,
      fun u hu => ?_, fun u j hu => ?_, fun u hu j l' hj => ?_⟩, fun j => ?_⟩
    · rw [hne (fun e => a1 (e ▸ hu))]
      exact hr.queued u hu
    · rw [hne (fun e => a2 v hv (e ▸ hu))]
      exact hr.starting v hv u hu
    · change s.pool.pc v = _ at hu
      change _ = Function.update s.todo w as v
      by_cases hvw : v = w
      · subst hvw
        rw [hpc] at hu
        cases hu
        rw [Function.update_self, Function.update_self]
      · rw [hne (fun e => a3 v hv hvw (e ▸ hu)), Function.update_of_ne hvw]
        exact hr.running v hv u hu
    · rw [hne (fun e => a4 (e ▸ hu))]
      exact hr.finished u hu
    · change s.work u = _ at hu
      rw [hne (fun e => by rw [e, hwk] at hu; cases hu)]
      exact hr.program u j hu
    · change s.work u = _ at hj
      change u < s.next at hu
      have hfut : ((Machine.setThread { s with todo := Function.update s.todo w as } i
          { s.thread i with memory := (s.thread i).memory.bind (modifyAt a.idx a.fn) }).thread
            j).pc.futures = (s.thread j).pc.futures := by
        by_cases hji : j = i
        · subst hji; rw [setThread_self]
        · rw [setThread_ne _ hji]
      rw [hfut]
      rcases hr.owned u hu j l' hj with h1 | h1
      · by_cases hut : u = t
        · subst hut
          rw [hrt] at h1
          cases h1
        · rw [hne hut]
          exact .inl h1
      · exact .inr h1
    · by_cases hji : j = i
      · subst hji
        rw [setThread_self]
        have htj := ht j
        have hmem : t ∈ (s.thread j).pc.futures := by
          rcases hr.owned t hlt j l hwk with h1 | h1
          · rw [hrt] at h1
            cases h1
          · exact h1
        have key : ∀ fs ts, t ∈ fs →
            InOp n programs memories rem s.work s.next j (s.thread j) fs ts →
            InOp n programs memories (Function.update rem t as) s.work s.next j
              { s.thread j with memory := (s.thread j).memory.bind (modifyAt a.idx a.fn) }
              fs ts := by
          rintro fs ts hfs ⟨done, op, m, all, l0, h1, h2, h3, h4, h5, h6, h7⟩
          refine ⟨done, op, m, all, l0 ++ [a], h1, h2, h3, ?_, ?_, h6, h7⟩
          · rw [runActs_snoc, ← h4]
          · intro l' hl'
            obtain ⟨pre, post, e1, e2⟩ := map_update_mem (rem := rem) (l := as) hfs h6
            rw [e2, List.append_assoc, List.cons_append] at hl'
            have := Interleave.step (a := a) hl'
            rw [List.append_assoc, List.singleton_append]
            apply h5
            rw [e1, hrt, List.append_assoc, List.cons_append]
            exact this
        cases hpj : (s.thread j).pc with
        | idle =>
          rw [hpj] at hmem
          simp [Pc.futures] at hmem
        | submitting fs ts =>
          simp only [ThreadInv, hpj] at htj ⊢
          rw [hpj] at hmem
          exact key fs ts hmem htj
        | waiting fs =>
          simp only [ThreadInv, hpj] at htj ⊢
          rw [hpj] at hmem
          exact key fs [] hmem htj
      · rw [setThread_ne _ hji]
        refine threadInv_frame (ht j) (le_refl _) (fun _ _ => rfl) ?_
        rintro f hf ⟨l', hl'⟩
        refine hne fun e => hji ?_
        rw [e, hwk] at hl'
        cases hl'
        rfl
  | start w t hw hpc =>
    refine ⟨rem, ⟨hr.queued, fun v hv u hu => ?_, fun v hv u hu => ?_, fun u hu => ?_, hr.program,
      hr.owned⟩, ht⟩
    · change Function.update s.pool.pc w (.run t) v = _ at hu
      rw [update_pc] at hu
      split at hu
      · cases hu
      · exact hr.starting v hv u hu
    · change Function.update s.pool.pc w (.run t) v = _ at hu
      change _ = Function.update s.todo w _ v
      rw [update_pc] at hu
      split at hu
      · rename_i hvw
        cases hu
        subst hvw
        rw [Function.update_self]
        exact hr.starting v hv _ hpc
      · rename_i hvw
        rw [Function.update_of_ne hvw]
        exact hr.running v hv u hu
    · refine hr.finished u ?_
      simpa [Pool.gotoLog, Pool.goto, Fern.Spec.finished, List.filterMap_append] using hu
  | finish w t hw hpc he =>
    refine ⟨rem, ⟨hr.queued, fun v hv u hu => ?_, fun v hv u hu => ?_, fun u hu => ?_, hr.program,
      hr.owned⟩, ht⟩
    · change Function.update s.pool.pc w .check v = _ at hu
      rw [update_pc] at hu
      split at hu
      · cases hu
      · exact hr.starting v hv u hu
    · change Function.update s.pool.pc w .check v = _ at hu
      rw [update_pc] at hu
      split at hu
      · cases hu
      · exact hr.running v hv u hu
    · have hu' : u ∈ Fern.Spec.finished s.pool.log ∨ u = t := by
        simpa [Pool.gotoLog, Pool.goto, Fern.Spec.finished, List.filterMap_append] using hu
      rcases hu' with hu' | rfl
      · exact hr.finished u hu'
      · simp only [Machine.taskEnded] at he
        split at he
        · rw [hr.running w hw u hpc]
          simpa using he
        · rename_i j hj
          exact hr.program u j hj
  | pool l p hst hns hnw =>
    obtain ⟨p1, p2, p3⟩ := place_step hst hns hnw
    refine ⟨rem, ⟨fun t h => hr.queued t (p1 t h), fun w hw t h => ?_,
      fun w hw t h => hr.running w hw t (p3 w t h), fun t h => ?_, hr.program, hr.owned⟩, ht⟩
    · rcases p2 w t h with h | h
      · exact hr.starting w hw t h
      · exact hr.queued t h
    · rw [finished_step hst hnw] at h
      exact hr.finished t h

/-- What is known of every state reached. -/
theorem inv_exec {n : Nat} {programs : Nat → List (Call γ)} {memories : Nat → List γ}
    {inPool : Nat → Bool} {steps : List Step} {s : Machine γ}
    (h : (Machine.initial programs memories inPool).exec n steps = some s) :
    Inv n programs memories s :=
  mexec_invariant inv_step (inv_initial n programs memories inPool) h

end PoolRun

end Fern
