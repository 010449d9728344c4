import Verif.Spec.Futures
import Verif.Lemmas.PoolReturn
import Verif.Props.PoolRun
import Mathlib.Data.Nat.Pairing

/-!
Lemmas about the futures of tasks.
-/

namespace Fern.Futures

open _root_.Fern.Futures.Spec

variable {T E : Type}

/-- The steps, case by case. -/
inductive FStep (n : Nat) (s : Machine T E) : Step → Machine T E → Prop
  | call (i : Nat) (ts : List (Task T E)) (rest : List (List (Task T E)))
      (rs : List (Except (Failure E) (List T))) : s.caller i = ⟨.idle, ts :: rest, rs⟩ →
      FStep n s (.call i) (s.setCaller i ⟨.submitting [] ts, rest, rs⟩)
  | submit (i : Nat) (fs : List Nat) (t : Task T E) (ts : List (Task T E))
      (rest : List (List (Task T E))) (rs : List (Except (Failure E) (List T))) :
      s.caller i = ⟨.submitting fs (t :: ts), rest, rs⟩ → s.destroyed = false →
      FStep n s (.submit i) ((s.push ⟨i, rs.length, t⟩).setCaller i
        ⟨.submitting (fs ++ [s.next]) ts, rest, rs⟩)
  | submitted (i : Nat) (fs : List Nat) (rest : List (List (Task T E)))
      (rs : List (Except (Failure E) (List T))) : s.caller i = ⟨.submitting fs [], rest, rs⟩ →
      FStep n s (.submit i) (s.setCaller i ⟨.waiting [] fs, rest, rs⟩)
  | value (i f : Nat) (got : List T) (fs : List Nat) (rest : List (List (Task T E)))
      (rs : List (Except (Failure E) (List T))) (j : Job T E) (v : T) :
      s.caller i = ⟨.waiting got (f :: fs), rest, rs⟩ → s.ready f = true → s.job f = some j →
      j.task.outcome = .ok v →
      FStep n s (.get i) (s.setCaller i ⟨.waiting (got ++ [v]) fs, rest, rs⟩)
  | throws (i f : Nat) (got : List T) (fs : List Nat) (rest : List (List (Task T E)))
      (rs : List (Except (Failure E) (List T))) (j : Job T E) (e : E) :
      s.caller i = ⟨.waiting got (f :: fs), rest, rs⟩ → s.ready f = true → s.job f = some j →
      j.task.outcome = .error e →
      FStep n s (.get i) (s.setCaller i ⟨.idle, rest, rs ++ [.error (.thrown e)]⟩)
  | broken (i f : Nat) (got : List T) (fs : List Nat) (rest : List (List (Task T E)))
      (rs : List (Except (Failure E) (List T))) :
      s.caller i = ⟨.waiting got (f :: fs), rest, rs⟩ → s.destroyed = true → f ∈ s.pool.queue →
      FStep n s (.get i) (s.setCaller i ⟨.idle, rest, rs ++ [.error .broken]⟩)
  | return (i : Nat) (got : List T) (rest : List (List (Task T E)))
      (rs : List (Except (Failure E) (List T))) : s.caller i = ⟨.waiting got [], rest, rs⟩ →
      FStep n s (.get i) (s.setCaller i ⟨.idle, rest, rs ++ [.ok got]⟩)
  | access (w t k : Nat) (j : Job T E) : w < n → s.pool.pc w = .run t → s.job t = some j →
      s.todo w = k + 1 → FStep n s (.access w) { s with
        todo := Function.update s.todo w k, dangling := s.dangling || !s.alive j }
  | start (w t : Nat) (j : Job T E) : w < n → s.pool.pc w = .start t → s.job t = some j →
      FStep n s (.pool (.worker w)) { s with
        pool := s.pool.gotoLog w (.run t) (.started w t)
        todo := Function.update s.todo w j.task.accesses }
  | finish (w t : Nat) : w < n → s.pool.pc w = .run t → s.todo w = 0 →
      FStep n s (.pool (.worker w)) { s with pool := s.pool.gotoLog w .check (.finished w t) }
  | pool (l : PoolStep) (p : Pool) : s.pool.step true n l = some p → (∀ t, l ≠ .submit t) →
      (∀ w t, l = .worker w → s.pool.pc w ≠ .start t ∧ s.pool.pc w ≠ .run t) →
      FStep n s (.pool l) { s with pool := p }
  | dispose : s.pool.done = true → (∀ w < n, s.pool.pc w = .exit) →
      FStep n s .dispose { s with destroyed := true }

theorem FStep.of_step {n : Nat} {s s' : Machine T E} {l : Step} (h : s.step n l = some s') :
    FStep n s l s' := by
  cases l with
  | call i =>
    simp only [Machine.step, Machine.call] at h
    split at h
    · rename_i ts rest rs hc
      cases h
      exact .call i ts rest rs hc
    · simp at h
  | submit i =>
    simp only [Machine.step, Machine.submit] at h
    split at h
    · rename_i fs t ts rest rs hc
      split at h
      · simp at h
      · rename_i hd
        cases h
        exact .submit i fs t ts rest rs hc (by simpa using hd)
    · rename_i fs rest rs hc
      cases h
      exact .submitted i fs rest rs hc
    · simp at h
  | get i =>
    simp only [Machine.step, Machine.get] at h
    split at h
    · rename_i got f fs rest rs hc
      split at h
      · rename_i hr
        split at h
        · rename_i hj
          cases h
          exact .value i f got fs rest rs _ _ hc hr hj rfl
        · rename_i hj
          cases h
          exact .throws i f got fs rest rs _ _ hc hr hj rfl
        · simp at h
      · split at h
        · rename_i hd
          cases h
          simp only [Bool.and_eq_true, List.contains_iff_mem] at hd
          exact .broken i f got fs rest rs hc hd.1 hd.2
        · simp at h
    · rename_i got rest rs hc
      cases h
      exact .return i got rest rs hc
    · simp at h
  | access w =>
    simp only [Machine.step, Machine.access] at h
    split at h
    · rename_i hw
      split at h
      · rename_i t hpc
        split at h
        · rename_i j k hj hk
          cases h
          exact .access w t k j hw hpc hj hk
        · simp at h
      · simp at h
    · simp at h
  | pool l =>
    simp only [Machine.step] at h
    cases l with
    | submit t => simp [Machine.poolStep] at h
    | worker w =>
      simp only [Machine.poolStep] at h
      split at h
      · rename_i t hpc
        split at h
        · rename_i he
          rw [Option.map_eq_some_iff] at h
          obtain ⟨p, hp, rfl⟩ := h
          simp only [Pool.step] at hp
          split at hp
          · rename_i hw
            simp only [Pool.workerStep, hpc, Option.some.injEq] at hp
            subst hp
            exact .finish w t hw hpc he
          · simp at hp
        · simp at h
      · rename_i t hpc
        split at h
        · rename_i j hj
          rw [Option.map_eq_some_iff] at h
          obtain ⟨p, hp, rfl⟩ := h
          simp only [Pool.step] at hp
          split at hp
          · rename_i hw
            simp only [Pool.workerStep, hpc, Option.some.injEq] at hp
            subst hp
            exact .start w t j hw hpc hj
          · simp at hp
        · simp at h
      · rename_i h1 h2
        rw [Option.map_eq_some_iff] at h
        obtain ⟨p, hp, rfl⟩ := h
        refine .pool _ _ hp (by simp) ?_
        rintro v t hv
        cases hv
        exact ⟨fun h => h2 t h, fun h => h1 t h⟩
    | _ =>
      simp only [Machine.poolStep] at h
      rw [Option.map_eq_some_iff] at h
      obtain ⟨p, hp, rfl⟩ := h
      exact .pool _ _ hp (by simp) (by simp)
  | dispose =>
    simp only [Machine.step, Machine.dispose] at h
    split at h
    · rename_i hd
      cases h
      simp only [Bool.and_eq_true, List.all_eq_true, List.mem_range, decide_eq_true_eq] at hd
      exact .dispose hd.1 hd.2
    · simp at h

theorem fexec_snoc {n : Nat} {s s' : Machine T E} {ls : List Step} {l : Step}
    (h : s.exec n (ls ++ [l]) = some s') :
    ∃ u, s.exec n ls = some u ∧ FStep n u l s' := by
  rw [Machine.exec, foldlM_snoc] at h
  obtain ⟨u, hu, hl⟩ := Option.bind_eq_some_iff.1 h
  exact ⟨u, hu, .of_step hl⟩

theorem fexec_append {n : Nat} {s u s' : Machine T E} {l1 l2 : List Step}
    (h1 : s.exec n l1 = some u) (h2 : u.exec n l2 = some s') : s.exec n (l1 ++ l2) = some s' := by
  rw [Machine.exec, List.foldlM_append]
  change (s.exec n l1).bind _ = _
  rw [h1, Option.bind_some]
  exact h2

theorem fexec_invariant {n : Nat} {P : Machine T E → Prop}
    (hP : ∀ s l s', P s → FStep n s l s' → P s') {s s' : Machine T E} {ls : List Step}
    (h0 : P s) (h : s.exec n ls = some s') : P s' := by
  induction ls using List.reverseRecOn generalizing s' with
  | nil => cases h; exact h0
  | append_singleton ls l ih =>
    obtain ⟨u, hu, hl⟩ := fexec_snoc h
    exact hP _ _ _ (ih hu) hl

/-! ### The callers -/

/-- What a result of an operation with the tasks `ts` may be. -/
def Result (d : Bool) (ts : List (Task T E)) (r : Except (Failure E) (List T)) : Prop :=
  r = thrown (inOrder ts) ∨ (d = true ∧ r = .error .broken)

/-- A future is that of the task. -/
def IsJob (s : Machine T E) (i k f : Nat) (t : Task T E) : Prop :=
  f < s.next ∧ s.job f = some ⟨i, k, t⟩

/-- What is known of a thread. -/
structure CallerInv (programs : Nat → List (List (Task T E))) (s : Machine T E) (i : Nat) : Prop where
  made : ∃ done, List.Forall₂ (Result s.destroyed) done (s.caller i).results ∧
    match (s.caller i).pc with
    | .idle => programs i = done ++ (s.caller i).rest
    | .submitting fs todo => ∃ ts, programs i = done ++ (ts ++ todo) :: (s.caller i).rest ∧
      List.Forall₂ (IsJob s i (s.caller i).results.length) fs ts
    | .waiting got fs => ∃ ts0 ts, programs i = done ++ (ts0 ++ ts) :: (s.caller i).rest ∧
      List.Forall₂ (fun v t => Task.outcome t = .ok v) got ts0 ∧
      List.Forall₂ (IsJob s i (s.caller i).results.length) fs ts

theorem inOrder_ok {ts : List (Task T E)} {vs : List T}
    (h : List.Forall₂ (fun v t => Task.outcome t = .ok v) vs ts) : inOrder ts = .ok vs := by
  induction h with
  | nil => rfl
  | cons h _ ih => simp [inOrder, h, ih]

theorem inOrder_error {ts ts' : List (Task T E)} {vs : List T} {t : Task T E} {e : E}
    (h : List.Forall₂ (fun v t => Task.outcome t = .ok v) vs ts) (ht : t.outcome = .error e) :
    inOrder (ts ++ t :: ts') = .error e := by
  induction h with
  | nil => simp [inOrder, ht]
  | cons h _ ih => simp [inOrder, h, ih]

theorem Result.mono {d d' : Bool} (h : d = true → d' = true) {ts : List (Task T E)}
    {r : Except (Failure E) (List T)} (hr : Result d ts r) : Result d' ts r :=
  hr.imp_right fun ⟨h1, h2⟩ => ⟨h h1, h2⟩

theorem forall₂_snoc {α β : Type} {R : α → β → Prop} {l : List α} {l' : List β} {a : α} {b : β}
    (h : List.Forall₂ R l l') (hab : R a b) : List.Forall₂ R (l ++ [a]) (l' ++ [b]) :=
  List.rel_append h (.cons hab .nil)

/-- A step that leaves the thread alone. -/
theorem CallerInv.frame {programs : Nat → List (List (Task T E))} {s s' : Machine T E} {i : Nat}
    (h : CallerInv programs s i) (hc : s'.caller i = s.caller i)
    (hd : s.destroyed = true → s'.destroyed = true)
    (hj : ∀ k f t, IsJob s i k f t → IsJob s' i k f t) : CallerInv programs s' i := by
  obtain ⟨done, h1, h2⟩ := h.made
  refine ⟨done, ?_, ?_⟩
  · rw [hc]
    exact h1.imp fun _ _ => Result.mono hd
  · rw [hc]
    cases hpc : (s.caller i).pc with
    | idle => rw [hpc] at h2; exact h2
    | submitting fs todo =>
      rw [hpc] at h2
      obtain ⟨ts, a, b⟩ := h2
      exact ⟨ts, a, b.imp fun _ _ => hj _ _ _⟩
    | waiting got fs =>
      rw [hpc] at h2
      obtain ⟨ts0, ts, a, b, c⟩ := h2
      exact ⟨ts0, ts, a, b, c.imp fun _ _ => hj _ _ _⟩

theorem isJob_push {s : Machine T E} {i k f : Nat} {t : Task T E} (j : Job T E)
    (h : IsJob s i k f t) : IsJob (s.push j) i k f t := by
  refine ⟨Nat.lt_succ_of_lt h.1, ?_⟩
  simp only [Machine.push]
  rw [Function.update_of_ne (Nat.ne_of_lt h.1)]
  exact h.2

theorem callerInv_step {n : Nat} {programs : Nat → List (List (Task T E))} (s : Machine T E)
    (l : Step) (s' : Machine T E) (h : ∀ i, CallerInv programs s i) (hs : FStep n s l s') :
    ∀ i, CallerInv programs s' i := by
  intro i'
  cases hs with
  | call i ts rest rs hc =>
    by_cases hi : i' = i
    · subst hi
      obtain ⟨done, h1, h2⟩ := (h i').made
      rw [hc] at h1 h2
      exact ⟨done, by simpa [Machine.setCaller] using h1, by
        simp only [Machine.setCaller, Function.update_self]
        exact ⟨[], by simpa using h2, .nil⟩⟩
    · exact (h i').frame (by simp [Machine.setCaller, hi]) id fun _ _ _ h => h
  | submit i fs t ts rest rs hc hd =>
    by_cases hi : i' = i
    · subst hi
      obtain ⟨done, h1, h2⟩ := (h i').made
      rw [hc] at h1 h2
      obtain ⟨ts', h3, h4⟩ := h2
      refine ⟨done, by simpa [Machine.setCaller, Machine.push] using h1, ?_⟩
      simp only [Machine.setCaller, Function.update_self]
      refine ⟨ts' ++ [t], by simpa using h3, forall₂_snoc (h4.imp fun _ _ => isJob_push _) ?_⟩
      exact ⟨Nat.lt_succ_self _, by simp [Machine.push]⟩
    · exact (h i').frame (by simp [Machine.setCaller, hi, Machine.push]) id
        fun _ _ _ h => isJob_push _ h
  | submitted i fs rest rs hc =>
    by_cases hi : i' = i
    · subst hi
      obtain ⟨done, h1, h2⟩ := (h i').made
      rw [hc] at h1 h2
      obtain ⟨ts', h3, h4⟩ := h2
      refine ⟨done, by simpa [Machine.setCaller] using h1, ?_⟩
      simp only [Machine.setCaller, Function.update_self]
      exact ⟨[], ts', by simpa using h3, .nil, h4⟩
    · exact (h i').frame (by simp [Machine.setCaller, hi]) id fun _ _ _ h => h
  | value i f got fs rest rs j v hc hr hj hv =>
    by_cases hi : i' = i
    · subst hi
      obtain ⟨done, h1, h2⟩ := (h i').made
      rw [hc] at h1 h2
      obtain ⟨ts0, ts', h3, h4, h5⟩ := h2
      cases h5 with
      | @cons _ t _ ts'' h6 h7 =>
        have := h6.2
        rw [hj] at this
        cases this
        refine ⟨done, by simpa [Machine.setCaller] using h1, ?_⟩
        simp only [Machine.setCaller, Function.update_self]
        exact ⟨ts0 ++ [t], ts'', by simpa using h3, forall₂_snoc h4 hv, h7⟩
    · exact (h i').frame (by simp [Machine.setCaller, hi]) id fun _ _ _ h => h
  | throws i f got fs rest rs j e hc hr hj he =>
    by_cases hi : i' = i
    · subst hi
      obtain ⟨done, h1, h2⟩ := (h i').made
      rw [hc] at h1 h2
      obtain ⟨ts0, ts', h3, h4, h5⟩ := h2
      cases h5 with
      | @cons _ t _ ts'' h6 h7 =>
        have := h6.2
        rw [hj] at this
        cases this
        refine ⟨done ++ [ts0 ++ t :: ts''], ?_, ?_⟩
        · simp only [Machine.setCaller, Function.update_self]
          exact forall₂_snoc h1 (.inl (by rw [inOrder_error h4 he, thrown]))
        · simp only [Machine.setCaller, Function.update_self]
          simpa using h3
    · exact (h i').frame (by simp [Machine.setCaller, hi]) id fun _ _ _ h => h
  | broken i f got fs rest rs hc hd hq =>
    by_cases hi : i' = i
    · subst hi
      obtain ⟨done, h1, h2⟩ := (h i').made
      rw [hc] at h1 h2
      obtain ⟨ts0, ts', h3, h4, h5⟩ := h2
      refine ⟨done ++ [ts0 ++ ts'], ?_, ?_⟩
      · simp only [Machine.setCaller, Function.update_self]
        exact forall₂_snoc h1 (.inr ⟨hd, rfl⟩)
      · simp only [Machine.setCaller, Function.update_self]
        simpa using h3
    · exact (h i').frame (by simp [Machine.setCaller, hi]) id fun _ _ _ h => h
  | «return» i got rest rs hc =>
    by_cases hi : i' = i
    · subst hi
      obtain ⟨done, h1, h2⟩ := (h i').made
      rw [hc] at h1 h2
      obtain ⟨ts0, ts', h3, h4, h5⟩ := h2
      cases h5
      refine ⟨done ++ [ts0 ++ []], ?_, ?_⟩
      · simp only [Machine.setCaller, Function.update_self]
        exact forall₂_snoc h1 (.inl (by rw [List.append_nil, inOrder_ok h4, thrown]))
      · simp only [Machine.setCaller, Function.update_self]
        simpa using h3
    · exact (h i').frame (by simp [Machine.setCaller, hi]) id fun _ _ _ h => h
  | dispose => exact (h i').frame rfl (fun _ => rfl) fun _ _ _ h => h
  | _ => exact (h i').frame rfl id fun _ _ _ h => h

theorem callerInv_initial (programs : Nat → List (List (Task T E))) (i : Nat) :
    CallerInv programs (Machine.initial programs) i := ⟨[], .nil, rfl⟩

theorem callerInv_exec {n : Nat} {programs : Nat → List (List (Task T E))} {steps : List Step}
    {s : Machine T E} (h : (Machine.initial programs).exec n steps = some s) (i : Nat) :
    CallerInv programs s i :=
  fexec_invariant (P := fun s => ∀ i, CallerInv programs s i) callerInv_step
    (callerInv_initial programs) h i

/-! ### The pool: a simulation by operations whose tasks have no result -/

/-- An action that does nothing. -/
def noop : Act Unit := ⟨0, id⟩

/-- The accesses of a task, as actions. -/
def acts (t : Task T E) : List (Act Unit) := List.replicate t.accesses noop

/-- Each operation by a thread of its own. -/
def program (programs : Nat → List (List (Task T E))) (p : Nat) : List (PoolRun.Call Unit) :=
  match (programs (Nat.unpair p).1)[(Nat.unpair p).2]? with
  | some ts => [.operate fun _ _ => some (ts.map acts)]
  | none => []

/-- Operation `k` of thread `i` has not been called. -/
def Fresh (s : Machine T E) (i k : Nat) : Prop :=
  (s.caller i).results.length < k ∨ ((s.caller i).results.length = k ∧ (s.caller i).pc = .idle)

structure Sim (programs : Nat → List (List (Task T E))) (s : Machine T E)
    (u : PoolRun.Machine Unit) : Prop where
  pool : u.pool = s.pool
  next : u.next = s.next
  work : ∀ t j, s.job t = some j →
    u.work t = .acts (Nat.pair j.caller j.operation) (acts j.task)
  job : ∀ t < s.next, ∃ j, s.job t = some j
  todo : ∀ w, u.todo w = List.replicate (s.todo w) noop
  inPool : ∀ p, (u.thread p).inPool = false
  memory : ∀ p, (u.thread p).memory = some [()]
  fresh : ∀ i k, Fresh s i k → (u.thread (Nat.pair i k)).pc = .idle ∧
    (u.thread (Nat.pair i k)).rest = program programs (Nat.pair i k)
  submitting : ∀ i fs ts, (s.caller i).pc = .submitting fs ts →
    (u.thread (Nat.pair i (s.caller i).results.length)).pc = .submitting fs (ts.map acts)

theorem sim_initial (programs : Nat → List (List (Task T E))) : Sim programs
    (Machine.initial programs)
    (PoolRun.Machine.initial (program programs) (fun _ => [()]) (fun _ => false)) where
  pool := rfl
  next := rfl
  work _ _ h := by simp [Machine.initial] at h
  job _ h := by simp [Machine.initial] at h
  todo _ := rfl
  inPool _ := rfl
  memory _ := rfl
  fresh _ _ _ := ⟨rfl, rfl⟩
  submitting _ _ _ h := by simp [Machine.initial] at h

theorem pair_ne {i k i' k' : Nat} (h : ¬ (i = i' ∧ k = k')) : Nat.pair i k ≠ Nat.pair i' k' :=
  fun e => h (Nat.pair_eq_pair.1 e)

/-- Whether a step is one of worker `w`. -/
def own (w : Nat) (l : Step) : Nat := if ownStep w l then 1 else 0

theorem sim_get {programs : Nat → List (List (Task T E))} {s : Machine T E}
    {u : PoolRun.Machine Unit} (hu : Sim programs s u) {i : Nat} {c : Caller T E}
    (h1 : ∀ k, Fresh (s.setCaller i c) i k → Fresh s i k) (h2 : ∀ fs ts, c.pc ≠ .submitting fs ts) :
    Sim programs (s.setCaller i c) u where
  pool := hu.pool
  next := hu.next
  work := hu.work
  job := hu.job
  todo := hu.todo
  inPool := hu.inPool
  memory := hu.memory
  fresh i' k h := by
    by_cases hi : i' = i
    · subst hi; exact hu.fresh _ _ (h1 _ h)
    · exact hu.fresh _ _ (by simpa [Fresh, Machine.setCaller, hi] using h)
  submitting i' fs ts h := by
    by_cases hi : i' = i
    · subst hi; simp [Machine.setCaller] at h; exact absurd h (h2 _ _)
    · simp only [Machine.setCaller, Function.update_of_ne hi] at h ⊢
      exact hu.submitting _ _ _ h

theorem sim_step {n : Nat} {programs : Nat → List (List (Task T E))} {s s' : Machine T E} {l : Step}
    {u : PoolRun.Machine Unit} (hi : ∀ i, CallerInv programs s i) (hu : Sim programs s u)
    (hp : PoolRun.PoolInv n u) (hs : FStep n s l s') : ∃ ls u', u.exec n ls = some u' ∧ Sim programs s' u' ∧
      ∀ w, ls.countP (PoolRun.Spec.ownStep w) = own w l := by
  cases hs with
  | call i ts rest rs hc =>
    obtain ⟨done, h1, h2⟩ := (hi i).made
    rw [hc] at h1 h2
    have hf : Fresh s i rs.length := .inr (by rw [hc]; exact ⟨rfl, rfl⟩)
    obtain ⟨f1, f2⟩ := hu.fresh _ _ hf
    have hp : program programs (Nat.pair i rs.length) =
        [.operate fun _ _ => some (ts.map acts)] := by
      have : (programs i)[rs.length]? = some ts := by
        rw [h2, ← h1.length_eq]
        simp
      simp [program, this]
    rw [hp] at f2
    refine ⟨[.call (Nat.pair i rs.length)], u.setThread (Nat.pair i rs.length)
      { u.thread (Nat.pair i rs.length) with pc := .submitting [] (ts.map acts), rest := [] },
      ?_, ?_, ?_⟩
    · simp only [PoolRun.Machine.exec, List.foldlM_cons, List.foldlM_nil, PoolRun.Machine.step,
        PoolRun.Machine.active, hu.inPool, PoolRun.Machine.call, f1, f2, hu.memory]
      rfl
    · refine ⟨hu.pool, hu.next, hu.work, hu.job, hu.todo, ?_, ?_, ?_, ?_⟩
      · intro p
        by_cases hp : p = Nat.pair i rs.length
        · subst hp; simp [PoolRun.Machine.setThread, hu.inPool]
        · simp [PoolRun.Machine.setThread, hp, hu.inPool]
      · intro p
        by_cases hp : p = Nat.pair i rs.length
        · subst hp; simp [PoolRun.Machine.setThread, hu.memory]
        · simp [PoolRun.Machine.setThread, hp, hu.memory]
      · intro i' k hf'
        by_cases hp : i' = i ∧ k = rs.length
        · obtain ⟨rfl, rfl⟩ := hp
          simp [Fresh, Machine.setCaller] at hf'
        · have : Fresh s i' k := by
            by_cases hi' : i' = i
            · subst hi'
              simp only [Fresh, Machine.setCaller, Function.update_self] at hf'
              exact .inl (by rw [hc]; simpa using hf')
            · simpa [Fresh, Machine.setCaller, hi'] using hf'
          simp only [PoolRun.Machine.setThread, Function.update_of_ne (pair_ne hp)]
          exact hu.fresh _ _ this
      · intro i' fs ts' h
        by_cases hi' : i' = i
        · subst hi'
          simp only [Machine.setCaller, Function.update_self, Pc.submitting.injEq] at h
          obtain ⟨rfl, rfl⟩ := h
          simp [PoolRun.Machine.setThread, Machine.setCaller]
        · simp only [Machine.setCaller, Function.update_of_ne hi'] at h ⊢
          simp only [PoolRun.Machine.setThread,
            Function.update_of_ne (pair_ne (fun e => hi' e.1))]
          exact hu.submitting _ _ _ h
    · intro w; rfl
  | submit i fs t ts rest rs hc hd =>
    have hsub := hu.submitting i fs (t :: ts) (by rw [hc])
    rw [hc] at hsub
    simp only [List.map_cons] at hsub
    refine ⟨[.submit (Nat.pair i rs.length)],
      (u.submit (.acts (Nat.pair i rs.length) (acts t))).setThread (Nat.pair i rs.length)
        { u.thread (Nat.pair i rs.length) with pc := .submitting (fs ++ [u.next]) (ts.map acts) },
      ?_, ?_, ?_⟩
    · simp only [PoolRun.Machine.exec, List.foldlM_cons, List.foldlM_nil, PoolRun.Machine.step,
        PoolRun.Machine.active, hu.inPool, PoolRun.Machine.submitting, hsub]
      rfl
    · refine ⟨?_, ?_, ?_, ?_, hu.todo, ?_, ?_, ?_, ?_⟩
      · simp [PoolRun.Machine.setThread, PoolRun.Machine.submit, Machine.setCaller, Machine.push,
          hu.pool, hu.next]
      · simp [PoolRun.Machine.setThread, PoolRun.Machine.submit, Machine.setCaller, Machine.push,
          hu.next]
      · intro t' j hj
        simp only [Machine.setCaller, Machine.push] at hj
        simp only [PoolRun.Machine.setThread, PoolRun.Machine.submit, hu.next]
        by_cases ht : t' = s.next
        · subst ht
          simp only [Function.update_self, Option.some.injEq] at hj ⊢
          subst hj
          rfl
        · rw [Function.update_of_ne ht] at hj ⊢
          exact hu.work _ _ hj
      · intro t' ht'
        simp only [Machine.setCaller, Machine.push] at ht' ⊢
        by_cases ht : t' = s.next
        · subst ht; exact ⟨_, Function.update_self ..⟩
        · rw [Function.update_of_ne ht]
          exact hu.job _ (by omega)
      · intro p
        by_cases hp : p = Nat.pair i rs.length
        · subst hp; simp [PoolRun.Machine.setThread, hu.inPool]
        · simp [PoolRun.Machine.setThread, PoolRun.Machine.submit, hp, hu.inPool]
      · intro p
        by_cases hp : p = Nat.pair i rs.length
        · subst hp; simp [PoolRun.Machine.setThread, hu.memory]
        · simp [PoolRun.Machine.setThread, PoolRun.Machine.submit, hp, hu.memory]
      · intro i' k hf'
        by_cases hp : i' = i ∧ k = rs.length
        · obtain ⟨rfl, rfl⟩ := hp
          simp [Fresh, Machine.setCaller] at hf'
        · have : Fresh s i' k := by
            by_cases hi' : i' = i
            · subst hi'
              simp only [Fresh, Machine.setCaller, Function.update_self] at hf'
              exact .inl (by rw [hc]; simpa using hf')
            · simpa [Fresh, Machine.setCaller, hi', Machine.push] using hf'
          simp only [PoolRun.Machine.setThread, Function.update_of_ne (pair_ne hp),
            PoolRun.Machine.submit]
          exact hu.fresh _ _ this
      · intro i' fs' ts' h
        by_cases hi' : i' = i
        · subst hi'
          simp only [Machine.setCaller, Function.update_self, Pc.submitting.injEq] at h
          obtain ⟨rfl, rfl⟩ := h
          simp [PoolRun.Machine.setThread, Machine.setCaller, hu.next]
        · simp only [Machine.setCaller, Function.update_of_ne hi', Machine.push] at h ⊢
          simp only [PoolRun.Machine.setThread, PoolRun.Machine.submit,
            Function.update_of_ne (pair_ne (fun e => hi' e.1))]
          exact hu.submitting _ _ _ h
    · intro w; rfl
  | submitted i fs rest rs hc =>
    exact ⟨[], u, rfl, sim_get hu (fun k h => by
      simp only [Fresh, Machine.setCaller, Function.update_self] at h
      exact .inl (by rw [hc]; simpa using h)) (by simp), fun w => rfl⟩
  | value i f got fs rest rs j v hc hr hj hv =>
    exact ⟨[], u, rfl, sim_get hu (fun k h => by
      simp only [Fresh, Machine.setCaller, Function.update_self] at h
      exact .inl (by rw [hc]; simpa using h)) (by simp), fun w => rfl⟩
  | throws i f got fs rest rs j e hc hr hj he =>
    exact ⟨[], u, rfl, sim_get hu (fun k h => by
      simp only [Fresh, Machine.setCaller, Function.update_self, List.length_append,
        List.length_singleton] at h
      exact .inl (by rw [hc]; simp only; omega)) (by simp), fun w => rfl⟩
  | broken i f got fs rest rs hc hd hq =>
    exact ⟨[], u, rfl, sim_get hu (fun k h => by
      simp only [Fresh, Machine.setCaller, Function.update_self, List.length_append,
        List.length_singleton] at h
      exact .inl (by rw [hc]; simp only; omega)) (by simp), fun w => rfl⟩
  | «return» i got rest rs hc =>
    exact ⟨[], u, rfl, sim_get hu (fun k h => by
      simp only [Fresh, Machine.setCaller, Function.update_self, List.length_append,
        List.length_singleton] at h
      exact .inl (by rw [hc]; simp only; omega)) (by simp), fun w => rfl⟩
  | access w t k j hw hpc hj hk =>
    have hth : { u.thread (Nat.pair j.caller j.operation) with
        memory := (u.thread (Nat.pair j.caller j.operation)).memory.bind
          (modifyAt noop.idx noop.fn) } = u.thread (Nat.pair j.caller j.operation) := by
      have : modifyAt noop.idx noop.fn [()] = some [()] := by decide
      rw [hu.memory]
      simp only [Option.bind_some, this]
      rw [← hu.memory (Nat.pair j.caller j.operation)]
    refine ⟨[.act w], { u with todo := Function.update u.todo w (List.replicate k noop) }, ?_,
      ⟨hu.pool, hu.next, hu.work, hu.job, ?_, hu.inPool, hu.memory, hu.fresh, hu.submitting⟩, ?_⟩
    · have htd := hu.todo w
      rw [hk, List.replicate_succ] at htd
      simp only [PoolRun.Machine.exec, List.foldlM_cons, List.foldlM_nil, PoolRun.Machine.step,
        PoolRun.Machine.act, hw, if_true, hu.pool, hpc, hu.work t j hj, htd, hth,
        PoolRun.Machine.setThread, Function.update_eq_self]
      rw [← hu.pool]
      rfl
    · intro v
      by_cases hv : v = w
      · subst hv; simp
      · simp [hv, hu.todo]
    · intro v
      simp [PoolRun.Spec.ownStep, own, ownStep, List.countP_cons]
  | start w t j hw hpc hj =>
    refine ⟨[.pool (.worker w)], { u with
        pool := s.pool.gotoLog w (.run t) (.started w t)
        todo := Function.update u.todo w (acts j.task) }, ?_,
      ⟨rfl, hu.next, hu.work, hu.job, ?_, hu.inPool, hu.memory, hu.fresh, hu.submitting⟩, ?_⟩
    · simp only [PoolRun.Machine.exec, List.foldlM_cons, List.foldlM_nil, PoolRun.Machine.step,
        PoolRun.Machine.poolStep, hu.pool, hpc, Pool.step, hw, if_true, Pool.workerStep,
        hu.work t j hj, PoolRun.Work.actions]
      rfl
    · intro v
      by_cases hv : v = w
      · subst hv; simp [acts]
      · simp [hv, hu.todo]
    · intro v
      simp [PoolRun.Spec.ownStep, own, ownStep, List.countP_cons]
  | finish w t hw hpc htd =>
    have ht : t < u.next := by
      by_contra hc
      have h1 := hp.total t
      rw [if_neg hc] at h1
      have h2 := PoolRun.at_pos (s := u.pool) (p := .run t) hw (by rw [hu.pool]; exact hpc)
      omega
    rw [hu.next] at ht
    obtain ⟨j, hj⟩ := hu.job t ht
    refine ⟨[.pool (.worker w)], { u with pool := s.pool.gotoLog w .check (.finished w t) }, ?_,
      ⟨rfl, hu.next, hu.work, hu.job, hu.todo, hu.inPool, hu.memory, hu.fresh, hu.submitting⟩, ?_⟩
    · simp only [PoolRun.Machine.exec, List.foldlM_cons, List.foldlM_nil, PoolRun.Machine.step,
        PoolRun.Machine.poolStep, hu.pool, hpc, Pool.step, hw, if_true, Pool.workerStep,
        PoolRun.Machine.taskEnded, hu.work t j hj, hu.todo, htd]
      rfl
    · intro v
      simp [PoolRun.Spec.ownStep, own, ownStep, List.countP_cons]
  | pool l p hpl hl hns =>
    refine ⟨[.pool l], { u with pool := p }, ?_,
      ⟨rfl, hu.next, hu.work, hu.job, hu.todo, hu.inPool, hu.memory, hu.fresh, hu.submitting⟩, ?_⟩
    · simp only [PoolRun.Machine.exec, List.foldlM_cons, List.foldlM_nil, PoolRun.Machine.step]
      cases l with
      | submit t => exact absurd rfl (hl t)
      | worker w =>
        obtain hns := fun t => hns w t rfl
        simp only [PoolRun.Machine.poolStep, hu.pool, hpl]
        split
        · rename_i t hpc; exact absurd hpc (hns t).2
        · rename_i t hpc; exact absurd hpc (hns t).1
        · rfl
      | _ => simp only [PoolRun.Machine.poolStep, hu.pool, hpl]; rfl
    · intro v
      cases l <;> simp [PoolRun.Spec.ownStep, own, ownStep, List.countP_cons]
  | dispose hd he =>
    exact ⟨[], u, rfl, ⟨hu.pool, hu.next, hu.work, hu.job, hu.todo, hu.inPool, hu.memory, hu.fresh,
      hu.submitting⟩, fun w => rfl⟩

/-- An execution, simulated. -/
theorem sim_exec {n : Nat} {programs : Nat → List (List (Task T E))} {s s' : Machine T E}
    {u : PoolRun.Machine Unit} {ls : List Step} (hi : ∀ i, CallerInv programs s i)
    (hu : Sim programs s u) (hp : PoolRun.PoolInv n u) (h : s.exec n ls = some s') :
    ∃ ls' u', u.exec n ls' = some u' ∧ Sim programs s' u' ∧ PoolRun.PoolInv n u' ∧
      (∀ i, CallerInv programs s' i) ∧
      ∀ w, ls'.countP (PoolRun.Spec.ownStep w) = ls.countP (ownStep w) := by
  induction ls using List.reverseRecOn generalizing s' with
  | nil =>
    cases h
    exact ⟨[], u, rfl, hu, hp, hi, fun _ => rfl⟩
  | append_singleton ls l ih =>
    obtain ⟨v, hv, hl⟩ := fexec_snoc h
    obtain ⟨ls', u', h1, h2, h3, h4, h5⟩ := ih hv
    obtain ⟨ls'', u'', k1, k2, k3⟩ := sim_step h4 h2 h3 hl
    refine ⟨ls' ++ ls'', u'', PoolRun.mexec_append h1 k1, k2,
      PoolRun.mexec_invariant PoolRun.poolInv_step h3 k1, callerInv_step _ _ _ h4 hl, fun w => ?_⟩
    rw [List.countP_append, List.countP_append, h5, k3]
    simp [own, List.countP_cons]

/-- What is known of the pool. -/
theorem sim_initial_exec {n : Nat} {programs : Nat → List (List (Task T E))} {s : Machine T E}
    {ls : List Step} (h : (Machine.initial programs).exec n ls = some s) :
    ∃ ls' u, (PoolRun.Machine.initial (program programs) (fun _ => [()]) (fun _ => false)).exec n ls'
      = some u ∧ Sim programs s u ∧ PoolRun.PoolInv n u := by
  obtain ⟨ls', u, h1, h2, h3, _, _⟩ := sim_exec (callerInv_initial programs)
    (sim_initial programs) (PoolRun.poolInv_initial n _ _ _) h
  exact ⟨ls', u, h1, h2, h3⟩

theorem ready_iff {s : Machine T E} {t : Nat} :
    s.ready t = true ↔ t ∈ Fern.Spec.finished s.pool.log := by
  simp only [Machine.ready, Fern.Spec.finished, List.any_eq_true, List.mem_filterMap]
  constructor
  · rintro ⟨e, he, h⟩
    cases e <;> simp at h
    subst h
    exact ⟨_, he, rfl⟩
  · rintro ⟨e, he, h⟩
    cases e <;> simp at h
    subst h
    exact ⟨_, he, by simp⟩

theorem sim_ready {programs : Nat → List (List (Task T E))} {s : Machine T E}
    {u : PoolRun.Machine Unit} (h : Sim programs s u) (t : Nat) : u.ready t = s.ready t := by
  rw [Bool.eq_iff_iff, PoolRun.ready_iff, ready_iff, h.pool]

/-- A task that a worker is executing has been submitted, and its future is not ready. -/
theorem running {n : Nat} {programs : Nat → List (List (Task T E))} {s : Machine T E}
    {u : PoolRun.Machine Unit} (h : Sim programs s u) (hp : PoolRun.PoolInv n u) {w t : Nat}
    (hw : w < n) (ht : s.pool.pc w = .run t) : t < s.next ∧ s.ready t = false := by
  have h1 := hp.total t
  have h2 := PoolRun.at_pos (s := u.pool) (p := .run t) hw (by rw [h.pool]; exact ht)
  have h3 : t < u.next := by
    by_contra hc
    rw [if_neg hc] at h1
    omega
  rw [if_pos h3] at h1
  refine ⟨h.next ▸ h3, ?_⟩
  have h4 : t ∉ Fern.Spec.finished u.pool.log := by
    rw [← List.count_eq_zero]
    omega
  rw [h.pool] at h4
  rw [← Bool.not_eq_true, ready_iff]
  exact h4

theorem exit_stays {n w : Nat} {p p' : Pool} {l : PoolStep} (h : p.step true n l = some p')
    (hw : p.pc w = .exit) : p'.pc w = .exit := by
  have hs := PStep.of_step h
  cases hs with
  | worker v s' hv hs =>
    have hne : v ≠ w := by
      rintro rfl
      cases hs <;> simp_all
    cases hs <;> simp [Pool.gotoLog, Pool.goto, Function.update_of_ne hne.symm, hw]
  | wake v hv _ hpc =>
    have hne : v ≠ w := by rintro rfl; simp_all
    simp [Pool.goto, Function.update_of_ne hne.symm, hw]
  | notify v hv hpc =>
    have hne : v ≠ w := by rintro rfl; simp_all
    simp [Pool.goto, Function.update_of_ne hne.symm, hw]
  | notifyAll hd => simp [hw]
  | _ => exact hw

/-- Once the pool is destroyed, there are no workers. -/
theorem destroyed_step {n : Nat} (s : Machine T E) (l : Step) (s' : Machine T E)
    (h : s.destroyed = true → ∀ w < n, s.pool.pc w = .exit) (hs : FStep n s l s') :
    s'.destroyed = true → ∀ w < n, s'.pool.pc w = .exit := by
  cases hs with
  | pool l p hp hl hns => exact fun hd w hw => exit_stays hp (h hd w hw)
  | dispose hd he => exact fun _ => he
  | start w t j hw hpc hj =>
    intro hd
    have := h hd w hw
    rw [hpc] at this
    cases this
  | finish w t hw hpc htd =>
    intro hd
    have := h hd w hw
    rw [hpc] at this
    cases this
  | _ => exact h

theorem log_step {n : Nat} {s s' : Machine T E} {l : Step} (hs : FStep n s l s') :
    s.pool.log <+: s'.pool.log := by
  cases hs with
  | submit i fs t ts rest rs hc hd => exact List.prefix_append _ _
  | start w t j hw hpc hj => exact List.prefix_append _ _
  | finish w t hw hpc htd => exact List.prefix_append _ _
  | pool l p hp hl hns => exact log_prefix (PStep.of_step hp)
  | _ => exact List.prefix_refl _

theorem ready_step {n : Nat} {s s' : Machine T E} {l : Step} (hs : FStep n s l s') {f : Nat}
    (h : s.ready f = true) : s'.ready f = true := by
  simp only [Machine.ready, List.any_eq_true] at h ⊢
  obtain ⟨e, he, h⟩ := h
  exact ⟨e, (log_step hs).subset he, h⟩

/-- The futures of an operation. -/
def Pc.futures : Pc T E → List Nat
  | .idle => []
  | .submitting fs _ => fs
  | .waiting _ fs => fs

/-- Each task has ended, or the operation that submitted it has not, or there are no workers. -/
def SafeInv (s : Machine T E) : Prop :=
  ∀ f j, s.job f = some j → s.ready f = true ∨ s.destroyed = true ∨
    (f ∈ (s.caller j.caller).pc.futures ∧ (s.caller j.caller).results.length = j.operation)

theorem SafeInv.set {s s' : Machine T E} (h : SafeInv s) {i : Nat} {c : Caller T E}
    (hs : s' = s.setCaller i c)
    (hc : ∀ f ∈ (s.caller i).pc.futures, s.ready f = true ∨ s.destroyed = true ∨
      (f ∈ c.pc.futures ∧ c.results.length = (s.caller i).results.length)) : SafeInv s' := by
  subst hs
  intro f j hj
  rcases h f j hj with h1 | h1 | ⟨h1, h2⟩
  · exact .inl h1
  · exact .inr (.inl h1)
  · by_cases hi : j.caller = i
    · subst hi
      rcases hc f h1 with h3 | h3 | ⟨h3, h4⟩
      · exact .inl h3
      · exact .inr (.inl h3)
      · exact .inr (.inr (by
          simp only [Machine.setCaller, Function.update_self]
          exact ⟨h3, h4.trans h2⟩))
    · exact .inr (.inr (by
        simp only [Machine.setCaller, Function.update_of_ne hi]
        exact ⟨h1, h2⟩))

theorem safeInv_step {n : Nat} {programs : Nat → List (List (Task T E))}
    (ho : ∀ i, ∀ ts ∈ programs i, OnlyLast ts) (s : Machine T E) (l : Step) (s' : Machine T E)
    (hi : ∀ i, CallerInv programs s i) (h : SafeInv s) (hs : FStep n s l s') : SafeInv s' := by
  have hrs := fun f => ready_step hs (f := f)
  cases hs with
  | call i ts rest rs hc =>
    refine h.set rfl ?_
    rw [hc]
    intro f hf
    simp [Pc.futures] at hf
  | submit i fs t ts rest rs hc hd =>
    intro f j hj
    by_cases hf : f = s.next
    · subst hf
      simp only [Machine.setCaller, Machine.push, Function.update_self, Option.some.injEq] at hj
      subst hj
      exact .inr (.inr (by simp [Machine.setCaller, Pc.futures]))
    · simp only [Machine.setCaller, Machine.push, Function.update_of_ne hf] at hj
      rcases h f j hj with h1 | h1 | ⟨h1, h2⟩
      · exact .inl (hrs f h1)
      · exact .inr (.inl h1)
      · refine .inr (.inr ?_)
        by_cases hji : j.caller = i
        · subst hji
          rw [hc] at h1 h2
          simp only [Machine.setCaller, Function.update_self]
          exact ⟨List.mem_append_left _ h1, h2⟩
        · simp only [Machine.setCaller, Function.update_of_ne hji]
          exact ⟨h1, h2⟩
  | submitted i fs rest rs hc =>
    refine h.set rfl ?_
    rw [hc]
    exact fun f hf => .inr (.inr ⟨hf, rfl⟩)
  | value i f got fs rest rs j v hc hr hj hv =>
    refine h.set rfl ?_
    rw [hc]
    intro f' hf'
    rcases List.mem_cons.1 hf' with rfl | hf'
    · exact .inl hr
    · exact .inr (.inr ⟨hf', rfl⟩)
  | throws i f got fs rest rs j e hc hr hj he =>
    refine h.set rfl ?_
    obtain ⟨done, h1, h2⟩ := (hi i).made
    rw [hc] at h1 h2
    obtain ⟨ts0, ts', h3, h4, h5⟩ := h2
    cases h5 with
    | @cons _ t _ ts'' h6 h7 =>
      have h8 := h6.2
      rw [hj] at h8
      cases h8
      have hfs : ts'' = [] := by
        by_contra hne
        refine ho i (ts0 ++ t :: ts'') (by rw [h3]; simp) t ?_ ⟨e, he⟩
        rw [List.dropLast_append_of_ne_nil (by simp), List.dropLast_cons_of_ne_nil hne]
        simp
      subst hfs
      cases h7
      rw [hc]
      intro f' hf'
      simp only [Pc.futures, List.mem_singleton] at hf'
      subst hf'
      exact .inl hr
  | broken i f got fs rest rs hc hd hq =>
    exact h.set rfl fun f hf => .inr (.inl hd)
  | «return» i got rest rs hc =>
    refine h.set rfl ?_
    rw [hc]
    intro f hf
    simp [Pc.futures] at hf
  | dispose hd he => exact fun f j hj => .inr (.inl rfl)
  | access | start | finish | pool =>
    intro f j hj
    exact (h f j hj).imp (hrs f) id

/-- No dangling access. -/
theorem no_dangling {n : Nat} {programs : Nat → List (List (Task T E))}
    (ho : ∀ i, ∀ ts ∈ programs i, OnlyLast ts) {ls : List Step} {s : Machine T E}
    (h : (Machine.initial programs).exec n ls = some s) : SafeInv s ∧ s.dangling = false := by
  induction ls using List.reverseRecOn generalizing s with
  | nil => cases h; exact ⟨fun f j hj => by simp [Machine.initial] at hj, rfl⟩
  | append_singleton ls l ih =>
    obtain ⟨v, hv, hl⟩ := fexec_snoc h
    obtain ⟨h1, h2⟩ := ih hv
    refine ⟨safeInv_step ho v l s (callerInv_exec hv) h1 hl, ?_⟩
    cases hl with
    | access w t k j hw hpc hj hk =>
      obtain ⟨_, u, _, k1, k2⟩ := sim_initial_exec hv
      obtain ⟨r1, r2⟩ := running k1 k2 hw hpc
      have hd := fexec_invariant (P := fun s => s.destroyed = true → ∀ w < n, s.pool.pc w = .exit)
        destroyed_step (by simp [Machine.initial]) hv
      rcases h1 t j hj with h3 | h3 | h3
      · rw [r2] at h3; cases h3
      · have := hd h3 w hw
        rw [hpc] at this
        cases this
      · simp [h2, Machine.alive, h3.2]
    | _ => exact h2

end Fern.Futures
