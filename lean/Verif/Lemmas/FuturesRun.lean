import Verif.Lemmas.Futures

/-!
Executions in which an operation whose task throws leaves other tasks behind.
-/

namespace Fern.Futures

open _root_.Fern.Futures.Spec

variable {T E : Type}

/-- There is an execution from `s` to `s'`. -/
def Leads (n : Nat) (s s' : Machine T E) : Prop := ∃ ls, s.exec n ls = some s'

theorem Leads.refl {n : Nat} (s : Machine T E) : Leads n s s := ⟨[], rfl⟩

theorem Leads.trans {n : Nat} {s u s' : Machine T E} (h1 : Leads n s u) (h2 : Leads n u s') :
    Leads n s s' := by
  obtain ⟨l1, h1⟩ := h1
  obtain ⟨l2, h2⟩ := h2
  exact ⟨l1 ++ l2, fexec_append h1 h2⟩

theorem Leads.one {n : Nat} {s s' : Machine T E} (l : Step) (h : s.step n l = some s') :
    Leads n s s' := ⟨[l], by simp [Machine.exec, h]⟩

/-- What a task does not change. -/
structure Same (s s' : Machine T E) : Prop where
  caller : s'.caller = s.caller
  job : s'.job = s.job
  destroyed : s'.destroyed = s.destroyed
  dangling : s.dangling = true → s'.dangling = true

theorem Same.trans {s u s' : Machine T E} (h1 : Same s u) (h2 : Same u s') : Same s s' :=
  ⟨h2.caller.trans h1.caller, h2.job.trans h1.job, h2.destroyed.trans h1.destroyed,
    fun h => h2.dangling (h1.dangling h)⟩

theorem access_all {n t : Nat} (hn : 1 ≤ n) {j : Job T E} (k : Nat) (s : Machine T E)
    (hpc : s.pool.pc 0 = .run t) (hj : s.job t = some j) (hk : s.todo 0 = k) :
    ∃ s', Leads n s s' ∧ Same s s' ∧ s'.pool = s.pool ∧ s'.todo 0 = 0 ∧
      (0 < k → s.alive j = false → s'.dangling = true) := by
  induction k generalizing s with
  | zero => exact ⟨s, .refl s, ⟨rfl, rfl, rfl, id⟩, rfl, hk, fun h => absurd h (lt_irrefl _)⟩
  | succ k ih =>
    let u : Machine T E := { s with
      todo := Function.update s.todo 0 k, dangling := s.dangling || !s.alive j }
    have hu : Leads n s u := .one (.access 0) (by
      have h0 : 0 < n := by omega
      simp [Machine.step, Machine.access, h0, hpc, hj, hk, u])
    obtain ⟨s', h1, h2, h3, h4, _⟩ := ih u hpc hj (by simp [u])
    refine ⟨s', hu.trans h1, Same.trans (u := u) ⟨rfl, rfl, rfl, fun h => by simp [u, h]⟩ h2, h3, h4,
      fun _ ha => h2.dangling (by simp [u, ha])⟩

/-- Worker 0 executes the task at the front of the queue. -/
theorem run_front {n t : Nat} (hn : 1 ≤ n) {q : List Nat} {j : Job T E} (s : Machine T E)
    (hpc : s.pool.pc 0 = .check) (hd : s.pool.done = false) (hq : s.pool.queue = t :: q)
    (hj : s.job t = some j) :
    ∃ s', Leads n s s' ∧ Same s s' ∧ s'.pool.pc 0 = .check ∧ s'.pool.done = false ∧
      s'.pool.queue = q ∧ s'.ready t = true ∧
      (0 < j.task.accesses → s.alive j = false → s'.dangling = true) := by
  have h0 : 0 < n := by omega
  let s1 : Machine T E := { s with pool := s.pool.goto 0 .pop }
  have e1 : Leads n s s1 := .one (.pool (.worker 0)) (by
    simp [Machine.step, Machine.poolStep, hpc, Pool.step, h0, Pool.workerStep, hd, s1])
  let s2 : Machine T E :=
    { s1 with pool := { s1.pool.gotoLog 0 (.start t) (.took 0 t) with queue := q } }
  have e2 : Leads n s1 s2 := .one (.pool (.worker 0)) (by
    simp [Machine.step, Machine.poolStep, Pool.step, h0, Pool.workerStep, s1, s2, Pool.goto, hq])
  let s3 : Machine T E := { s2 with
    pool := s2.pool.gotoLog 0 (.run t) (.started 0 t)
    todo := Function.update s2.todo 0 j.task.accesses }
  have e3 : Leads n s2 s3 := .one (.pool (.worker 0)) (by
    simp [Machine.step, Machine.poolStep, Pool.step, h0, Pool.workerStep, s1, s2, s3, Pool.goto,
      Pool.gotoLog, hj])
  obtain ⟨s4, e4, h1, h2, h3, h4⟩ := access_all hn (t := t) j.task.accesses s3
    (by simp [s3, Pool.gotoLog, Pool.goto]) hj (by simp [s3])
  let s5 : Machine T E := { s4 with pool := s4.pool.gotoLog 0 .check (.finished 0 t) }
  have hp4 : s4.pool.pc 0 = .run t := by rw [h2]; simp [s3, Pool.gotoLog, Pool.goto]
  have e5 : Leads n s4 s5 := .one (.pool (.worker 0)) (by
    simp [Machine.step, Machine.poolStep, Pool.step, h0, Pool.workerStep, hp4, h3, s5])
  refine ⟨s5, (e1.trans (e2.trans (e3.trans (e4.trans e5)))), ?_, ?_, ?_, ?_, ?_, ?_⟩
  · exact ⟨h1.caller, h1.job, h1.destroyed, h1.dangling⟩
  · simp [s5, Pool.gotoLog, Pool.goto]
  · simp only [s5, Pool.gotoLog, Pool.goto, h2]; exact hd
  · simp only [s5, Pool.gotoLog, Pool.goto, h2]; rfl
  · simp [s5, Machine.ready, Pool.gotoLog]
  · exact h4

/-- Worker 0 executes all tasks at the front of the queue. -/
theorem run_queue {n : Nat} (hn : 1 ≤ n) (q0 : List Nat) {q : List Nat} (s : Machine T E)
    (hpc : s.pool.pc 0 = .check) (hd : s.pool.done = false) (hq : s.pool.queue = q0 ++ q)
    (hj : ∀ t ∈ q0, ∃ j, s.job t = some j) :
    ∃ s', Leads n s s' ∧ Same s s' ∧ s'.pool.pc 0 = .check ∧ s'.pool.done = false ∧
      s'.pool.queue = q := by
  induction q0 generalizing s with
  | nil => exact ⟨s, .refl s, ⟨rfl, rfl, rfl, id⟩, hpc, hd, hq⟩
  | cons t q0 ih =>
    obtain ⟨j, hjt⟩ := hj t (by simp)
    obtain ⟨u, h1, h2, h3, h4, h5, _, _⟩ := run_front hn s hpc hd hq hjt
    obtain ⟨s', k1, k2, k3, k4, k5⟩ := ih u h3 h4 h5 (fun t' ht' => by
      rw [h2.job]; exact hj t' (List.mem_cons_of_mem _ ht'))
    exact ⟨s', h1.trans k1, h2.trans k2, k3, k4, k5⟩

/-- Thread `i` submits its tasks. -/
theorem submit_all {n i : Nat} (ts : List (Task T E)) (fs : List Nat) (s : Machine T E)
    {rest : List (List (Task T E))} {rs : List (Except (Failure E) (List T))}
    (hc : s.caller i = ⟨.submitting fs ts, rest, rs⟩) (hd : s.destroyed = false) :
    ∃ s', Leads n s s' ∧
      s'.caller i = ⟨.waiting [] (fs ++ List.range' s.next ts.length), rest, rs⟩ ∧
      s'.pool.pc = s.pool.pc ∧ s'.pool.done = s.pool.done ∧ s'.destroyed = false ∧
      s'.pool.queue = s.pool.queue ++ List.range' s.next ts.length ∧
      (∀ t < s.next, s'.job t = s.job t) ∧
      ∀ k (h : k < ts.length), s'.job (s.next + k) = some ⟨i, rs.length, ts[k]⟩ := by
  induction ts generalizing fs s with
  | nil =>
    refine ⟨s.setCaller i ⟨.waiting [] fs, rest, rs⟩, .one (.submit i) ?_, ?_, rfl, rfl, hd, ?_,
      fun _ _ => rfl, ?_⟩
    · simp [Machine.step, Machine.submit, hc]
    · simp [Machine.setCaller]
    · simp [Machine.setCaller]
    · simp
  | cons t ts ih =>
    let u := (s.push ⟨i, rs.length, t⟩).setCaller i ⟨.submitting (fs ++ [s.next]) ts, rest, rs⟩
    have hu : Leads n s u := .one (.submit i) (by
      simp [Machine.step, Machine.submit, hc, hd, u])
    obtain ⟨s', h1, h2, h3, h4, h5, h6, h7, h8⟩ := ih (fs ++ [s.next]) u
      (by simp [u, Machine.setCaller]) hd
    have hnext : u.next = s.next + 1 := rfl
    rw [hnext] at h2 h6 h7 h8
    refine ⟨s', hu.trans h1, ?_, h3, h4, h5, ?_, ?_, ?_⟩
    · rw [h2]
      simp [List.range'_succ]
    · rw [h6]
      simp [u, Machine.setCaller, Machine.push, List.range'_succ]
    · intro t' ht'
      rw [h7 t' (by omega)]
      simp only [u, Machine.setCaller, Machine.push]
      rw [Function.update_of_ne (by omega)]
    · intro k hk
      cases k with
      | zero =>
        rw [Nat.add_zero, h7 _ (by omega)]
        simp [u, Machine.setCaller, Machine.push]
      | succ k =>
        have := h8 k (by simpa using hk)
        rw [show s.next + (k + 1) = s.next + 1 + k by omega, this]
        simp

/-- Tasks that return values are executed, and their futures asked. -/
theorem get_values {n i k0 : Nat} (hn : 1 ≤ n) (ts : List (Task T E)) (hts : ∀ t ∈ ts, ¬ Throws t)
    (a : Nat) (q : List Nat) (got : List T) (s : Machine T E)
    {rest : List (List (Task T E))} {rs : List (Except (Failure E) (List T))}
    (hc : s.caller i = ⟨.waiting got (List.range' a ts.length ++ q), rest, rs⟩)
    (hpc : s.pool.pc 0 = .check) (hd : s.pool.done = false)
    (hq : s.pool.queue = List.range' a ts.length ++ q)
    (hj : ∀ k (h : k < ts.length), s.job (a + k) = some ⟨i, k0, ts[k]⟩) :
    ∃ s' got', Leads n s s' ∧ s'.caller i = ⟨.waiting got' q, rest, rs⟩ ∧ s'.job = s.job ∧
      s'.pool.pc 0 = .check ∧ s'.pool.done = false ∧ s'.pool.queue = q := by
  induction ts generalizing a got s with
  | nil => exact ⟨s, got, .refl s, hc, rfl, hpc, hd, hq⟩
  | cons t ts ih =>
    simp only [List.length_cons, List.range'_succ, List.cons_append] at hc hq
    have hjt := hj 0 (by simp)
    simp only [Nat.add_zero, List.getElem_cons_zero] at hjt
    obtain ⟨u, h1, h2, h3, h4, h5, h6, _⟩ := run_front hn s hpc hd hq hjt
    obtain ⟨acc, out⟩ := t
    cases out with
    | error e => exact absurd ⟨e, rfl⟩ (hts ⟨acc, .error e⟩ (by simp))
    | ok v =>
      let u' := u.setCaller i ⟨.waiting (got ++ [v]) (List.range' (a + 1) ts.length ++ q), rest, rs⟩
      have hu : Leads n u u' := .one (.get i) (by
        simp [Machine.step, Machine.get, h2.caller, hc, h6, h2.job, hjt, u'])
      obtain ⟨s', got', k1, k2, k3, k4, k5, k6⟩ := ih (fun t ht => hts t (List.mem_cons_of_mem _ ht))
        (a + 1) (got ++ [v]) u' (by simp [u', Machine.setCaller]) h3 h4 h5 (by
          intro k hk
          have := hj (k + 1) (by simpa using hk)
          simp only [u', Machine.setCaller, h2.job]
          rw [show a + 1 + k = a + (k + 1) by omega, this]
          simp)
      exact ⟨s', got', h1.trans (hu.trans k1), k2, k3.trans h2.job, k4, k5, k6⟩

theorem first_throws {ts : List (Task T E)} {t : Task T E} (h : t ∈ ts) (ht : Throws t) :
    ∃ l x r, ts = l ++ x :: r ∧ (∀ y ∈ l, ¬ Throws y) ∧ Throws x := by
  classical
  induction ts with
  | nil => simp at h
  | cons y ts ih =>
    by_cases hy : Throws y
    · exact ⟨[], y, ts, rfl, by simp, hy⟩
    · rcases List.mem_cons.1 h with rfl | h
      · exact absurd ht hy
      · obtain ⟨l, x, r, h1, h2, h3⟩ := ih h
        exact ⟨y :: l, x, r, by simp [h1], by simpa [hy] using h2, h3⟩

/-- From `Early`: the first task that throws. -/
theorem early_first {ts : List (Task T E)} (h : Early ts) :
    ∃ l x r, ts = l ++ x :: r ∧ (∀ y ∈ l, ¬ Throws y) ∧ Throws x ∧ ∃ u ∈ r, 0 < u.accesses := by
  obtain ⟨before, t, between, u, after, rfl, h1, h2⟩ := h
  obtain ⟨l, x, r, h3, h4, h5⟩ := first_throws (ts := before ++ [t]) (by simp) h1
  refine ⟨l, x, r ++ between ++ u :: after, ?_, h4, h5, u, by simp, h2⟩
  have : before ++ t :: between ++ u :: after = (before ++ [t]) ++ (between ++ u :: after) := by simp
  rw [this, h3]
  simp

/-- An operation with such a task, called first, can leave a task behind that then reads what belonged
to it. -/
theorem dangling_exec {n i : Nat} (hn : 1 ≤ n) {programs : Nat → List (List (Task T E))}
    {ts : List (Task T E)} {rest : List (List (Task T E))} (hp : programs i = ts :: rest)
    (h : Early ts) : ∃ s, Leads n (Machine.initial programs) s ∧ s.dangling = true ∧
      ∃ e, (s.caller i).results = [.error (.thrown e)] := by
  obtain ⟨l, ⟨acc, out⟩, r, rfl, h1, ⟨e, he⟩, u, hu, hacc⟩ := early_first h
  simp only at he
  subst he
  let s0 := (Machine.initial programs).setCaller i
    ⟨.submitting [] (l ++ ⟨acc, .error e⟩ :: r), rest, []⟩
  have e0 : Leads n (Machine.initial programs) s0 := .one (.call i) (by
    simp [Machine.step, Machine.call, Machine.initial, hp, s0])
  obtain ⟨s1, e1, a1, a2, a3, a4, a5, a6, a7⟩ := submit_all (n := n) (i := i)
    (l ++ ⟨acc, .error e⟩ :: r) [] s0
    (rest := rest) (rs := []) (by simp [s0, Machine.setCaller]) rfl
  have hn0 : s0.next = 0 := rfl
  have hq0 : s0.pool.queue = [] := rfl
  rw [hn0] at a1 a5 a7
  rw [hq0] at a5
  simp only [List.nil_append, List.length_append, List.length_cons, Nat.zero_add] at a1 a5 a7
  rw [← List.range'_append_1] at a1 a5
  simp only [Nat.zero_add, List.range'_succ] at a1 a5
  obtain ⟨s2, got, e2, b1, b2, b3, b4, b5⟩ := get_values (i := i) (k0 := 0) hn l h1 0 _ [] s1 a1
    (by rw [a2]; rfl) (by rw [a3]; rfl) a5 (by
      intro k hk
      have := a7 k (by omega)
      rw [Nat.zero_add, this]
      simp [List.getElem_append, hk])
  have hjt : s2.job l.length = some ⟨i, 0, ⟨acc, .error e⟩⟩ := by
    rw [b2, a7 l.length (by omega)]
    simp
  obtain ⟨s3, e3, c1, c2, c3, c4, c5, _⟩ := run_front hn s2 b3 b4 b5 hjt
  let s4 := s3.setCaller i ⟨.idle, rest, [.error (.thrown e)]⟩
  have e4 : Leads n s3 s4 := .one (.get i) (by
    simp [Machine.step, Machine.get, c1.caller, b1, c5, c1.job, hjt, s4])
  obtain ⟨d, hd, rfl⟩ := List.mem_iff_getElem.1 hu
  have hr : List.range' (l.length + 1) r.length = List.range' (l.length + 1) d ++
      (l.length + 1 + d) :: List.range' (l.length + 1 + d + 1) (r.length - d - 1) := by
    have : r.length = d + (1 + (r.length - d - 1)) := by omega
    rw [this, ← List.range'_append_1, ← List.range'_append_1]
    simp [List.range'_succ]
  have hjob : ∀ k (hk : k < r.length), s4.job (l.length + 1 + k) = some ⟨i, 0, r[k]⟩ := by
    intro k hk
    have : s4.job = s3.job := rfl
    rw [this, c1.job, b2, a7 (l.length + 1 + k) (by omega)]
    simp [List.getElem_append, show ¬ (l.length + 1 + k < l.length) by omega,
      show l.length + 1 + k - l.length = k + 1 by omega]
  have hq4 : s4.pool.queue = List.range' (l.length + 1) d ++
      (l.length + 1 + d) :: List.range' (l.length + 1 + d + 1) (r.length - d - 1) := by
    rw [← hr]; exact c4
  obtain ⟨s5, e5, f1, f2, f3, f4⟩ := run_queue hn _ s4 c2 c3 hq4 (by
    intro t ht
    rw [List.mem_range'_1] at ht
    have := hjob (t - (l.length + 1)) (by omega)
    rw [show l.length + 1 + (t - (l.length + 1)) = t by omega] at this
    exact ⟨_, this⟩)
  have hj5 := hjob d hd
  rw [← f1.job] at hj5
  obtain ⟨s6, e6, g1, _, _, _, _, g2⟩ := run_front hn s5 f2 f3 f4 hj5
  have hc6 : (s6.caller i).results = [.error (.thrown e)] := by
    rw [g1.caller, f1.caller]
    simp [s4, Machine.setCaller]
  refine ⟨s6, e0.trans (e1.trans (e2.trans (e3.trans (e4.trans (e5.trans e6))))), g2 hacc ?_, e, hc6⟩
  rw [g1.caller] at hc6
  simp [Machine.alive, hc6]

end Fern.Futures
