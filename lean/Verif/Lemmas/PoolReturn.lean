import Verif.Lemmas.PoolRun

/-!
Lemmas about operations that are executed by a thread pool: that they return.
-/

namespace Fern.PoolRun

open _root_.Fern.PoolRun.Spec

variable {γ : Type}

/-- Steps worker `v` makes at most before it takes a task from the queue. -/
def rank (s : Machine γ) (v : Nat) : Nat :=
  match s.pool.pc v with
  | .exit => 0
  | .pop => 1
  | .check => 2
  | .unlock => 3
  | .relock => 4
  | .wait => 5
  | .recheck => 6
  | .lock => 7
  | .run _ => 3 + (s.todo v).length
  | .start t => 4 + (s.work t).actions.length

/-- The tasks queued up to `f`. -/
def ahead (s : Machine γ) (f : Nat) : Nat :=
  ((s.pool.queue.filter (fun t => decide (t ≤ f))).map
    (fun t => 8 + (s.work t).actions.length)).sum

/-- Task `f` is queued or worker `v` has it. -/
def Pending (s : Machine γ) (f v : Nat) : Prop :=
  f ∈ s.pool.queue ∨ s.pool.pc v = .start f ∨ s.pool.pc v = .run f

theorem queue_sorted {n : Nat} {s : Machine γ} (h : PoolInv n s) {t f : Nat} {q : List Nat}
    (hq : s.pool.queue = t :: q) (hf : f ∈ s.pool.queue) : t ≤ f := by
  have ho := h.order
  rw [OrderInv, h.submitted, hq] at ho
  have hp : (Fern.Spec.taken s.pool.log ++ t :: q).Pairwise (· < ·) := by
    rw [ho]; exact List.pairwise_lt_range
  rw [List.pairwise_append, List.pairwise_cons] at hp
  rw [hq, List.mem_cons] at hf
  rcases hf with rfl | hf
  · exact le_refl _
  · exact le_of_lt (hp.2.1.1 f hf)

theorem ahead_congr {s s' : Machine γ} {f : Nat} (hq : s'.pool.queue = s.pool.queue)
    (hw : ∀ t ≤ f, s'.work t = s.work t) : ahead s' f = ahead s f := by
  unfold ahead
  rw [hq]
  congr 1
  refine List.map_congr_left fun t ht => ?_
  rw [hw t (by simpa using (List.mem_filter.1 ht).2)]

theorem ahead_submit {n : Nat} {s : Machine γ} (h : PoolInv n s) {f : Nat} (hf : f < s.next)
    (wk : Work γ) (i : Nat) (th : Thread γ) :
    ahead ((s.submit wk).setThread i th) f = ahead s f := by
  unfold ahead
  change (((s.pool.queue ++ [s.next]).filter _).map (fun t =>
    8 + (Function.update s.work s.next wk t).actions.length)).sum = _
  rw [List.filter_append]
  have : ([s.next].filter fun t => decide (t ≤ f)) = [] := by
    rw [List.filter_eq_nil_iff]
    intro t ht
    rw [List.mem_singleton] at ht
    simp
    omega
  rw [this, List.append_nil]
  congr 1
  refine List.map_congr_left fun t ht => ?_
  have := h.lt (.inl (List.mem_filter.1 ht).1)
  rw [Function.update_of_ne (by omega)]

theorem rank_congr {s s' : Machine γ} {v : Nat} (hp : s'.pool.pc v = s.pool.pc v)
    (ht : s'.todo v = s.todo v) (hw : ∀ t, s.pool.pc v = .start t → s'.work t = s.work t) :
    rank s' v = rank s v := by
  unfold rank
  rw [hp, ht]
  cases hc : s.pool.pc v <;> try rfl
  simp only [hw _ hc]

theorem measure_other {s s' : Machine γ} {f v : Nat} {b : Bool} (h1 : ahead s' f = ahead s f)
    (h2 : rank s' v = rank s v) (hb : b = false) :
    ahead s' f + rank s' v + (if b then 1 else 0) ≤ ahead s f + rank s v := by
  rw [h1, h2, hb]
  simp

theorem measure_own {s s' : Machine γ} {f v : Nat} (b : Bool) (h1 : ahead s' f = ahead s f)
    (h2 : rank s' v + 1 ≤ rank s v) :
    ahead s' f + rank s' v + (if b then 1 else 0) ≤ ahead s f + rank s v := by
  rw [h1]
  split <;> omega

/-- While task `f` is queued or worker `v` has it, each step of `v` brings it closer to being
finished, and other steps do not matter. -/
theorem pending_step {n : Nat} {s s' : Machine γ} {l : Step} (hp : PoolInv n s)
    (hs : MStep n s l s') (hd : s'.pool.done = false) {f v : Nat} (hf : f < s.next) (hv : v < n)
    (h : Pending s' f v) : Pending s f v ∧
      ahead s' f + rank s' v + (if ownStep v l then 1 else 0) ≤ ahead s f + rank s v := by
  cases hs with
  | undefined | operate | submitted | get | «return» =>
    exact ⟨h, by simp only [ownStep, Bool.false_eq_true, if_false]; exact le_refl _⟩
  | launch i j rest ha hpc hr =>
    refine ⟨?_, ?_⟩
    · rcases h with h | h
      · change f ∈ s.pool.queue ++ [s.next] at h
        rw [List.mem_append, List.mem_singleton] at h
        exact .inl (h.resolve_right (by omega))
      · exact .inr h
    · refine measure_other (ahead_submit hp hf _ _ _) (rank_congr rfl rfl fun t ht => ?_) rfl
      have : t < s.next := hp.lt (.inr (.inl ⟨v, hv, ht⟩))
      exact Function.update_of_ne (by omega) _ _
  | submit i fs l ls ha hpc =>
    refine ⟨?_, ?_⟩
    · rcases h with h | h
      · change f ∈ s.pool.queue ++ [s.next] at h
        rw [List.mem_append, List.mem_singleton] at h
        exact .inl (h.resolve_right (by omega))
      · exact .inr h
    · refine measure_other (ahead_submit hp hf _ _ _) (rank_congr rfl rfl fun t ht => ?_) rfl
      have : t < s.next := hp.lt (.inr (.inl ⟨v, hv, ht⟩))
      exact Function.update_of_ne (by omega) _ _
  | act w t i l a as hw hpc hwk htd =>
    refine ⟨h, ?_⟩
    by_cases hvw : w = v
    · subst hvw
      refine measure_own _ (ahead_congr rfl fun _ _ => rfl) ?_
      simp only [rank, Machine.setThread, hpc, htd, Function.update_self, List.length_cons]
      omega
    · exact measure_other (ahead_congr rfl fun _ _ => rfl)
        (rank_congr rfl (Function.update_of_ne (Ne.symm hvw) _ _) fun _ _ => rfl)
        (by simp [ownStep, hvw])
  | start w t hw hpc =>
    refine ⟨?_, ?_⟩
    · rcases h with h | h | h
      · exact .inl h
      · change Function.update s.pool.pc w (.run t) v = _ at h
        rw [update_pc] at h
        split at h
        · cases h
        · exact .inr (.inl h)
      · change Function.update s.pool.pc w (.run t) v = _ at h
        rw [update_pc] at h
        split at h
        · rename_i hvw
          cases h
          subst hvw
          exact .inr (.inl hpc)
        · exact .inr (.inr h)
    · by_cases hvw : w = v
      · subst hvw
        refine measure_own _ (ahead_congr rfl fun _ _ => rfl) ?_
        simp only [rank, Pool.gotoLog, Pool.goto, hpc, Function.update_self]
        omega
      · exact measure_other (ahead_congr rfl fun _ _ => rfl)
          (rank_congr (Function.update_of_ne (Ne.symm hvw) _ _)
            (Function.update_of_ne (Ne.symm hvw) _ _) fun _ _ => rfl) (by simp [ownStep, hvw])
  | finish w t hw hpc he =>
    refine ⟨?_, ?_⟩
    · rcases h with h | h | h
      · exact .inl h
      · change Function.update s.pool.pc w .check v = _ at h
        rw [update_pc] at h
        split at h
        · cases h
        · exact .inr (.inl h)
      · change Function.update s.pool.pc w .check v = _ at h
        rw [update_pc] at h
        split at h
        · cases h
        · exact .inr (.inr h)
    · by_cases hvw : w = v
      · subst hvw
        refine measure_own _ (ahead_congr rfl fun _ _ => rfl) ?_
        simp only [rank, Pool.gotoLog, Pool.goto, hpc, Function.update_self]
        omega
      · exact measure_other (ahead_congr rfl fun _ _ => rfl)
          (rank_congr (Function.update_of_ne (Ne.symm hvw) _ _) rfl fun _ _ => rfl)
          (by simp [ownStep, hvw])
  | pool l p hst hns hnw =>
    -- a worker goes on to `q` without a task being taken
    have key : ∀ (w : Nat) (q : WorkerPc) (p : Pool), Pending { s with pool := p } f v →
        p.queue = s.pool.queue → p.pc = Function.update s.pool.pc w q →
        (∀ t, q ≠ .start t ∧ q ≠ .run t) →
        rank { s with pool := p } w + 1 ≤ rank s w →
        Pending s f v ∧ ∀ b : Bool, (b = true → w = v) →
          ahead { s with pool := p } f + rank { s with pool := p } v + (if b then 1 else 0) ≤
            ahead s f + rank s v := by
      intro w q p hpd hq hpc hqn hrk
      refine ⟨?_, fun b hb => ?_⟩
      · rcases hpd with h | h | h
        · exact .inl (hq ▸ h)
        · change p.pc v = _ at h
          rw [hpc, update_pc] at h
          split at h
          · exact absurd h (hqn f).1
          · exact .inr (.inl h)
        · change p.pc v = _ at h
          rw [hpc, update_pc] at h
          split at h
          · exact absurd h (hqn f).2
          · exact .inr (.inr h)
      · rw [ahead_congr (s := s) (s' := { s with pool := p }) hq (fun _ _ => rfl)]
        by_cases hvw : w = v
        · subst hvw
          split <;> omega
        · rw [rank_congr (s := s) (s' := { s with pool := p })
            (by change p.pc v = _; rw [hpc, Function.update_of_ne (Ne.symm hvw)]) rfl
            (fun _ _ => rfl)]
          cases b with
          | true => exact absurd (hb rfl) hvw
          | false => simp
    cases hst with
    | worker w p hw hs =>
      cases hs with
      | take t q hpc hq =>
        refine ⟨?_, ?_⟩
        · rcases h with h | h | h
          · exact .inl (by rw [hq]; exact List.mem_cons_of_mem _ h)
          · change Function.update s.pool.pc w (.start t) v = _ at h
            rw [update_pc] at h
            split at h
            · cases h
              exact .inl (by rw [hq]; simp)
            · exact .inr (.inl h)
          · change Function.update s.pool.pc w (.start t) v = _ at h
            rw [update_pc] at h
            split at h
            · cases h
            · exact .inr (.inr h)
        · by_cases hvw : w = v
          · subst hvw
            -- the task taken is one of those ahead
            have htf : t ≤ f := by
              rcases h with h | h | h
              · exact queue_sorted hp hq (by rw [hq]; exact List.mem_cons_of_mem _ h)
              · change Function.update s.pool.pc w (.start t) w = _ at h
                rw [Function.update_self] at h
                cases h
                exact le_refl _
              · change Function.update s.pool.pc w (.start t) w = _ at h
                rw [Function.update_self] at h
                cases h
            simp only [ahead, hq, List.filter_cons, htf, decide_true, if_true, List.map_cons,
              List.sum_cons, rank, Pool.gotoLog, Pool.goto, Function.update_self, hpc, ownStep,
              beq_self_eq_true]
            omega
          · have h1 : rank { s with pool := { s.pool.gotoLog w (.start t) (.took w t) with
                queue := q } } v = rank s v :=
              rank_congr (Function.update_of_ne (Ne.symm hvw) _ _) rfl (fun _ _ => rfl)
            have h2 : ahead { s with pool := { s.pool.gotoLog w (.start t) (.took w t) with
                queue := q } } f ≤ ahead s f := by
              simp only [ahead, hq, List.filter_cons]
              split
              · simp
              · exact le_refl _
            have h3 : ownStep v (.pool (.worker w)) = false := by simp [ownStep, hvw]
            rw [h3]
            simp only [Bool.false_eq_true, if_false, Nat.add_zero]
            exact Nat.add_le_add h2 (le_of_eq h1)
      | start t hpc => exact absurd hpc (hnw w t rfl).1
      | finish t hpc => exact absurd hpc (hnw w t rfl).2
      | checkExit hpc hdn => exact absurd (hdn.symm.trans hd) (by simp)
      | recheckDone hpc hdn => exact absurd (hdn.symm.trans hd) (by simp)
      | checkPop hpc hdn =>
        have := key w .pop _ h rfl rfl (by simp) (by simp [rank, Pool.goto, hpc])
        exact ⟨this.1, this.2 _ (by simp [ownStep])⟩
      | empty hpc hq =>
        -- not while the task is queued
        by_cases hvw : w = v
        · subst hvw
          rcases h with h | h | h
          · change f ∈ s.pool.queue at h
            rw [hq] at h
            cases h
          · change Function.update s.pool.pc w .lock w = _ at h
            rw [Function.update_self] at h
            cases h
          · change Function.update s.pool.pc w .lock w = _ at h
            rw [Function.update_self] at h
            cases h
        · have hpv : (s.pool.goto w .lock).pc v = s.pool.pc v :=
            Function.update_of_ne (Ne.symm hvw) _ _
          refine ⟨?_, ?_⟩
          · rcases h with h | h
            · exact .inl h
            · change (s.pool.goto w .lock).pc v = _ ∨ (s.pool.goto w .lock).pc v = _ at h
              rw [hpv] at h
              exact .inr h
          · exact measure_other (ahead_congr rfl fun _ _ => rfl)
              (rank_congr hpv rfl fun _ _ => rfl) (by simp [ownStep, hvw])
      | lock hpc hm =>
        have := key w .recheck _ h rfl rfl (by simp) (by simp [rank, Pool.goto, hpc])
        exact ⟨this.1, this.2 _ (by simp [ownStep])⟩
      | recheckWait hpc hdn =>
        have := key w .wait _ h rfl rfl (by simp) (by simp [rank, Pool.goto, hpc])
        exact ⟨this.1, this.2 _ (by simp [ownStep])⟩
      | relock hpc hm =>
        have := key w .unlock _ h rfl rfl (by simp) (by simp [rank, Pool.goto, hpc])
        exact ⟨this.1, this.2 _ (by simp [ownStep])⟩
      | unlock hpc =>
        have := key w .check _ h rfl rfl (by simp) (by simp [rank, Pool.goto, hpc])
        exact ⟨this.1, this.2 _ (by simp [ownStep])⟩
    | wake w hw _ hpc =>
      have := key w .relock _ h rfl rfl (by simp) (by simp [rank, Pool.goto, hpc])
      exact ⟨this.1, this.2 _ (by simp [ownStep])⟩
    | notify w hw hpc =>
      have := key w .relock _ h rfl rfl (by simp) (by simp [rank, Pool.goto, hpc])
      exact ⟨this.1, this.2 _ (by simp [ownStep])⟩
    | submit t => exact absurd rfl (hns t)
    | notifyNone => exact ⟨h, le_refl _⟩
    | destroy => cases hd
    | notifyAll hdn => exact absurd (hdn.symm.trans hd) (by simp)

theorem done_mono {n : Nat} {s s' : Machine γ} {l : Step} (h : MStep n s l s')
    (hd : s.pool.done = true) : s'.pool.done = true := by
  cases h with
  | pool l p hst hns hnw => exact done_step hst hd
  | _ => exact hd

theorem next_mono {n : Nat} {s s' : Machine γ} {l : Step} (h : MStep n s l s') :
    s.next ≤ s'.next := by
  cases h <;> first | exact le_refl _ | exact Nat.le_succ _

theorem pending_exec {n : Nat} {s s' : Machine γ} {ls : List Step} (hp : PoolInv n s)
    (h : s.exec n ls = some s') (hd : s'.pool.done = false) {f v : Nat} (hf : f < s.next)
    (hv : v < n) (hpd : Pending s' f v) :
    Pending s f v ∧ ahead s' f + rank s' v + ls.countP (ownStep v) ≤ ahead s f + rank s v := by
  induction ls using List.reverseRecOn generalizing s' with
  | nil => cases h; exact ⟨hpd, by simp⟩
  | append_singleton ls l ih =>
    obtain ⟨u, hu, hl⟩ := mexec_snoc h
    have hpu : PoolInv n u := mexec_invariant poolInv_step hp hu
    have hnu : s.next ≤ u.next := mexec_invariant (P := fun u => s.next ≤ u.next)
      (fun _ _ _ h hs => h.trans (next_mono hs)) (le_refl _) hu
    have hdu : u.pool.done = false := by
      cases hc : u.pool.done with
      | false => rfl
      | true => rw [done_mono hl hc] at hd; cases hd
    obtain ⟨h1, h2⟩ := pending_step hpu hl hd (lt_of_lt_of_le hf hnu) hv hpd
    obtain ⟨h3, h4⟩ := ih hu hdu h1
    refine ⟨h3, ?_⟩
    rw [List.countP_append, List.countP_singleton]
    omega

/-- A task that is nowhere in the pool has finished. -/
theorem ready_of_not_pending {n : Nat} {s : Machine γ} (hp : PoolInv n s) (hn : 1 ≤ n) {f : Nat}
    (hf : f < s.next) (h : ∀ v < n, ¬Pending s f v) : s.ready f = true := by
  have ht := hp.total f
  rw [if_pos hf] at ht
  have h1 : s.pool.queue.count f = 0 := List.count_eq_zero.2 fun hq => h 0 hn (.inl hq)
  have h2 : at_ n s.pool (.start f) = 0 := Finset.sum_eq_zero fun v hv => by
    rw [if_neg fun e => h v (Finset.mem_range.1 hv) (.inr (.inl e))]
  have h3 : at_ n s.pool (.run f) = 0 := Finset.sum_eq_zero fun v hv => by
    rw [if_neg fun e => h v (Finset.mem_range.1 hv) (.inr (.inr e))]
  exact ready_iff.2 (List.count_pos_iff.1 (by omega))

/-- When no program submits programs: all tasks are those of operations, all threads are threads of
their own. -/
theorem plain_exec {n : Nat} {programs : Nat → List (Call γ)} {memories : Nat → List γ}
    (hp : ∀ i, Plain (programs i)) {steps : List Step} {s : Machine γ}
    (h : (Machine.initial programs memories fun _ => false).exec n steps = some s) :
    (∀ t < s.next, ∃ i l, s.work t = .acts i l) ∧ (∀ i, (s.thread i).inPool = false) ∧
      ∀ v, s.pool.mutex = some v → v < n := by
  refine (mexec_invariant (P := fun u => Inv n programs memories u ∧
    (∀ t < u.next, ∃ i l, u.work t = .acts i l) ∧ (∀ i, (u.thread i).inPool = false) ∧
      ∀ v, u.pool.mutex = some v → v < n) ?_
    ⟨inv_initial n programs memories _, by simp [Machine.initial], by simp [Machine.initial],
      by simp [Machine.initial, Pool.initial]⟩ h).2
  rintro u l u' ⟨hi, i1, i2, i3⟩ hs
  refine ⟨inv_step _ _ _ hi hs, ?_⟩
  have key : ∀ (v : Machine γ) (j : Nat) (t : Thread γ), v.thread = u.thread →
      t.inPool = (u.thread j).inPool → ∀ i, ((v.setThread j t).thread i).inPool = false := by
    intro v j t hv ht i
    by_cases hj : i = j
    · subst hj; rw [setThread_self, ht, i2]
    · rw [setThread_ne _ hj, hv, i2]
  cases hs with
  | launch i j rest ha hpc hr =>
    obtain ⟨_, rem, _, ht⟩ := hi
    have hti := ht i
    rw [ThreadInv, hpc] at hti
    obtain ⟨made, h1, _⟩ := hti
    exact absurd (show Call.launch j ∈ programs i by rw [h1, hr]; simp) (hp i j)
  | submit i fs l ls ha hpc =>
    refine ⟨fun t ht => ?_, key _ _ _ rfl rfl, i3⟩
    change t < u.next + 1 at ht
    change ∃ i' l', Function.update u.work u.next (.acts i l) t = _
    by_cases htn : t = u.next
    · subst htn
      exact ⟨i, l, Function.update_self _ _ _⟩
    · rw [Function.update_of_ne htn]
      exact i1 t (by omega)
  | start | finish => exact ⟨i1, i2, i3⟩
  | pool l p hst hns hnw =>
    refine ⟨i1, i2, fun v hv => ?_⟩
    change p.mutex = some v at hv
    cases hst with
    | worker w p hw hs =>
      cases hs with
      | lock hpc hm => cases hv; exact hw
      | relock hpc hm => cases hv; exact hw
      | recheckWait => cases hv
      | unlock => cases hv
      | _ => exact i3 v hv
    | _ => exact i3 v hv
  | _ => exact ⟨i1, key _ _ _ rfl rfl, i3⟩

theorem started_step {n : Nat} {p p' : Pool} {l : PoolStep} (h : PStep true n p l p')
    (hl : ∀ w t, l = .worker w → p.pc w ≠ .start t ∧ p.pc w ≠ .run t) :
    Fern.Spec.started p'.log = Fern.Spec.started p.log := by
  cases h with
  | worker w s' hw hs =>
    cases hs with
    | start t hp => exact absurd hp (hl w t rfl).1
    | _ => simp [Pool.gotoLog, Pool.goto, Fern.Spec.started, List.filterMap_append]
  | submit t => simp [Fern.Spec.started, List.filterMap_append]
  | _ => rfl

/-- A queued task is not ready. -/
theorem not_ready {n : Nat} {s : Machine γ} (h : PoolInv n s) {f : Nat} (hf : f ∈ s.pool.queue) :
    s.ready f = false := by
  cases hr : s.ready f with
  | false => rfl
  | true =>
    have h1 := List.count_pos_iff.2 hf
    have h2 := List.count_pos_iff.2 (ready_iff.1 hr)
    have := h.total f
    have hle : (if f < s.next then 1 else 0) ≤ 1 := by split <;> omega
    omega

theorem occupied_step {n : Nat} {u u' : Machine γ} {l : Step} (hp : PoolInv n u)
    {st fi : List Nat} (ho : ∀ w < n, Occupied u w) (h1 : Fern.Spec.started u.pool.log = st)
    (h2 : Fern.Spec.finished u.pool.log = fi) (hs : MStep n u l u') :
    (∀ w < n, Occupied u' w) ∧ Fern.Spec.started u'.pool.log = st ∧
      Fern.Spec.finished u'.pool.log = fi := by
  -- a thread that is not at `future.get()` for a queued task is replaced
  have frame : ∀ (i : Nat) (t : Thread γ), (∀ f fs, (u.thread i).pc = .waiting (f :: fs) →
      f ∉ u.pool.queue) → ∀ w < n, Occupied (u.setThread i t) w := by
    intro i t hi w hw
    obtain ⟨t', j, f, fs, o1, o2, o3, o4⟩ := ho w hw
    refine ⟨t', j, f, fs, o1, o2, ?_, o4⟩
    rw [setThread_ne]
    · exact o3
    · rintro rfl
      exact hi f fs o3 o4
  have submit : ∀ (i : Nat) (t : Thread γ) (wk : Work γ), (∀ f fs, (u.thread i).pc =
      .waiting (f :: fs) → f ∉ u.pool.queue) →
      (∀ w < n, Occupied ((u.submit wk).setThread i t) w) ∧
      Fern.Spec.started ((u.submit wk).setThread i t).pool.log = st ∧
      Fern.Spec.finished ((u.submit wk).setThread i t).pool.log = fi := by
    intro i t wk hi
    refine ⟨fun w hw => ?_, ?_, ?_⟩
    · obtain ⟨t', j, f, fs, o1, o2, o3, o4⟩ := ho w hw
      have hlt : t' < u.next := hp.lt (.inr (.inr (.inl ⟨w, hw, o1⟩)))
      refine ⟨t', j, f, fs, o1, ?_, ?_, List.mem_append_left _ o4⟩
      · change Function.update u.work u.next wk t' = _
        rw [Function.update_of_ne (by omega), o2]
      · rw [setThread_ne]
        · exact o3
        · rintro rfl
          exact hi f fs o3 o4
    · change Fern.Spec.started (u.pool.log ++ [_]) = st
      rw [← h1]
      simp [Fern.Spec.started, List.filterMap_append]
    · change Fern.Spec.finished (u.pool.log ++ [_]) = fi
      rw [← h2]
      simp [Fern.Spec.finished, List.filterMap_append]
  cases hs with
  | undefined i op rest m ha hpc => exact ⟨frame i _ (by simp [hpc]), h1, h2⟩
  | operate i op rest m ts ha hpc => exact ⟨frame i _ (by simp [hpc]), h1, h2⟩
  | launch i j rest ha hpc hr => exact submit i _ _ (by simp [hpc])
  | submit i fs l ls ha hpc => exact submit i _ _ (by simp [hpc])
  | submitted i fs ha hpc => exact ⟨frame i _ (by simp [hpc]), h1, h2⟩
  | get i f fs ha hpc hr =>
    refine ⟨frame i _ ?_, h1, h2⟩
    intro g gs hg hq
    rw [hpc] at hg
    cases hg
    rw [not_ready hp hq] at hr
    cases hr
  | «return» i ha hpc => exact ⟨frame i _ (by simp [hpc]), h1, h2⟩
  | act w t i l a as hw hpc hwk htd =>
    obtain ⟨t', j, f, fs, o1, o2, _, _⟩ := ho w hw
    rw [hpc] at o1
    cases o1
    rw [hwk] at o2
    cases o2
  | start w t hw hpc =>
    obtain ⟨t', j, f, fs, o1, _⟩ := ho w hw
    rw [hpc] at o1
    cases o1
  | finish w t hw hpc he =>
    obtain ⟨t', j, f, fs, o1, o2, o3, _⟩ := ho w hw
    rw [hpc] at o1
    cases o1
    simp [Machine.taskEnded, o2, Thread.ended, o3] at he
  | pool l p hst hns hnw =>
    rw [started_step hst hnw, finished_step hst hnw]
    refine ⟨fun w hw => ?_, h1, h2⟩
    obtain ⟨t', j, f, fs, o1, o2, o3, o4⟩ := ho w hw
    refine ⟨t', j, f, fs, ?_, o2, o3, ?_⟩
    · change p.pc w = _
      cases hst with
      | worker v p hv hs =>
        obtain ⟨t2, _, _, _, o5, _⟩ := ho v hv
        cases hs <;> simp_all
      | wake v hv _ hpc =>
        obtain ⟨t2, _, _, _, o5, _⟩ := ho v hv
        simp_all
      | notify v hv hpc =>
        obtain ⟨t2, _, _, _, o5, _⟩ := ho v hv
        simp_all
      | submit t => exact absurd rfl (hns t)
      | notifyAll hd => simp [o1]
      | _ => exact o1
    · change f ∈ p.queue
      cases hst with
      | worker v p hv hs =>
        obtain ⟨t2, _, _, _, o5, _⟩ := ho v hv
        cases hs <;> simp_all
      | submit t => exact absurd rfl (hns t)
      | _ => exact o4

/-- A worker that is occupied, and the thread its task executes, remain where they are. -/
theorem occupied_keeps {n : Nat} {u u' : Machine γ} {l : Step} (hp : PoolInv n u)
    (ho : ∀ w < n, Occupied u w) (hs : MStep n u l u') {w t j : Nat} (hw : w < n)
    (h1 : u.pool.pc w = .run t) (h2 : u.work t = .program j) :
    u'.pool.pc w = .run t ∧ u'.work t = .program j ∧ (u'.thread j).pc = (u.thread j).pc := by
  obtain ⟨t', j', f, fs, o1, o2, o3, o4⟩ := ho w hw
  rw [h1] at o1
  cases o1
  rw [h2] at o2
  cases o2
  have frame : ∀ (v : Machine γ) (i : Nat) (th : Thread γ), v.thread = u.thread →
      (u.thread i).pc ≠ (u.thread j).pc → ((v.setThread i th).thread j).pc = (u.thread j).pc := by
    intro v i th hv hi
    rw [setThread_ne, hv]
    rintro rfl
    exact hi rfl
  have hlt : t < u.next := hp.lt (.inr (.inr (.inl ⟨w, hw, h1⟩)))
  have upd : ∀ wk, Function.update u.work u.next wk t = .program j := fun wk => by
    rw [Function.update_of_ne (by omega), h2]
  cases hs with
  | undefined i op rest m ha hpc => exact ⟨h1, h2, frame u i _ rfl (by rw [hpc, o3]; simp)⟩
  | operate i op rest m ts ha hpc => exact ⟨h1, h2, frame u i _ rfl (by rw [hpc, o3]; simp)⟩
  | launch i k rest ha hpc hr => exact ⟨h1, upd _, frame _ i _ rfl (by rw [hpc, o3]; simp)⟩
  | submit i fs l ls ha hpc => exact ⟨h1, upd _, frame _ i _ rfl (by rw [hpc, o3]; simp)⟩
  | submitted i fs ha hpc => exact ⟨h1, h2, frame u i _ rfl (by rw [hpc, o3]; simp)⟩
  | get i g gs ha hpc hr =>
    refine ⟨h1, h2, frame u i _ rfl ?_⟩
    rw [hpc, o3]
    intro he
    cases he
    rw [not_ready hp o4] at hr
    cases hr
  | «return» i ha hpc => exact ⟨h1, h2, frame u i _ rfl (by rw [hpc, o3]; simp)⟩
  | act v t' i l a as hv hpc hwk htd =>
    obtain ⟨t2, j2, f2, fs2, q1, q2, _, _⟩ := ho v hv
    rw [hpc] at q1
    cases q1
    rw [hwk] at q2
    cases q2
  | start v t' hv hpc =>
    obtain ⟨t2, j2, f2, fs2, q1, _⟩ := ho v hv
    rw [hpc] at q1
    cases q1
  | finish v t' hv hpc he =>
    obtain ⟨t2, j2, f2, fs2, q1, q2, q3, _⟩ := ho v hv
    rw [hpc] at q1
    cases q1
    simp [Machine.taskEnded, q2, Thread.ended, q3] at he
  | pool l p hst hns hnw =>
    refine ⟨?_, h2, rfl⟩
    change p.pc w = _
    cases hst with
    | worker v p hv hs =>
      obtain ⟨t2, _, _, _, o5, _⟩ := ho v hv
      cases hs <;> simp_all
    | wake v hv _ hpc =>
      obtain ⟨t2, _, _, _, o5, _⟩ := ho v hv
      simp_all
    | notify v hv hpc =>
      obtain ⟨t2, _, _, _, o5, _⟩ := ho v hv
      simp_all
    | submit t => exact absurd rfl (hns t)
    | notifyAll hd => simp [h1]
    | _ => exact h1

theorem ended_iff {s : Machine γ} {i : Nat} : (s.thread i).ended = true ↔ Returned s i := by
  rw [Returned, Thread.ended]
  cases (s.thread i).pc <;> cases (s.thread i).rest <;> simp

/-- Decides whether the work is the program of a thread. -/
def isProgram : Work γ → Nat → Bool
  | .program j, i => j == i
  | .acts _ _, _ => false

theorem isProgram_iff {w : Work γ} {j : Nat} : isProgram w j = true ↔ w = .program j := by
  cases w <;> simp [isProgram]

/-- Decides whether the thread waits for the futures. -/
def isWaiting : Pc γ → List Nat → Bool
  | .waiting fs, gs => fs == gs
  | _, _ => false

theorem isWaiting_iff {p : Pc γ} {fs : List Nat} : isWaiting p fs = true ↔ p = .waiting fs := by
  cases p <;> simp [isWaiting]

end Fern.PoolRun
