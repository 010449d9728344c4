import Verif.Lemmas.PoolReturn
import Verif.Props.LocalOps
import Verif.Props.Convolve

/-!
# Operations executed by a thread pool (C114)

Executions are sequences of steps: all interleavings of any number of threads that call operations,
of the workers of the pool, of notifications and time-outs, and of the destruction of the pool.
-/

namespace Fern.PoolRun

open _root_.Fern.PoolRun.Spec
open _root_.Fern.Spec (PolicyFor)

variable {γ : Type}

/-! ### Results -/

/-- Whatever the execution: when a thread is between two calls, its memory is what the calls it has
made up to then make of it when they are done one after the other. -/
theorem C114_outcome {n : Nat} {programs : Nat → List (Call γ)} {memories : Nat → List γ}
    {inPool : Nat → Bool} {steps : List Step} {s : Machine γ}
    (h : (Machine.initial programs memories inPool).exec n steps = some s) (i : Nat)
    (hi : (s.thread i).pc = .idle) : ∃ made, programs i = made ++ (s.thread i).rest ∧
      Outcome n made (memories i) (s.thread i).memory := by
  obtain ⟨_, rem, _, ht⟩ := inv_exec h
  have hti := ht i
  rw [ThreadInv, hi] at hti
  exact hti

theorem outcome_inTurn {n : Nat} {P : List γ → Prop} {cs : List (Call γ)}
    {fs : List (List γ → Option (List γ))} {m : List γ} {o : Option (List γ)}
    (hp : Program n P cs fs) (hm : P m) (h : Outcome n cs m o) :
    o = inTurn fs m ∧ ∃ m', o = some m' ∧ P m' := by
  induction h generalizing fs with
  | nothing m =>
    cases fs with
    | nil => exact ⟨rfl, m, rfl, hm⟩
    | cons f fs => simp [Program] at hp
  | launch _ _ => simp [Program] at hp
  | @operate op cs m m' o hpar _ ih =>
    cases fs with
    | nil => simp [Program] at hp
    | cons f fs =>
      simp only [Program] at hp
      obtain ⟨h1, m1, h2, h3⟩ := hp.1 m hm
      have e := h1 _ hpar
      rw [h2] at e
      cases e
      have := ih hp.2 h3
      rw [inTurn, h2]
      exact this
  | @undefined op cs m hpar =>
    cases fs with
    | nil => simp [Program] at hp
    | cons f fs =>
      simp only [Program] at hp
      obtain ⟨h1, m1, h2, h3⟩ := hp.1 m hm
      have e := h1 _ hpar
      rw [h2] at e
      cases e

/-- Whatever the number of workers, the other threads and the order of all steps: when a thread has
returned from its last call, its memory is what its operations make of it in a single thread. -/
theorem C114_sequential {n : Nat} {programs : Nat → List (Call γ)} {memories : Nat → List γ}
    {inPool : Nat → Bool} {steps : List Step} {s : Machine γ}
    (h : (Machine.initial programs memories inPool).exec n steps = some s) (i : Nat)
    (hi : Returned s i) {P : List γ → Prop} {fs : List (List γ → Option (List γ))}
    (hp : Program n P (programs i) fs) (hm : P (memories i)) :
    (s.thread i).memory = inTurn fs (memories i) ∧
      ∃ m, (s.thread i).memory = some m ∧ P m := by
  obtain ⟨made, h1, h2⟩ := C114_outcome h i hi.1
  rw [hi.2, List.append_nil] at h1
  rw [← h1] at h2
  exact outcome_inTurn hp hm h2

/-- A use of a local operation of one argument. -/
structure Use (V R : Type) where
  op : LocalOp V R
  inp : InPolicy V
  outp : OutPolicy R
  value : List V

theorem program_unary_1d {V R : Type} {n k : Nat} (hn : 1 ≤ n) (uses : List (Use V R))
    (hu : ∀ u ∈ uses, u.value.length = k ∧ PolicyFor u.inp k) :
    Program n (fun m : List (Cell R) => m.length = k)
      (uses.map (fun u => .operate (fun n m => unary1dTasks u.op u.inp u.outp n u.value m)))
      (uses.map (fun u => unary1d u.op u.inp u.outp u.value)) := by
  induction uses with
  | nil => exact trivial
  | cons u uses ih =>
    refine ⟨fun m hm => ?_, ih fun v hv => hu v (List.mem_cons_of_mem _ hv)⟩
    obtain ⟨h1, h2⟩ := hu u (by simp)
    obtain ⟨m', h3, h4⟩ := C09_unary_1d u.op u.inp u.outp u.value m (h1.trans hm.symm) (h1 ▸ h2)
    refine ⟨fun o ho => ?_, m', h3, ?_⟩
    · exact (C04_unary_1d u.op u.inp u.outp u.value m (h1.trans hm.symm) (h1 ▸ h2) n hn o).1 ho
    · exact h4.1.trans hm

/-- So any number of threads that execute local operations of one argument with one pool, one
operation after the other, each into a 1D result of its own: each result is the one obtained by
executing that thread's operations sequentially. -/
theorem C114_unary_1d {V R : Type} {n : Nat} (hn : 1 ≤ n) (uses : Nat → List (Use V R))
    (results : Nat → List (Cell R)) (inPool : Nat → Bool)
    (hu : ∀ i, ∀ u ∈ uses i, u.value.length = (results i).length ∧
      PolicyFor u.inp (results i).length)
    {steps : List Step} {s : Machine (Cell R)}
    (h : (Machine.initial (fun i => (uses i).map (fun u =>
      .operate (fun n m => unary1dTasks u.op u.inp u.outp n u.value m))) results inPool).exec n
        steps = some s) (i : Nat) (hi : Returned s i) :
    (s.thread i).memory =
      inTurn ((uses i).map (fun u => unary1d u.op u.inp u.outp u.value)) (results i) ∧
      ∃ m, (s.thread i).memory = some m ∧ m.length = (results i).length :=
  C114_sequential h i hi (program_unary_1d hn (uses i) (hu i)) rfl

/-- A use of a local operation whose result is 2D. -/
inductive Use2 (V R : Type) where
  /-- Of no argument, where the given data are not no-data. -/
  | constant (r : R) (outp : OutPolicy R) (inp : InPolicy V) (value : List V)
  /-- Of a number. -/
  | number (op : LocalOp V R) (inp : InPolicy V) (outp : OutPolicy R) (value : V)
  /-- Of a raster. -/
  | raster (op : LocalOp V R) (inp : InPolicy V) (outp : OutPolicy R) (value : List V)
  /-- Of two rasters. -/
  | rasters (op : LocalOp (V × V) R) (in1 in2 : InPolicy V) (outp : OutPolicy R)
      (value1 value2 : List V)

/-- The tasks. -/
def Use2.tasks {V R : Type} (n1 n2 : Nat) (u : Use2 V R) (n : Nat) :
    Option (List (List (Act (Cell R)))) :=
  match u with
  | .constant r outp inp value => nullary2dTasks r outp n inp value (n1, n2)
  | .number op inp outp value => disaggregate2dTasks op inp outp n value (n1, n2)
  | .raster op inp outp value => unary2dTasks op inp outp n (n1, n2) value (n1, n2)
  | .rasters op in1 in2 outp value1 value2 =>
    binary2d2dTasks n op in1 in2 outp (n1, n2) value1 (n1, n2) value2 (n1, n2)

/-- The same with the sequential execution policy. -/
def Use2.run {V R : Type} (n1 n2 : Nat) (u : Use2 V R) (m : List (Cell R)) :
    Option (List (Cell R)) :=
  match u with
  | .constant r outp inp value => nullary2d r outp inp value (n1, n2) m
  | .number op inp outp value => disaggregate2d op inp outp value (n1, n2) m
  | .raster op inp outp value => unary2d op inp outp (n1, n2) value (n1, n2) m
  | .rasters op in1 in2 outp value1 value2 =>
    binary2d2d op in1 in2 outp (n1, n2) value1 (n1, n2) value2 (n1, n2) m

/-- The arguments have the size of the result, the policies are for them. -/
def Use2.Fits {V R : Type} (k : Nat) : Use2 V R → Prop
  | .constant _ _ inp value => value.length = k ∧ PolicyFor inp k
  | .number _ inp _ _ => PolicyFor inp 1
  | .raster _ inp _ value => value.length = k ∧ PolicyFor inp k
  | .rasters _ in1 in2 _ value1 value2 =>
    value1.length = k ∧ value2.length = k ∧ PolicyFor in1 k ∧ PolicyFor in2 k

theorem computes_2d {V R : Type} {n n1 n2 : Nat} (hn : 1 ≤ n) (u : Use2 V R)
    (hu : u.Fits (n1 * n2)) : Computes n (fun m : List (Cell R) => m.length = n1 * n2)
      (fun n _ => u.tasks n1 n2 n) (u.run n1 n2) := by
  intro m hm
  cases u with
  | constant r outp inp value =>
    obtain ⟨m', h1, h2⟩ := C11_nullary_2d r outp inp value n1 n2 m hu.1 hm hu.2
    exact ⟨fun o ho => (C04_nullary_2d r outp inp value n1 n2 m hu.1 hm hu.2 n hn o).1 ho,
      m', h1, h2.1.trans hm⟩
  | number op inp outp value =>
    obtain ⟨m', h1, h2⟩ := C12_disaggregate_2d op inp outp value n1 n2 m hm hu
    exact ⟨fun o ho => (C04_disaggregate_2d op inp outp value n1 n2 m hm hu n hn o).1 ho,
      m', h1, h2.1.trans hm⟩
  | raster op inp outp value =>
    obtain ⟨m', h1, h2⟩ := C09_unary_2d op inp outp n1 n2 value m hu.1 hm hu.2
    exact ⟨fun o ho => (C04_unary_2d op inp outp n1 n2 value m hu.1 hm hu.2 n hn o).1 ho,
      m', h1, h2.1.trans hm⟩
  | rasters op in1 in2 outp value1 value2 =>
    obtain ⟨k1, k2, k3, k4⟩ := hu
    obtain ⟨m', h1, h2⟩ := C10_binary_2d2d op in1 in2 outp n1 n2 value1 value2 m k1 k2 hm k3 k4
    exact ⟨fun o ho => (C04_binary_2d2d op in1 in2 outp n1 n2 value1 value2 m k1 k2 hm k3 k4 n hn
      o).1 ho, m', h1, h2.1.trans hm⟩

theorem program_2d {V R : Type} {n n1 n2 : Nat} (hn : 1 ≤ n) (uses : List (Use2 V R))
    (hu : ∀ u ∈ uses, u.Fits (n1 * n2)) :
    Program n (fun m : List (Cell R) => m.length = n1 * n2)
      (uses.map (fun u => .operate (fun n _ => u.tasks n1 n2 n)))
      (uses.map (fun u => u.run n1 n2)) := by
  induction uses with
  | nil => exact trivial
  | cons u uses ih =>
    exact ⟨computes_2d hn u (hu u (by simp)), ih fun v hv => hu v (List.mem_cons_of_mem _ hv)⟩

/-- The same for 2D results, each thread having results of its own size, and operations of none, one
and two arguments. -/
theorem C114_local_2d {V R : Type} {n : Nat} (hn : 1 ≤ n) (n1 n2 : Nat → Nat)
    (uses : Nat → List (Use2 V R)) (results : Nat → List (Cell R)) (inPool : Nat → Bool)
    (hr : ∀ i, (results i).length = n1 i * n2 i)
    (hu : ∀ i, ∀ u ∈ uses i, u.Fits (n1 i * n2 i))
    {steps : List Step} {s : Machine (Cell R)}
    (h : (Machine.initial (fun i => (uses i).map (fun u =>
      .operate (fun n _ => u.tasks (n1 i) (n2 i) n))) results inPool).exec n steps = some s)
    (i : Nat) (hi : Returned s i) :
    (s.thread i).memory = inTurn ((uses i).map (fun u => u.run (n1 i) (n2 i))) (results i) ∧
      ∃ m, (s.thread i).memory = some m ∧ m.length = n1 i * n2 i :=
  C114_sequential h i hi (program_2d hn (uses i) (hu i)) (hr i)

/-- A use of a local operation or of a convolution whose result is 2D. -/
inductive Use3 (V W A R : Type) where
  | local (u : Use2 V R)
  | convolve (ops : ConvolveOps V W A R) (a : ConvolveArgs V W) (pol : ConvolvePolicy V)
      (outp : OutPolicy R)

/-- The tasks. -/
def Use3.tasks {V W A R : Type} (n1 n2 : Nat) (u : Use3 V W A R) (n : Nat) :
    Option (List (List (Act (Cell R)))) :=
  match u with
  | .local u => u.tasks n1 n2 n
  | .convolve ops a pol outp => convolveTasks ops a pol outp (innerPart ops a pol outp) n (n1, n2)

/-- The same with the sequential execution policy. -/
def Use3.run {V W A R : Type} (n1 n2 : Nat) (u : Use3 V W A R) (m : List (Cell R)) :
    Option (List (Cell R)) :=
  match u with
  | .local u => u.run n1 n2 m
  | .convolve ops a pol outp => convolveSequential ops a pol outp (innerPart ops a pol outp) m

/-- The arguments have the size of the result, and the policies are for them. -/
def Use3.Fits {V W A R : Type} (n1 n2 : Nat) : Use3 V W A R → Prop
  | .local u => u.Fits (n1 * n2)
  | .convolve _ a pol _ => a.rows = n1 ∧ a.cols = n2 ∧ _root_.Fern.Spec.ArgsOk a ∧
    ∃ (alt : Nat → Nat → Option V) (out : Int → Int → Option V), _root_.Fern.Spec.PolicyIs a pol alt out

theorem program_convolve {V W A R : Type} {n n1 n2 : Nat} (hn : 1 ≤ n) (uses : List (Use3 V W A R))
    (hu : ∀ u ∈ uses, u.Fits n1 n2) :
    Program n (fun m : List (Cell R) => m.length = n1 * n2)
      (uses.map (fun u => .operate (fun n _ => u.tasks n1 n2 n)))
      (uses.map (fun u => u.run n1 n2)) := by
  induction uses with
  | nil => exact trivial
  | cons u uses ih =>
    refine ⟨?_, ih fun v hv => hu v (List.mem_cons_of_mem _ hv)⟩
    have hf := hu u (by simp)
    cases u with
    | «local» u => exact computes_2d hn u hf
    | convolve ops a pol outp =>
      obtain ⟨rfl, rfl, ha, alt, out, hp⟩ := hf
      intro m hm
      obtain ⟨r, h1, h2, -, h3⟩ := C53_policies (ops := ops) outp ha hp hm
      exact ⟨fun o ho => ((h3 n hn o).1 ho).trans h1.symm, r, h1, h2.trans hm⟩

/-- The same for threads that execute convolutions and local operations, in any order. -/
theorem C114_convolve {V W A R : Type} {n : Nat} (hn : 1 ≤ n) (n1 n2 : Nat → Nat)
    (uses : Nat → List (Use3 V W A R)) (results : Nat → List (Cell R)) (inPool : Nat → Bool)
    (hr : ∀ i, (results i).length = n1 i * n2 i)
    (hu : ∀ i, ∀ u ∈ uses i, u.Fits (n1 i) (n2 i))
    {steps : List Step} {s : Machine (Cell R)}
    (h : (Machine.initial (fun i => (uses i).map (fun u =>
      .operate (fun n _ => u.tasks (n1 i) (n2 i) n))) results inPool).exec n steps = some s)
    (i : Nat) (hi : Returned s i) :
    (s.thread i).memory = inTurn ((uses i).map (fun u => u.run (n1 i) (n2 i))) (results i) ∧
      ∃ m, (s.thread i).memory = some m ∧ m.length = n1 i * n2 i :=
  C114_sequential h i hi (program_convolve hn (uses i) (hu i)) (hr i)

/-- A convolution that skips no-data and what is outside of the image, and an operation on its result. -/
example : ∀ u ∈ [Use3.convolve sumOps convolveExample (skipPolicy Int true) .markMask,
    .local (.number ⟨fun _ => true, id, fun _ _ => true⟩ .skip .dontMark 3)], u.Fits 4 5 := by
  intro u hu
  simp only [List.mem_cons, List.not_mem_nil, or_false] at hu
  rcases hu with rfl | rfl
  · exact ⟨rfl, rfl, ⟨rfl, trivial, rfl, by decide, by decide⟩, fun _ _ => none, fun _ _ => none,
      ⟨fun _ _ _ _ _ _ _ _ _ => rfl, fun _ _ _ _ _ _ _ _ _ => rfl⟩⟩
  · exact trivial

/-! ### Returning -/

/-- Every task that was submitted returns: whatever the others do, there is a number such that its
future is ready once each worker has made that many steps, unless the pool is destroyed. -/
theorem C114_ready {n : Nat} (hn : 1 ≤ n) {programs : Nat → List (Call γ)}
    {memories : Nat → List γ} {inPool : Nat → Bool} {before : List Step} {s : Machine γ}
    (h : (Machine.initial programs memories inPool).exec n before = some s) (f : Nat)
    (hf : f < s.next) : ∃ k : Nat, ∀ (steps : List Step) (s' : Machine γ),
      s.exec n steps = some s' → s'.pool.done = false →
      (∀ v < n, k ≤ steps.countP (ownStep v)) → s'.ready f = true := by
  have hp := (inv_exec h).1
  refine ⟨ahead s f + (∑ v ∈ Finset.range n, rank s v) + 1, fun steps s' he hd hk => ?_⟩
  have hp' : PoolInv n s' := mexec_invariant poolInv_step hp he
  have hn' : s.next ≤ s'.next := mexec_invariant (P := fun u => s.next ≤ u.next)
    (fun _ _ _ h hs => h.trans (next_mono hs)) (le_refl _) he
  refine ready_of_not_pending hp' hn (lt_of_lt_of_le hf hn') fun v hv hpd => ?_
  have h1 := (pending_exec hp he hd hf hv hpd).2
  have h2 := hk v hv
  have h3 := Finset.single_le_sum (s := Finset.range n) (f := fun v => rank s v)
    (fun _ _ => Nat.zero_le _) (Finset.mem_range.2 hv)
  omega

theorem ready_mono {n : Nat} {s s' : Machine γ} {steps : List Step} (h : s.exec n steps = some s')
    {f : Nat} (hf : s.ready f = true) : s'.ready f = true := by
  refine mexec_invariant (P := fun u => u.ready f = true) ?_ hf h
  intro u l u' hu hs
  rw [ready_iff] at hu ⊢
  cases hs with
  | launch | submit | start | finish =>
    simp [Machine.setThread, Machine.submit, Pool.gotoLog, Pool.goto, Fern.Spec.finished,
      List.filterMap_append] at hu ⊢
    first | exact hu | exact .inl hu
  | pool l p hst hns hnw => rw [finished_step hst hnw]; exact hu
  | _ => exact hu

/-- A thread that waits for futures that are ready returns from the operation. -/
theorem get_returns {n : Nat} {s : Machine γ} {i : Nat} (ha : (s.thread i).inPool = false)
    (fs : List Nat) (hpc : (s.thread i).pc = .waiting fs) (hr : ∀ f ∈ fs, s.ready f = true) :
    s.exec n (List.replicate (fs.length + 1) (.get i)) =
      some (s.setThread i { s.thread i with pc := .idle }) := by
  induction fs generalizing s with
  | nil =>
    simp [Machine.exec, Machine.step, Machine.active, ha, Machine.get, hpc]
  | cons f fs ih =>
    have h1 : s.step n (.get i) = some (s.setThread i { s.thread i with pc := .waiting fs }) := by
      simp [Machine.step, Machine.active, ha, Machine.get, hpc, hr f (by simp)]
    rw [List.length_cons, List.replicate_succ, Machine.exec, List.foldlM_cons, h1]
    change Machine.exec n _ _ = _
    have := ih (s := s.setThread i { s.thread i with pc := .waiting fs })
      (by rw [setThread_self]; exact ha) (by rw [setThread_self])
      (fun g hg => hr g (List.mem_cons_of_mem _ hg))
    rw [this]
    simp [Machine.setThread]

/-- Every operation returns: a thread that waits for the futures of its tasks can return once each
worker has made a certain number of steps, whatever the other threads do, unless the pool is
destroyed. (`gs`: the futures it is still waiting for then.) -/
theorem C114_returns {n : Nat} (hn : 1 ≤ n) {programs : Nat → List (Call γ)}
    {memories : Nat → List γ} {inPool : Nat → Bool} {before : List Step} {s : Machine γ}
    (h : (Machine.initial programs memories inPool).exec n before = some s) (i : Nat)
    (hi : (s.thread i).inPool = false) (fs : List Nat) (hpc : (s.thread i).pc = .waiting fs) :
    ∃ k : Nat, ∀ (steps : List Step) (s' : Machine γ), s.exec n steps = some s' →
      s'.pool.done = false → (∀ v < n, k ≤ steps.countP (ownStep v)) →
      ∀ gs, (s'.thread i).pc = .waiting gs → (∀ g ∈ gs, g ∈ fs) → ∃ s'',
        s'.exec n (List.replicate (gs.length + 1) (.get i)) = some s'' ∧
        (s''.thread i).pc = .idle ∧ (s''.thread i).memory = (s'.thread i).memory := by
  obtain ⟨_, rem, _, ht⟩ := inv_exec h
  have hti := ht i
  rw [ThreadInv, hpc] at hti
  have hlt : ∀ f ∈ fs, f < s.next := by
    obtain ⟨_, _, _, _, _, _, _, _, _, _, _, hlt⟩ := hti
    exact fun f hf => (hlt f hf).1
  have key : ∃ k : Nat, ∀ (steps : List Step) (s' : Machine γ), s.exec n steps = some s' →
      s'.pool.done = false → (∀ v < n, k ≤ steps.countP (ownStep v)) →
      ∀ f ∈ fs, s'.ready f = true := by
    clear hpc ht hti
    induction fs with
    | nil => exact ⟨0, by simp⟩
    | cons f fs ih =>
      obtain ⟨k1, h1⟩ := ih fun g hg => hlt g (List.mem_cons_of_mem _ hg)
      obtain ⟨k2, h2⟩ := C114_ready hn h f (hlt f (by simp))
      refine ⟨k1 + k2, fun steps s' he hd hk g hg => ?_⟩
      rcases List.mem_cons.1 hg with rfl | hg
      · exact h2 steps s' he hd fun v hv => by have := hk v hv; omega
      · exact h1 steps s' he hd (fun v hv => by have := hk v hv; omega) g hg
  obtain ⟨k, hk⟩ := key
  refine ⟨k, fun steps s' he hd hkk gs hpc' hgs => ?_⟩
  have hi' : (s'.thread i).inPool = false := by
    refine mexec_invariant (P := fun u => (u.thread i).inPool = false) ?_ hi he
    intro u l u' hu hs
    have key : ∀ (v : Machine γ) (j : Nat) (t : Thread γ), v.thread = u.thread →
        t.inPool = (u.thread j).inPool → ((v.setThread j t).thread i).inPool = false := by
      intro v j t hv ht
      by_cases hj : i = j
      · subst hj; rw [setThread_self, ht, hu]
      · rw [setThread_ne _ hj, hv, hu]
    cases hs with
    | start | finish | pool => exact hu
    | _ => exact key _ _ _ rfl rfl
  refine ⟨_, get_returns hi' gs hpc' fun g hg => hk steps s' he hd hkk g (hgs g hg), ?_, ?_⟩
  · rw [setThread_self]
  · rw [setThread_self]

/-- Nothing is stuck, if no task of the pool is itself a program that calls operations: a worker that
has not left can make a step, or it waits for the mutex and the worker that has the mutex can make
one; and a thread in an operation can make a step or waits for a task that has not returned. -/
theorem C114_enabled {n : Nat} {programs : Nat → List (Call γ)} {memories : Nat → List γ}
    {steps : List Step} {s : Machine γ}
    (h : (Machine.initial programs memories fun _ => false).exec n steps = some s)
    (hp : ∀ i, Plain (programs i)) :
    (∀ w < n, s.pool.pc w ≠ .exit → (∃ l s', ownStep w l = true ∧ s.step n l = some s') ∨
      ∃ v, v ≠ w ∧ s.pool.mutex = some v ∧ ∃ l s', ownStep v l = true ∧ s.step n l = some s') ∧
    (∀ i, (s.thread i).pc ≠ .idle → (∃ s', s.step n (.submit i) = some s') ∨
      (∃ s', s.step n (.get i) = some s') ∨
      ∃ f fs, (s.thread i).pc = .waiting (f :: fs) ∧ s.ready f = false) := by
  obtain ⟨hacts, htop, hmx⟩ := plain_exec hp h
  have hlk := (inv_exec h).1.lock
  have hpi := (inv_exec h).1
  constructor
  · intro w hw hx
    -- a step of the worker itself, if it is not waiting for something
    have own : ∀ v < n, s.pool.pc v ≠ .exit → s.pool.pc v ≠ .wait →
        (s.pool.pc v = .lock ∨ s.pool.pc v = .relock → s.pool.mutex = none) →
        ∃ l s', ownStep v l = true ∧ s.step n l = some s' := by
      intro v hv hvx hvw hvl
      have pool : ∀ p, s.pool.workerStep v = some p →
          (∀ t, s.pool.pc v ≠ .start t ∧ s.pool.pc v ≠ .run t) →
          ∃ l s', ownStep v l = true ∧ s.step n l = some s' := by
        intro p hp hne
        refine ⟨.pool (.worker v), { s with pool := p }, by simp [ownStep], ?_⟩
        simp only [Machine.step, Machine.poolStep]
        split
        · rename_i t ht
          exact absurd ht (hne t).2
        · rename_i t ht
          exact absurd ht (hne t).1
        · simp [Pool.step, hv, hp]
      cases hc : s.pool.pc v with
      | exit => exact absurd hc hvx
      | wait => exact absurd hc hvw
      | check => exact pool _ (by rw [Pool.workerStep, hc]) (by simp [hc])
      | pop =>
        cases hq : s.pool.queue with
        | nil => exact pool _ (by rw [Pool.workerStep, hc]; simp only; rw [hq]) (by simp [hc])
        | cons t q => exact pool _ (by rw [Pool.workerStep, hc]; simp only; rw [hq]) (by simp [hc])
      | lock =>
        exact pool _ (by rw [Pool.workerStep, hc]; simp only; rw [if_pos (hvl (.inl hc))])
          (by simp [hc])
      | relock =>
        exact pool _ (by rw [Pool.workerStep, hc]; simp only; rw [if_pos (hvl (.inr hc))])
          (by simp [hc])
      | recheck =>
        cases hd : s.pool.done with
        | true =>
          exact pool _ (by rw [Pool.workerStep, hc]; simp only; rw [if_pos hd]) (by simp [hc])
        | false =>
          exact pool _ (by rw [Pool.workerStep, hc]; simp only; rw [if_neg (by simp [hd])])
            (by simp [hc])
      | unlock => exact pool _ (by rw [Pool.workerStep, hc]) (by simp [hc])
      | start t =>
        refine ⟨.pool (.worker v), { s with
          pool := s.pool.gotoLog v (.run t) (.started v t)
          todo := Function.update s.todo v (s.work t).actions }, by simp [ownStep], ?_⟩
        · simp only [Machine.step, Machine.poolStep, hc]
          rw [Pool.step, if_pos hv, Pool.workerStep, hc]
          rfl
      | run t =>
        have ht : t < s.next := hpi.lt (.inr (.inr (.inl ⟨v, hv, hc⟩)))
        obtain ⟨i, l, hl⟩ := hacts t ht
        cases htd : s.todo v with
        | nil =>
          refine ⟨.pool (.worker v), { s with
            pool := s.pool.gotoLog v .check (.finished v t) }, by simp [ownStep], ?_⟩
          · simp only [Machine.step, Machine.poolStep, hc, Machine.taskEnded, hl, htd,
              List.isEmpty_nil, if_true]
            rw [Pool.step, if_pos hv, Pool.workerStep, hc]
            rfl
        | cons a as =>
          have hex : ∃ s', s.step n (.act v) = some s' := by
            simp only [Machine.step, Machine.act, hv, if_true, hc, hl, htd]
            exact ⟨_, rfl⟩
          exact ⟨.act v, hex.choose, by simp [ownStep], hex.choose_spec⟩
    by_cases hwt : s.pool.pc w = .wait
    · refine .inl ⟨.pool (.wake w), { s with pool := s.pool.goto w .relock }, by simp [ownStep], ?_⟩
      simp only [Machine.step, Machine.poolStep]
      rw [Pool.step, if_pos ⟨hw, rfl, hwt⟩]
      rfl
    · by_cases hl : s.pool.pc w = .lock ∨ s.pool.pc w = .relock
      · cases hm : s.pool.mutex with
        | none => exact .inl (own w hw hx hwt fun _ => hm)
        | some v =>
          have hvm := (hlk.1 v).1 hm
          refine .inr ⟨v, ?_, rfl, own v (hmx v hm) ?_ ?_ ?_⟩
          · rintro rfl
            rcases hvm with h | h <;> rcases hl with h' | h' <;> rw [h] at h' <;> cases h'
          · rcases hvm with h | h <;> rw [h] <;> simp
          · rcases hvm with h | h <;> rw [h] <;> simp
          · rintro (h' | h') <;> rcases hvm with h | h <;> rw [h] at h' <;> cases h'
      · exact .inl (own w hw hx hwt fun h => absurd h hl)
  · intro i hi
    have hac : s.active n i = true := by simp [Machine.active, htop i]
    cases hc : (s.thread i).pc with
    | idle => exact absurd hc hi
    | submitting fs ts =>
      refine .inl ?_
      cases ts with
      | nil => exact ⟨_, by simp only [Machine.step, hac, if_true, Machine.submitting, hc]; rfl⟩
      | cons t ts => exact ⟨_, by simp only [Machine.step, hac, if_true, Machine.submitting, hc]; rfl⟩
    | waiting fs =>
      cases fs with
      | nil => exact .inr (.inl ⟨_, by simp only [Machine.step, hac, if_true, Machine.get, hc]; rfl⟩)
      | cons f fs =>
        cases hr : s.ready f with
        | true =>
          exact .inr (.inl ⟨_, by simp only [Machine.step, hac, if_true, Machine.get, hc, hr]; rfl⟩)
        | false => exact .inr (.inr ⟨f, fs, rfl, hr⟩)

/-- An operation that adds to each of the elements: one task per element. -/
def exampleAdd (k : Int) : Call Int :=
  .operate (fun _ m => some ((List.range m.length).map (fun i => [⟨i, (· + k)⟩])))

/-- A worker's steps from looking for a task up to the end of a task with one action. -/
def exampleWork (w : Nat) : List Step :=
  [.pool (.worker w), .pool (.worker w), .pool (.worker w), .act w, .pool (.worker w)]

/-- Two threads, with data of their own. -/
def exampleStart : Machine Int :=
  Machine.initial (fun i => if i = 0 then [exampleAdd 1] else if i = 1 then [exampleAdd 10] else [])
    (fun i => if i = 0 then [1, 2] else [5]) fun _ => false

/-- Two threads and two workers, steps interleaved. -/
def exampleSteps : List Step :=
  [.call 0, .submit 0, .call 1, .submit 1, .submit 0, .submit 0, .submit 1] ++
    [.pool (.worker 0), .pool (.worker 1), .pool (.worker 0), .pool (.worker 1),
     .pool (.worker 0), .pool (.worker 1), .act 1, .act 0, .pool (.worker 1),
     .pool (.worker 0)] ++ [.get 0] ++ exampleWork 1 ++ [.get 1, .get 1, .get 0, .get 0]

/-- Both threads get their result. -/
example : ∃ s, exampleStart.exec 2 exampleSteps = some s ∧ Returned s 0 ∧ Returned s 1 ∧
    (s.thread 0).memory = some [2, 3] ∧ (s.thread 1).memory = some [15] := by
  have h : (exampleStart.exec 2 exampleSteps).map (fun s => ((s.thread 0).ended,
      (s.thread 1).ended, (s.thread 0).memory, (s.thread 1).memory)) =
      some (true, true, some [2, 3], some [15]) := by decide +kernel
  rw [Option.map_eq_some_iff] at h
  obtain ⟨s, h1, h2⟩ := h
  simp only [Prod.mk.injEq] at h2
  exact ⟨s, h1, ended_iff.1 h2.1, ended_iff.1 h2.2.1, h2.2.2.1, h2.2.2.2⟩

/-- The hypotheses of `C114_unary_1d` are met by the operations in the examples of C09. -/
example : ∀ u ∈ [(⟨exampleOp, .byMask [0, 1, 0] 1, .markMask, [-4, 7, 13]⟩ : Use Int Int),
    ⟨exampleOp, .skip, .markMask, [1, 2, 3]⟩], u.value.length = 3 ∧ PolicyFor u.inp 3 := by
  intro u hu
  simp only [List.mem_cons, List.not_mem_nil, or_false] at hu
  rcases hu with rfl | rfl
  · exact ⟨rfl, rfl⟩
  · exact ⟨rfl, trivial⟩

/-! ### Operations called from tasks -/

/-- When each worker executes a task that waits in an operation for a task that is queued, nothing
happens any more: no task is started or finished in any execution, and the operations do not
return. -/
theorem C114_occupied {n : Nat} {programs : Nat → List (Call γ)} {memories : Nat → List γ}
    {inPool : Nat → Bool} {before : List Step} {s : Machine γ}
    (h : (Machine.initial programs memories inPool).exec n before = some s)
    (ho : ∀ w < n, Occupied s w) (steps : List Step) (s' : Machine γ)
    (he : s.exec n steps = some s') : (∀ w < n, Occupied s' w) ∧
      Fern.Spec.started s'.pool.log = Fern.Spec.started s.pool.log ∧
      Fern.Spec.finished s'.pool.log = Fern.Spec.finished s.pool.log := by
  refine (mexec_invariant (P := fun u => PoolInv n u ∧ (∀ w < n, Occupied u w) ∧
    Fern.Spec.started u.pool.log = Fern.Spec.started s.pool.log ∧
    Fern.Spec.finished u.pool.log = Fern.Spec.finished s.pool.log) ?_
    ⟨(inv_exec h).1, ho, rfl, rfl⟩ he).2
  rintro u l u' ⟨hp, i1, i2, i3⟩ hs
  exact ⟨poolInv_step _ _ _ hp hs, occupied_step hp i1 i2 i3 hs⟩

/-- Thread 0 submits tasks that do what is in the programs of threads 1 up to `k`, and these call an
operation. -/
def exampleNested (k : Nat) : Machine Int :=
  Machine.initial (fun i => if i = 0 then (List.range k).map (fun j => .launch (j + 1)) else
    if i ≤ k then [exampleAdd 1] else []) (fun _ => [7]) fun i => decide (1 ≤ i)

/-- The state in which the first `a` programs have been submitted as tasks, workers up to `b` execute
them, and those of threads up to `c` wait in their operations. -/
structure NestedAt (n a b c : Nat) (s : Machine Int) : Prop where
  done : s.pool.done = false
  next : s.next = a + c
  queue : s.pool.queue = List.range' b (a + c - b)
  pc : ∀ w, s.pool.pc w = if w < b then .run w else .check
  work : ∀ t < a, s.work t = .program (t + 1)
  first : s.thread 0 = ⟨some [7], .idle, (List.range' a (n - a)).map fun j => .launch (j + 1), false⟩
  waiting : ∀ j, 1 ≤ j → j ≤ c → (s.thread j).pc = .waiting [n + j - 1]
  others : ∀ j, c < j → 1 ≤ j → s.thread j = ⟨some [7], .idle, if j ≤ n then [exampleAdd 1] else [], true⟩
  finished : Fern.Spec.finished s.pool.log = []

theorem nestedAt_initial (n : Nat) : NestedAt n 0 0 0 (exampleNested n) where
  done := rfl
  next := rfl
  queue := rfl
  pc := fun w => rfl
  work := fun t ht => absurd ht (by omega)
  first := by simp [exampleNested, Machine.initial, List.range_eq_range']
  waiting := fun j h1 h2 => by omega
  others := fun j h1 _ => by
    have h0 : j ≠ 0 := by omega
    have h2 : (1 ≤ j) = True := eq_true (by omega)
    simp [exampleNested, Machine.initial, h0, h2]
  finished := rfl

theorem nestedAt_launch {n a : Nat} {s : Machine Int} (h : NestedAt n a 0 0 s) (ha : a < n) :
    ∃ s', s.step n (.call 0) = some s' ∧ NestedAt n (a + 1) 0 0 s' := by
  have hr : List.range' a (n - a) = a :: List.range' (a + 1) (n - (a + 1)) := by
    rw [show n - a = (n - (a + 1)) + 1 by omega, List.range'_succ]
  have hf := h.first
  rw [hr] at hf
  simp only [Machine.step, Machine.active, Machine.call, hf, List.map_cons, Bool.not_false,
    Bool.true_or, if_true]
  refine ⟨_, rfl, ?_⟩
  constructor
  · exact h.done
  · simp only [Machine.setThread, Machine.submit, h.next]
  · simp only [Machine.setThread, Machine.submit, h.next, h.queue, Nat.sub_zero, Nat.add_zero]
    rw [List.range'_concat]; simp
  · exact h.pc
  · intro t ht
    simp only [Machine.setThread, Machine.submit, h.next]
    by_cases e : t = a
    · subst e; simp
    · rw [Function.update_of_ne (by omega)]; exact h.work t (by omega)
  · simp [Machine.setThread, Machine.submit]
  · intro j h1 h2; omega
  · intro j h1 h2
    simp only [Machine.setThread, Machine.submit]
    rw [Function.update_of_ne (by omega)]; exact h.others j h1 h2
  · simp only [Machine.setThread, Machine.submit, Fern.Spec.finished, List.filterMap_append]
    have := h.finished
    simp only [Fern.Spec.finished] at this
    rw [this]; rfl

theorem nestedAt_start {n b : Nat} {s : Machine Int} (h : NestedAt n n b 0 s) (hb : b < n) :
    ∃ s', s.exec n [.pool (.worker b), .pool (.worker b), .pool (.worker b)] = some s' ∧
      NestedAt n n (b + 1) 0 s' := by
  have hr : s.pool.queue = b :: List.range' (b + 1) (n + 0 - (b + 1)) := by
    rw [h.queue, show n + 0 - b = (n + 0 - (b + 1)) + 1 by omega, List.range'_succ]
  have hp := h.pc b
  rw [if_neg (by omega)] at hp
  simp only [Machine.exec, List.foldlM_cons, List.foldlM_nil, Machine.step, Machine.poolStep, hp,
    Pool.step, hb, if_true, Pool.workerStep, h.done, Option.map_some, Pool.goto, Pool.gotoLog,
    Option.bind_eq_bind, Option.bind_some, Function.update_self, hr, if_false, Bool.false_eq_true]
  refine ⟨_, rfl, ?_⟩
  constructor
  · rfl
  · exact h.next
  · rfl
  · intro w
    by_cases e : w = b
    · subst e; simp
    · simp only [Function.update_of_ne e, h.pc w]
      split <;> split <;> first | rfl | omega
  · exact h.work
  · exact h.first
  · exact h.waiting
  · exact h.others
  · have := h.finished
    simp only [Fern.Spec.finished, List.filterMap_append] at this ⊢
    rw [this]; rfl

theorem nestedAt_wait {n c : Nat} {s : Machine Int} (h : NestedAt n n n c s) (hc : c < n) :
    ∃ s', s.exec n [.call (c + 1), .submit (c + 1), .submit (c + 1)] = some s' ∧
      NestedAt n n n (c + 1) s' := by
  have ht := h.others (c + 1) (by omega) (by omega)
  rw [if_pos (by omega)] at ht
  have act : ∀ u : Machine Int, u.pool.pc = s.pool.pc → (∀ t < n, u.work t = s.work t) →
      u.active n (c + 1) = true := by
    intro u h1 h2
    simp only [Machine.active, Bool.or_eq_true, List.any_eq_true, List.mem_range]
    refine .inr ⟨c, hc, ?_⟩
    simp only [h1, h.pc c, if_pos hc, h2 c hc, h.work c hc, beq_self_eq_true]
  simp only [Machine.exec, List.foldlM_cons, List.foldlM_nil, Machine.step, act s rfl fun _ _ => rfl, if_true,
    Machine.call, ht, exampleAdd, Option.bind_eq_bind, Option.bind_some]
  rw [act (s.setThread _ _) rfl fun _ _ => rfl]
  simp only [if_true, Machine.submitting, Machine.setThread, Function.update_self, List.length_cons,
    List.length_nil, Nat.zero_add, List.range_one, List.map_cons, List.map_nil, Option.bind_some,
    List.nil_append]
  have act2 : ∀ u : Machine Int, u.pool.pc = s.pool.pc →
      (∃ w, u.work = Function.update s.work s.next w) → u.active n (c + 1) = true := by
    rintro u h1 ⟨w, h2⟩
    refine act u h1 fun t ht => ?_
    rw [h2, Function.update_of_ne (by rw [h.next]; omega)]
  rw [if_pos (by exact act2 _ rfl ⟨_, rfl⟩)]
  simp only [Option.bind_some]
  refine ⟨_, rfl, ?_⟩
  constructor
  · exact h.done
  · simp only [Machine.submit, h.next]; omega
  · simp only [Machine.submit, h.next, h.queue]
    rw [show n + (c + 1) - n = (n + c - n) + 1 by omega, List.range'_concat]; simp
  · exact h.pc
  · intro t ht
    simp only [Machine.submit, h.next]
    rw [Function.update_of_ne (by omega)]; exact h.work t ht
  · simp only [Machine.submit]
    rw [Function.update_of_ne (by omega), Function.update_of_ne (by omega), Function.update_of_ne (by omega)]
    exact h.first
  · intro j h1 h2
    by_cases e : j = c + 1
    · subst e
      simp only [Machine.submit, Function.update_self, h.next]
      rfl
    · simp only [Machine.submit, Function.update_of_ne e]; exact h.waiting j h1 (by omega)
  · intro j h1 h2
    have e : j ≠ c + 1 := by omega
    simp only [Machine.submit, Function.update_of_ne e]; exact h.others j (by omega) h2
  · have := h.finished
    simp only [Machine.submit, Fern.Spec.finished, List.filterMap_append] at this ⊢
    rw [this]; rfl

theorem exec_append {n : Nat} {s s' s'' : Machine Int} {l l' : List Step}
    (h : s.exec n l = some s') (h' : s'.exec n l' = some s'') : s.exec n (l ++ l') = some s'' := by
  simp only [Machine.exec, List.foldlM_append, Option.bind_eq_bind] at h h' ⊢
  rw [h]; exact h'

/-- For every number of workers there is an execution up to the state in which all workers wait. -/
theorem nestedAt_reached (n : Nat) : ∃ before s, (exampleNested n).exec n before = some s ∧
    NestedAt n n n n s := by
  have p1 : ∀ a ≤ n, ∃ before s, (exampleNested n).exec n before = some s ∧ NestedAt n a 0 0 s := by
    intro a
    induction a with
    | zero => exact fun _ => ⟨[], _, rfl, nestedAt_initial n⟩
    | succ a ih =>
      intro ha
      obtain ⟨l, s, h1, h2⟩ := ih (by omega)
      obtain ⟨s', h3, h4⟩ := nestedAt_launch h2 (by omega)
      exact ⟨l ++ [.call 0], s', exec_append h1 (by simp [Machine.exec, h3]), h4⟩
  have p2 : ∀ b ≤ n, ∃ before s, (exampleNested n).exec n before = some s ∧ NestedAt n n b 0 s := by
    intro b
    induction b with
    | zero => exact fun _ => p1 n (le_refl _)
    | succ b ih =>
      intro hb
      obtain ⟨l, s, h1, h2⟩ := ih (by omega)
      obtain ⟨s', h3, h4⟩ := nestedAt_start h2 (by omega)
      exact ⟨l ++ _, s', exec_append h1 h3, h4⟩
  have p3 : ∀ c ≤ n, ∃ before s, (exampleNested n).exec n before = some s ∧ NestedAt n n n c s := by
    intro c
    induction c with
    | zero => exact fun _ => p2 n (le_refl _)
    | succ c ih =>
      intro hc
      obtain ⟨l, s, h1, h2⟩ := ih (by omega)
      obtain ⟨s', h3, h4⟩ := nestedAt_wait h2 (by omega)
      exact ⟨l ++ _, s', exec_append h1 h3, h4⟩
  exact p3 n (le_refl _)

/-- So operations called from tasks of the same pool may never return, whatever the number of
workers: with as many such tasks as workers, each waits for a task that is queued behind them. -/
theorem C114_nested (n : Nat) : ∃ (before : List Step) (s : Machine Int),
    (exampleNested n).exec n before = some s ∧
    (∀ j, 1 ≤ j → j ≤ n → (s.thread j).pc = .waiting [n + j - 1]) ∧
    ∀ steps s', s.exec n steps = some s' →
      (∀ j, 1 ≤ j → j ≤ n → (s'.thread j).pc = .waiting [n + j - 1] ∧ ¬Returned s' j) ∧
      ∀ t, s'.ready t = false := by
  obtain ⟨l, s, h1, h2⟩ := nestedAt_reached n
  refine ⟨l, s, h1, h2.waiting, fun steps s' he => ?_⟩
  have a1 : ∀ w < n, s.pool.pc w = .run w := fun w hw => by rw [h2.pc w, if_pos hw]
  have ho : ∀ w < n, Occupied s w := by
    intro w hw
    refine ⟨w, w + 1, n + (w + 1) - 1, [], a1 w hw, h2.work w hw, h2.waiting (w + 1) (by omega) (by omega), ?_⟩
    rw [h2.queue, List.mem_range']
    exact ⟨w, by omega, by omega⟩
  obtain ⟨o1, o2, o3⟩ := C114_occupied h1 ho steps s' he
  have hf : ∀ t, s'.ready t = false := by
    intro t
    cases hr : s'.ready t with
    | false => rfl
    | true =>
      have := ready_iff.1 hr
      rw [o3, h2.finished] at this
      cases this
  refine ⟨fun j j1 j2 => ?_, hf⟩
  -- the threads remain where they are
  have hp : PoolInv n s := (inv_exec h1).1
  have hw : (s'.thread j).pc = .waiting [n + j - 1] := by
    have e : j - 1 + 1 = j := by omega
    refine (mexec_invariant (P := fun u => PoolInv n u ∧ (∀ w < n, Occupied u w) ∧
      u.pool.pc (j - 1) = .run (j - 1) ∧ u.work (j - 1) = .program j ∧
      (u.thread j).pc = .waiting [n + j - 1])
      ?_ ⟨hp, ho, a1 (j - 1) (by omega), by rw [h2.work (j - 1) (by omega), e],
        h2.waiting j j1 j2⟩ he).2.2.2.2
    rintro u l u' ⟨i1, i2, i3, i4, i5⟩ hs
    have keep := occupied_keeps i1 i2 hs (show j - 1 < n by omega) i3 i4
    exact ⟨poolInv_step _ _ _ i1 hs, (occupied_step i1 i2 rfl rfl hs).1, keep.1, keep.2.1,
      keep.2.2.trans i5⟩
  refine ⟨hw, fun hret => ?_⟩
  rw [hret.1] at hw
  cases hw

/-- With two workers, another order of the steps. -/
example : ∃ before s, (exampleNested 2).exec 2 before = some s ∧ ∀ w < 2, Occupied s w := by
  have h : ((exampleNested 2).exec 2 [.call 0, .call 0, .pool (.worker 0), .pool (.worker 1),
      .pool (.worker 0), .pool (.worker 1), .pool (.worker 0), .pool (.worker 1), .call 1,
      .submit 1, .submit 1, .call 2, .submit 2, .submit 2]).map (fun s =>
      ((s.pool.pc 0, isProgram (s.work 0) 1, isWaiting (s.thread 1).pc [2]), (s.pool.pc 1,
        isProgram (s.work 1) 2, isWaiting (s.thread 2).pc [3]), s.pool.queue)) =
      some ((.run 0, true, true), (.run 1, true, true), [2, 3]) := by decide +kernel
  rw [Option.map_eq_some_iff] at h
  obtain ⟨s, h1, h2⟩ := h
  simp only [Prod.mk.injEq] at h2
  obtain ⟨⟨a1, a2, a3⟩, ⟨b1, b2, b3⟩, a4⟩ := h2
  refine ⟨_, s, h1, fun w hw => ?_⟩
  rcases (by omega : w = 0 ∨ w = 1) with rfl | rfl
  · exact ⟨0, 1, 2, [], a1, isProgram_iff.1 a2, isWaiting_iff.1 a3, by rw [a4]; simp⟩
  · exact ⟨1, 2, 3, [], b1, isProgram_iff.1 b2, isWaiting_iff.1 b3, by rw [a4]; simp⟩

end Fern.PoolRun
