import Verif.Lemmas.Loop
import Verif.Spec.LocalOps
/-
Lemmas about local operations.
-/
namespace Fern

variable {A V R γ : Type}

@[simp] theorem assert'_true : assert' true = some () := rfl
@[simp] theorem assert'_false : assert' false = none := rfl

theorem elemStep_pointwise {acts : Nat → Option (List (γ → γ))} {acts' : Nat → List (γ → γ)} {n : Nat}
    (h : ∀ i < n, acts i = some (acts' i)) :
    Pointwise (elemStep acts) (fun i => foldActs (acts' i)) n := by
  intro i s hi hs
  simp only [elemStep, h i hi]
  exact runActs_elem i (acts' i) s (by omega)

theorem seq1d_eq {acts : Nat → Option (List (γ → γ))} {acts' : Nat → List (γ → γ)} {n : Nat}
    (h : ∀ i < n, acts i = some (acts' i)) (s : List γ) (hs : s.length = n) :
    seq1d acts n s = some (s.mapIdx (fun i => foldActs (acts' i))) := by
  have := pointwise_loop_range (elemStep_pointwise h) s hs
  simpa [seq1d, loop1d, IndexRange.indices, List.range_eq_range'] using this

theorem seq2d_loop (acts : Nat → Option (List (γ → γ))) (n1 n2 : Nat) (s : List γ) :
    seq2d acts n1 n2 n2 s = forIn' (List.range (n1 * n2)) (elemStep acts) s := by
  unfold seq2d
  rw [loop2d_eq, cells2d_all]

theorem seq1d_loop (acts : Nat → Option (List (γ → γ))) (n : Nat) (s : List γ) :
    seq1d acts n s = forIn' (List.range n) (elemStep acts) s := by
  simp [seq1d, loop1d, IndexRange.indices, List.range_eq_range']

/-- For each position, the loop's body is well defined and establishes `P`. -/
def ActsOk (acts : Nat → Option (List (γ → γ))) (P : Nat → γ → γ → Prop) (n : Nat) : Prop :=
  ∀ i < n, ∃ fs, acts i = some fs ∧ ∀ c, P i c (foldActs fs c)

theorem ActsOk.choose {acts : Nat → Option (List (γ → γ))} {P : Nat → γ → γ → Prop} {n : Nat}
    (h : ActsOk acts P n) : ∃ acts' : Nat → List (γ → γ),
      (∀ i < n, acts i = some (acts' i)) ∧ ∀ i < n, ∀ c, P i c (foldActs (acts' i) c) := by
  refine ⟨fun i => (acts i).getD [], fun i hi => ?_, fun i hi c => ?_⟩
  · obtain ⟨fs, hfs, _⟩ := h i hi; simp [hfs]
  · obtain ⟨fs, hfs, hc⟩ := h i hi; simpa [hfs] using hc c

theorem elementwise_mapIdx {P : Nat → γ → γ → Prop} {n : Nat} {F : Nat → γ → γ}
    (h : ∀ i < n, ∀ c, P i c (F i c)) (s : List γ) (hs : s.length = n) :
    Spec.Elementwise P s (s.mapIdx F) := by
  refine ⟨by simp, fun i c hc => ⟨F i c, by simp [hc], h i ?_ c⟩⟩
  have := (List.getElem?_eq_some_iff.mp hc).1
  omega

theorem seqRange_spec {acts : Nat → Option (List (γ → γ))} {P : Nat → γ → γ → Prop} {n : Nat}
    (h : ActsOk acts P n) (s : List γ) (hs : s.length = n) :
    ∃ out, forIn' (List.range n) (elemStep acts) s = some out ∧ Spec.Elementwise P s out := by
  obtain ⟨acts', ha, hP⟩ := h.choose
  exact ⟨_, pointwise_loop_range (elemStep_pointwise ha) s hs, elementwise_mapIdx hP s hs⟩

theorem parRange_eq {acts : Nat → Option (List (γ → γ))} {P : Nat → γ → γ → Prop} {n : Nat}
    (h : ActsOk acts P n) {blocks : List (List Nat)} (hb : blocks.flatten = List.range n)
    (s : List γ) (hs : s.length = n) (o : Option (List γ))
    (ho : ParResult (parTasks acts blocks) s o) :
    o = forIn' (List.range n) (elemStep acts) s := by
  obtain ⟨acts', ha, _⟩ := h.choose
  exact parResult_eq (elemStep_pointwise ha) ha hb s hs o ho

theorem par1d_eq {acts : Nat → Option (List (γ → γ))} {P : Nat → γ → γ → Prop} {n t : Nat}
    (h : ActsOk acts P n) (ht : 1 ≤ t) (s : List γ) (hs : s.length = n) (o : Option (List γ))
    (ho : ParResult ((blocks1d t n).bind (parTasks acts)) s o) :
    o = seq1d acts n s := by
  obtain ⟨blocks, hb⟩ := blocks1d_isSome ht n
  rw [hb] at ho
  rw [seq1d_loop]
  exact parRange_eq h (blocks1d_flatten hb) s hs o ho

theorem par2d_eq {acts : Nat → Option (List (γ → γ))} {P : Nat → γ → γ → Prop} {n1 n2 t : Nat}
    (h : ActsOk acts P (n1 * n2)) (ht : 1 ≤ t) (s : List γ) (hs : s.length = n1 * n2)
    (o : Option (List γ)) (ho : ParResult ((blocks2d t n1 n2 n2).bind (parTasks acts)) s o) :
    o = seq2d acts n1 n2 n2 s := by
  obtain ⟨blocks, hb⟩ := blocks2d_isSome ht n1 n2 n2
  rw [hb] at ho
  rw [seq2d_loop]
  exact parRange_eq h (blocks2d_flatten hb) s hs o ho

theorem seq1d_spec {acts : Nat → Option (List (γ → γ))} {P : Nat → γ → γ → Prop} {n : Nat}
    (h : ActsOk acts P n) (s : List γ) (hs : s.length = n) :
    ∃ out, seq1d acts n s = some out ∧ Spec.Elementwise P s out := by
  rw [seq1d_loop]; exact seqRange_spec h s hs

theorem seq2d_spec {acts : Nat → Option (List (γ → γ))} {P : Nat → γ → γ → Prop} {n1 n2 : Nat}
    (h : ActsOk acts P (n1 * n2)) (s : List γ) (hs : s.length = n1 * n2) :
    ∃ out, seq2d acts n1 n2 n2 s = some out ∧ Spec.Elementwise P s out := by
  rw [seq2d_loop]; exact seqRange_spec h s hs

/-- Policies agree with their specification. -/
theorem isNoData_spec {p : InPolicy V} {vals : List V} {n i : Nat} (hp : Spec.PolicyFor p n)
    (hv : vals.length = n) (hi : i < n) :
    ∃ b, p.isNoData vals i = some b ∧ (b = true ↔ Spec.NoDataAt p vals i) := by
  cases p with
  | skip => exact ⟨false, rfl, by simp [Spec.NoDataAt]⟩
  | all => exact ⟨true, rfl, by simp [Spec.NoDataAt]⟩
  | detect f =>
    have h : i < vals.length := by omega
    exact ⟨f vals[i], by simp [InPolicy.isNoData, h], by simp [Spec.NoDataAt, h]⟩
  | byMask m x =>
    have h : i < m.length := by have : m.length = n := hp; omega
    exact ⟨decide (m[i] = x), by simp [InPolicy.isNoData, h], by simp [Spec.NoDataAt, h]⟩

theorem isNoData0_spec {p : InPolicy V} {v : V} (hp : Spec.PolicyFor p 1) :
    ∃ b, p.isNoData0 v = some b ∧ (b = true ↔ Spec.NoDataAt p [v] 0) :=
  isNoData_spec hp rfl (by omega)

theorem mark_spec (p : OutPolicy R) (c : Cell R) : Spec.Marked p c (p.mark c) := by
  cases p <;> simp [Spec.Marked, OutPolicy.mark]

theorem mark_localCell {op : LocalOp A R} {outp : OutPolicy R} {nd : Prop} {a : A}
    (h : nd) (c : Cell R) : Spec.LocalCell op outp nd a c (foldActs [outp.mark] c) :=
  ⟨fun _ => mark_spec _ _, fun hn => absurd h hn, fun hn => absurd h hn, fun hn => absurd h hn⟩

theorem valueActs_localCell {op : LocalOp A R} {outp : OutPolicy R} {nd : Prop} {a : A}
    (h : ¬ nd) (c : Cell R) : Spec.LocalCell op outp nd a c (foldActs (valueActs op outp a) c) := by
  refine ⟨fun hn => absurd hn h, fun _ hd => ?_, fun _ hd hr => ?_, fun _ hd hr => ?_⟩
  · simpa [valueActs, hd, foldActs] using mark_spec outp c
  · simp [valueActs, hd, foldActs, storeAct, rangeAct, hr]
  · simpa [valueActs, hd, foldActs, storeAct, rangeAct, hr] using
      mark_spec outp ⟨op.compute a, c.masked⟩

/-- The shape of all loop bodies. -/
theorem localActs_ok {op : LocalOp A R} {outp : OutPolicy R} {nd : Prop} {a : A} {b : Bool}
    (hb : b = true ↔ nd) (c : Cell R) :
    Spec.LocalCell op outp nd a c
      (foldActs (if b then [outp.mark] else valueActs op outp a) c) := by
  cases b with
  | true => exact mark_localCell (hb.mp rfl) c
  | false => exact valueActs_localCell (fun h => by simpa using hb.mpr h) c

end Fern
namespace Fern

variable {A V V1 V2 R γ P : Type}

theorem parResult_exists (tasks : Option (List (List (Act γ)))) (s : List γ) :
    ∃ o, ParResult tasks s o := by
  cases tasks with
  | none => exact ⟨none, rfl⟩
  | some ts => exact ⟨_, _, Interleave.sequential ts, rfl⟩

theorem parResult_iff {tasks : Option (List (List (Act γ)))} {s : List γ} {r : Option (List γ)}
    (h : ∀ o, ParResult tasks s o → o = r) (o : Option (List γ)) : ParResult tasks s o ↔ o = r := by
  refine ⟨h o, fun ho => ?_⟩
  obtain ⟨o', ho'⟩ := parResult_exists tasks s
  rwa [ho, ← h o' ho']

theorem par1d_iff {acts : Nat → Option (List (γ → γ))} {P : Nat → γ → γ → Prop} {n t : Nat}
    (h : ActsOk acts P n) (ht : 1 ≤ t) (s : List γ) (hs : s.length = n) (o : Option (List γ)) :
    ParResult ((blocks1d t n).bind (parTasks acts)) s o ↔ o = seq1d acts n s :=
  parResult_iff (par1d_eq h ht s hs) o

theorem par2d_iff {acts : Nat → Option (List (γ → γ))} {P : Nat → γ → γ → Prop} {n1 n2 t : Nat}
    (h : ActsOk acts P (n1 * n2)) (ht : 1 ≤ t) (s : List γ) (hs : s.length = n1 * n2)
    (o : Option (List γ)) :
    ParResult ((blocks2d t n1 n2 n2).bind (parTasks acts)) s o ↔ o = seq2d acts n1 n2 n2 s :=
  parResult_iff (par2d_eq h ht s hs) o

/-! The loop bodies. -/

theorem unaryActs_ok (op : LocalOp V R) {inp : InPolicy V} (outp : OutPolicy R) {value : List V} {n : Nat}
    (hv : value.length = n) (hp : Spec.PolicyFor inp n) :
    ActsOk (unaryActs op inp outp value) (fun i c c' => ∀ v, value[i]? = some v →
      Spec.LocalCell op outp (Spec.NoDataAt inp value i) v c c') n := by
  intro i hi
  obtain ⟨b, hb, hnd⟩ := isNoData_spec hp hv hi
  have hiv : i < value.length := by omega
  refine ⟨if b then [outp.mark] else valueActs op outp value[i], ?_, fun c v hv' => ?_⟩
  · unfold unaryActs
    cases b <;> simp [hb, hiv]
  · have : v = value[i] := by simpa [hiv] using hv'.symm
    subst this
    exact localActs_ok hnd c

theorem nullaryActs_ok (r : R) (outp : OutPolicy R) {inp : InPolicy P} {pvals : List P} {n : Nat}
    (hv : pvals.length = n) (hp : Spec.PolicyFor inp n) :
    ActsOk (nullaryActs r outp inp pvals) (fun i c c' =>
      (Spec.NoDataAt inp pvals i → Spec.Marked outp c c') ∧
      (¬ Spec.NoDataAt inp pvals i → c' = ⟨r, c.masked⟩)) n := by
  intro i hi
  obtain ⟨b, hb, hnd⟩ := isNoData_spec hp hv hi
  refine ⟨if b then [outp.mark] else [storeAct r], ?_, fun c => ?_⟩
  · unfold nullaryActs
    cases b <;> simp [hb]
  · beta_reduce
    rw [← hnd]
    cases b <;> simp [foldActs, storeAct, mark_spec]

theorem disaggregateActs_ok (op : LocalOp V R) (outp : OutPolicy R) {inp : InPolicy V} {v : V}
    {b : Bool} (hnd : b = true ↔ Spec.NoDataAt inp [v] 0) (n : Nat) :
    ActsOk (disaggregateActs op outp b v) (fun _ c c' =>
      Spec.LocalCell op outp (Spec.NoDataAt inp [v] 0) v c c') n := by
  intro i hi
  refine ⟨if b then [outp.mark] else valueActs op outp v, ?_, fun c => localActs_ok hnd c⟩
  unfold disaggregateActs
  cases b <;> simp

theorem binaryArr0dActs_ok (op : LocalOp (V1 × V2) R) (outp : OutPolicy R) {in1 : InPolicy V1}
    {in2 : InPolicy V2} {value1 : List V1} {v2 : V2} {b : Bool} {n : Nat}
    (hv : value1.length = n) (hp : Spec.PolicyFor in1 n)
    (hnd2 : b = true ↔ Spec.NoDataAt in2 [v2] 0) :
    ActsOk (binaryArr0dActs op in1 outp b value1 v2) (fun i c c' => ∀ v1, value1[i]? = some v1 →
      Spec.LocalCell op outp (Spec.NoDataAt in1 value1 i ∨ Spec.NoDataAt in2 [v2] 0) (v1, v2) c c')
      n := by
  intro i hi
  obtain ⟨b1, hb1, hnd1⟩ := isNoData_spec hp hv hi
  have hiv : i < value1.length := by omega
  refine ⟨if b1 || b then [outp.mark] else valueActs op outp (value1[i], v2), ?_,
    fun c v1 hv1 => ?_⟩
  · unfold binaryArr0dActs
    cases b <;> cases b1 <;> simp [hb1, hiv]
  · have : v1 = value1[i] := by simpa [hiv] using hv1.symm
    subst this
    exact localActs_ok (by rw [← hnd1, ← hnd2]; simp) c

theorem binary0dArrActs_ok (op : LocalOp (V1 × V2) R) (outp : OutPolicy R) {in1 : InPolicy V1}
    {in2 : InPolicy V2} {v1 : V1} {value2 : List V2} {b : Bool} {n : Nat}
    (hv : value2.length = n) (hp : Spec.PolicyFor in2 n)
    (hnd1 : b = true ↔ Spec.NoDataAt in1 [v1] 0) :
    ActsOk (binary0dArrActs op in2 outp b v1 value2) (fun i c c' => ∀ v2, value2[i]? = some v2 →
      Spec.LocalCell op outp (Spec.NoDataAt in1 [v1] 0 ∨ Spec.NoDataAt in2 value2 i) (v1, v2) c c')
      n := by
  intro i hi
  obtain ⟨b2, hb2, hnd2⟩ := isNoData_spec hp hv hi
  have hiv : i < value2.length := by omega
  refine ⟨if b || b2 then [outp.mark] else valueActs op outp (v1, value2[i]), ?_,
    fun c v2 hv2 => ?_⟩
  · unfold binary0dArrActs
    cases b <;> cases b2 <;> simp [hb2, hiv]
  · have : v2 = value2[i] := by simpa [hiv] using hv2.symm
    subst this
    exact localActs_ok (by rw [← hnd1, ← hnd2]; simp) c

theorem binary0d1dActs_ok (op : LocalOp (V1 × V1) R) (conv : V2 → V1) (outp : OutPolicy R)
    {in1 : InPolicy V1} {in2 : InPolicy V2} {v1 : V1} {value2 : List V2} {b : Bool} {n : Nat}
    (hv : value2.length = n) (hp : Spec.PolicyFor in2 n)
    (hnd1 : b = true ↔ Spec.NoDataAt in1 [v1] 0) :
    ActsOk (binary0d1dActs op conv in2 outp b v1 value2) (fun i c c' => ∀ v2, value2[i]? = some v2 →
      Spec.LocalCell op outp (Spec.NoDataAt in1 [v1] 0 ∨ Spec.NoDataAt in2 value2 i) (v1, conv v2)
        c c') n := by
  intro i hi
  obtain ⟨b2, hb2, hnd2⟩ := isNoData_spec hp hv hi
  have hiv : i < value2.length := by omega
  refine ⟨if b || b2 then [outp.mark] else valueActs op outp (v1, conv value2[i]), ?_,
    fun c v2 hv2 => ?_⟩
  · unfold binary0d1dActs
    cases b <;> cases b2 <;> simp [hb2, hiv]
  · have : v2 = value2[i] := by simpa [hiv] using hv2.symm
    subst this
    exact localActs_ok (by rw [← hnd1, ← hnd2]; simp) c

theorem binary1d1dActs_ok (op : LocalOp (V1 × V1) R) (conv : V2 → V1) (outp : OutPolicy R)
    {in1 : InPolicy V1} {in2 : InPolicy V2} {value1 : List V1} {value2 : List V2} {n : Nat}
    (hv1 : value1.length = n) (hp1 : Spec.PolicyFor in1 n)
    (hv2 : value2.length = n) (hp2 : Spec.PolicyFor in2 n) :
    ActsOk (binary1d1dActs op conv in1 in2 outp value1 value2) (fun i c c' =>
      ∀ v1 v2, value1[i]? = some v1 → value2[i]? = some v2 →
      Spec.LocalCell op outp (Spec.NoDataAt in1 value1 i ∨ Spec.NoDataAt in2 value2 i) (v1, conv v2)
        c c') n := by
  intro i hi
  obtain ⟨b1, hb1, hnd1⟩ := isNoData_spec hp1 hv1 hi
  obtain ⟨b2, hb2, hnd2⟩ := isNoData_spec hp2 hv2 hi
  have hi1 : i < value1.length := by omega
  have hi2 : i < value2.length := by omega
  refine ⟨if b1 || b2 then [outp.mark] else valueActs op outp (value1[i], conv value2[i]), ?_,
    fun c v1 v2 h1 h2 => ?_⟩
  · unfold binary1d1dActs
    cases b1 <;> cases b2 <;> simp [hb1, hb2, hi1, hi2]
  · have : v1 = value1[i] := by simpa [hi1] using h1.symm
    subst this
    have : v2 = value2[i] := by simpa [hi2] using h2.symm
    subst this
    exact localActs_ok (by rw [← hnd1, ← hnd2]; simp) c

theorem binary2d2dActs_ok (op : LocalOp (V1 × V2) R) (outp : OutPolicy R)
    {in1 : InPolicy V1} {in2 : InPolicy V2} {value1 : List V1} {value2 : List V2} {n : Nat}
    (hv1 : value1.length = n) (hp1 : Spec.PolicyFor in1 n)
    (hv2 : value2.length = n) (hp2 : Spec.PolicyFor in2 n) :
    ActsOk (binary2d2dActs op in1 in2 outp value1 value2) (fun i c c' =>
      ∀ v1 v2, value1[i]? = some v1 → value2[i]? = some v2 →
      Spec.LocalCell op outp (Spec.NoDataAt in1 value1 i ∨ Spec.NoDataAt in2 value2 i) (v1, v2)
        c c') n := by
  intro i hi
  obtain ⟨b1, hb1, hnd1⟩ := isNoData_spec hp1 hv1 hi
  obtain ⟨b2, hb2, hnd2⟩ := isNoData_spec hp2 hv2 hi
  have hi1 : i < value1.length := by omega
  have hi2 : i < value2.length := by omega
  refine ⟨if b1 || b2 then [outp.mark] else valueActs op outp (value1[i], value2[i]), ?_,
    fun c v1 v2 h1 h2 => ?_⟩
  · unfold binary2d2dActs
    cases b1 <;> cases b2 <;> simp [hb1, hb2, hi1, hi2]
  · have : v1 = value1[i] := by simpa [hi1] using h1.symm
    subst this
    have : v2 = value2[i] := by simpa [hi2] using h2.symm
    subst this
    exact localActs_ok (by rw [← hnd1, ← hnd2]; simp) c

end Fern
namespace Fern

variable {γ : Type}

theorem taskActs_idx {acts : Nat → Option (List (γ → γ))} {l : List Nat} {task : List (Act γ)}
    (h : taskActs acts l = some task) {a : Act γ} (ha : a ∈ task) : a.idx ∈ l := by
  induction l generalizing task with
  | nil =>
    have : task = [] := by simpa [taskActs, eq_comm] using h
    simp [this] at ha
  | cons i l ih =>
    unfold taskActs at h ih
    rw [List.mapM_cons] at h
    cases hi : acts i with
    | none => simp [hi] at h
    | some fs =>
      cases hl : l.mapM (fun i => (acts i).map (fun fs => fs.map (Act.mk i))) with
      | none => simp [hi, hl] at h
      | some ls =>
        simp [hi, hl] at h
        subst h
        rcases List.mem_append.mp ha with ha | ha
        · obtain ⟨f, _, rfl⟩ := List.mem_map.mp ha
          simp
        · exact List.mem_cons_of_mem _ (ih (by rw [hl]; rfl) ha)

theorem parTasks_get {acts : Nat → Option (List (γ → γ))} {blocks : List (List Nat)}
    {tasks : List (List (Act γ))} (h : parTasks acts blocks = some tasks) :
    tasks.length = blocks.length ∧ ∀ p (hp : p < tasks.length) (hb : p < blocks.length),
      taskActs acts blocks[p] = some tasks[p] := by
  unfold parTasks at h
  induction blocks generalizing tasks with
  | nil =>
    have : tasks = [] := by simpa [eq_comm] using h
    subst this
    simp
  | cons b bs ih =>
    rw [List.mapM_cons] at h
    cases hb : taskActs acts b with
    | none => simp [hb] at h
    | some t =>
      cases hbs : bs.mapM (taskActs acts) with
      | none => simp [hb, hbs] at h
      | some ts =>
        simp [hb, hbs] at h
        subst h
        obtain ⟨hlen, hget⟩ := ih hbs
        refine ⟨by simp [hlen], fun p hp hp' => ?_⟩
        cases p with
        | zero => simpa using hb
        | succ p => simpa using hget p (by simpa using hp) (by simpa using hp')

theorem nodup_flatten_disjoint {α : Type} {ls : List (List α)} (h : ls.flatten.Nodup) {p q : Nat}
    (hp : p < ls.length) (hq : q < ls.length) (hpq : p ≠ q) {x y : α} (hx : x ∈ ls[p])
    (hy : y ∈ ls[q]) : x ≠ y := by
  have hpw := (List.nodup_flatten.mp h).2
  rintro rfl
  rcases Nat.lt_or_gt_of_ne hpq with hlt | hlt
  · exact (List.pairwise_iff_getElem.mp hpw p q hp hq hlt) hx hy
  · exact (List.pairwise_iff_getElem.mp hpw q p hq hp hlt) hy hx

theorem parTasks_footprint {acts : Nat → Option (List (γ → γ))} {blocks : List (List Nat)}
    {tasks : List (List (Act γ))} {n : Nat} (hb : blocks.flatten = List.range n)
    (h : parTasks acts blocks = some tasks) :
    (∀ task ∈ tasks, ∀ a ∈ task, a.idx < n) ∧
    ∀ p q (hp : p < tasks.length) (hq : q < tasks.length), p ≠ q →
      ∀ a ∈ tasks[p], ∀ b ∈ tasks[q], a.idx ≠ b.idx := by
  obtain ⟨hlen, hget⟩ := parTasks_get h
  constructor
  · intro task ht a ha
    obtain ⟨p, hp, rfl⟩ := List.getElem_of_mem ht
    have hm := taskActs_idx (hget p hp (by omega)) ha
    have : a.idx ∈ blocks.flatten := List.mem_flatten.mpr ⟨_, List.getElem_mem _, hm⟩
    simpa [hb] using this
  · intro p q hp hq hpq a ha b hb'
    exact nodup_flatten_disjoint (by rw [hb]; exact List.nodup_range) (by omega) (by omega) hpq
      (taskActs_idx (hget p hp (by omega)) ha) (taskActs_idx (hget q hq (by omega)) hb')

end Fern
