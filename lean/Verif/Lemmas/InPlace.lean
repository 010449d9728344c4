import Verif.Model.InPlace
import Verif.Lemmas.LocalOps
import Verif.Spec.InPlace
/-
Lemmas about operations that write into one of their arguments.
-/
namespace Fern

variable {V γ : Type}

/-- The body of the loop, at the positions of an array of size `n`, depends on the element at that
position only. -/
def OwnLocal (acts : List γ → Nat → Option (List (γ → γ))) (n : Nat) : Prop :=
  ∃ A : Nat → γ → List (γ → γ), ∀ (s : List γ) (i : Nat) (c : γ), i < n → s.length = n →
    s[i]? = some c → acts s i = some (A i c)

theorem ownStep_pointwise {acts : List γ → Nat → Option (List (γ → γ))} {A : Nat → γ → List (γ → γ)}
    {n : Nat} (h : ∀ (s : List γ) (i : Nat) (c : γ), i < n → s.length = n → s[i]? = some c →
      acts s i = some (A i c)) :
    Pointwise (ownStep acts) (fun i c => foldActs (A i c) c) n := by
  intro i s hi hs
  have hi' : i < s.length := by omega
  simp only [ownStep, h s i s[i] hi hs (List.getElem?_eq_getElem hi')]
  refine (runActs_elem i (A i s[i]) s hi').trans ?_
  congr 1
  apply List.ext_getElem
  · simp
  · intro k h1 h2
    simp only [List.getElem_modify]
    by_cases hk : i = k
    · subst hk; simp
    · simp [hk]

/-- The loop with the state, and the loop with the state at its start. -/
theorem own_loop_eq {acts : List γ → Nat → Option (List (γ → γ))} {n : Nat}
    (h : OwnLocal acts n) (l : List Nat) (hl : l.Perm (List.range n)) (s : List γ)
    (hs : s.length = n) :
    forIn' l (ownStep acts) s = forIn' (List.range n) (elemStep (acts s)) s := by
  obtain ⟨A, hA⟩ := h
  have hmem : ∀ i ∈ l, i < n := fun i hi => by simpa using hl.subset hi
  have hnd : l.Nodup := hl.nodup_iff.2 List.nodup_range
  rw [pointwise_loop (ownStep_pointwise hA) l hmem hnd s hs]
  have hacts : ∀ i < n, acts s i = some ((s[i]?.map (A i)).getD []) := by
    intro i hi
    have hi' : i < s.length := by omega
    rw [hA s i s[i] hi hs (List.getElem?_eq_getElem hi')]
    simp [hi']
  rw [pointwise_loop_range (elemStep_pointwise hacts) s hs]
  congr 1
  apply List.ext_getElem
  · simp
  · intro k h1 h2
    have hk : k < n := by simpa [hs] using h1
    have hkl : k ∈ l := hl.symm.subset (by simpa using hk)
    have hks : k < s.length := by omega
    simp [hkl, hks]

theorem ownSeq1d_eq {acts : List γ → Nat → Option (List (γ → γ))} {n : Nat}
    (h : OwnLocal acts n) (s : List γ) (hs : s.length = n) :
    ownSeq1d acts n s = seq1d (acts s) n s := by
  rw [seq1d_loop, ← own_loop_eq h _ (List.Perm.refl _) s hs]
  simp [ownSeq1d, loop1d, IndexRange.indices, List.range_eq_range']

theorem ownSeq2d_eq {acts : List γ → Nat → Option (List (γ → γ))} {n1 n2 : Nat}
    (h : OwnLocal acts (n1 * n2)) (s : List γ) (hs : s.length = n1 * n2) :
    ownSeq2d acts n1 n2 n2 s = seq2d (acts s) n1 n2 n2 s := by
  rw [seq2d_loop, ← own_loop_eq h _ (List.Perm.refl _) s hs, ownSeq2d, loop2d_eq, cells2d_all]

theorem ownPar_iff {acts : List γ → Nat → Option (List (γ → γ))} {n : Nat}
    (h : OwnLocal acts n) (s : List γ) (hs : s.length = n) {blocks : List (List Nat)}
    (hb : blocks.flatten = List.range n) (o : Option (List γ)) :
    OwnParResult acts (some blocks) s o ↔
      o = forIn' (List.range n) (elemStep (acts s)) s := by
  constructor
  · rintro ⟨l, hl, rfl⟩
    exact own_loop_eq h l (hb ▸ hl.perm) s hs
  · rintro rfl
    exact ⟨_, Interleave.sequential _, own_loop_eq h _ (hb ▸ List.Perm.refl _) s hs⟩

theorem ownPar1d_iff {acts : List γ → Nat → Option (List (γ → γ))} {n t : Nat}
    (h : OwnLocal acts n) (ht : 1 ≤ t) (s : List γ) (hs : s.length = n) (o : Option (List γ)) :
    OwnParResult acts (blocks1d t n) s o ↔ o = ownSeq1d acts n s := by
  obtain ⟨blocks, hb⟩ := blocks1d_isSome ht n
  rw [hb, ownSeq1d_eq h s hs, seq1d_loop]
  exact ownPar_iff h s hs (blocks1d_flatten hb) o

theorem ownPar2d_iff {acts : List γ → Nat → Option (List (γ → γ))} {n1 n2 t : Nat}
    (h : OwnLocal acts (n1 * n2)) (ht : 1 ≤ t) (s : List γ) (hs : s.length = n1 * n2)
    (o : Option (List γ)) :
    OwnParResult acts (blocks2d t n1 n2 n2) s o ↔ o = ownSeq2d acts n1 n2 n2 s := by
  obtain ⟨blocks, hb⟩ := blocks2d_isSome ht n1 n2 n2
  rw [hb, ownSeq2d_eq h s hs, seq2d_loop]
  exact ownPar_iff h s hs (blocks2d_flatten hb) o

/-! Operands and their policies. -/

theorem operand_local {x : Operand V} {n : Nat} (hx : Spec.OperandOk n x) :
    ∃ A : Nat → Cell V → V, ∀ (s : List (Cell V)) (i : Nat) (c : Cell V), i < n → s.length = n →
      s[i]? = some c → x.read s i = some (A i c) := by
  cases x with
  | own => exact ⟨fun _ c => c.val, fun s i c _ _ h => by simp [Operand.read, h]⟩
  | array l =>
    have hl : l.length = n := hx
    refine ⟨fun i c => (l[i]?).getD c.val, fun s i c hi _ _ => ?_⟩
    have : i < l.length := by omega
    simp [Operand.read, this]
  | scalar v => exact ⟨fun _ _ => v, fun _ _ _ _ _ _ => rfl⟩

theorem operandPolicy_local {p : OperandPolicy V} {n : Nat} (hp : Spec.OperandPolicyOk n p) :
    ∃ A : Nat → Cell V → Bool, ∀ (s : List (Cell V)) (i : Nat) (c : Cell V), i < n → s.length = n →
      s[i]? = some c → p.isNoData s i = some (A i c) := by
  cases p with
  | ownMask => exact ⟨fun _ c => c.masked, fun s i c _ _ h => by simp [OperandPolicy.isNoData, h]⟩
  | ownValue f => exact ⟨fun _ c => f c.val, fun s i c _ _ h => by simp [OperandPolicy.isNoData, h]⟩
  | bound p l =>
    refine ⟨fun i _ => (p.isNoData l i).getD false, fun s i c hi _ _ => ?_⟩
    obtain ⟨b, hb, _⟩ := isNoData_spec hp.2 hp.1 hi
    simp [OperandPolicy.isNoData, hb]
  | number b => exact ⟨fun _ _ => b, fun _ _ _ _ _ _ => rfl⟩

theorem ownUnaryActs_local (op : LocalOp V V) {p : OperandPolicy V} (outp : OutPolicy V)
    {x : Operand V} {n : Nat} (hp : Spec.OperandPolicyOk n p) (hx : Spec.OperandOk n x) :
    OwnLocal (ownUnaryActs op p outp x) n := by
  obtain ⟨A, hA⟩ := operandPolicy_local hp
  obtain ⟨B, hB⟩ := operand_local hx
  refine ⟨fun i c => if A i c then [outp.mark] else valueActs (op.aliasedUnary x.isOwn) outp (B i c),
    fun s i c hi hs hc => ?_⟩
  unfold ownUnaryActs
  cases h : A i c <;> simp [hA s i c hi hs hc, hB s i c hi hs hc, h]

theorem ownBinaryActs_local (op : LocalOp (V × V) V) {p1 p2 : OperandPolicy V} (outp : OutPolicy V)
    {x1 x2 : Operand V} {n : Nat} (hp1 : Spec.OperandPolicyOk n p1) (hp2 : Spec.OperandPolicyOk n p2)
    (hx1 : Spec.OperandOk n x1) (hx2 : Spec.OperandOk n x2) :
    OwnLocal (ownBinaryActs op p1 p2 outp x1 x2) n := by
  obtain ⟨A1, hA1⟩ := operandPolicy_local hp1
  obtain ⟨A2, hA2⟩ := operandPolicy_local hp2
  obtain ⟨B1, hB1⟩ := operand_local hx1
  obtain ⟨B2, hB2⟩ := operand_local hx2
  refine ⟨fun i c => if A1 i c || A2 i c then [outp.mark]
    else valueActs (op.aliased x1.isOwn x2.isOwn) outp (B1 i c, B2 i c), fun s i c hi hs hc => ?_⟩
  unfold ownBinaryActs
  cases h1 : A1 i c <;> cases h2 : A2 i c <;>
    simp [hA1 s i c hi hs hc, hA2 s i c hi hs hc, hB1 s i c hi hs hc, hB2 s i c hi hs hc, h1, h2]

theorem read_before {x : Operand V} {n i : Nat} (hx : Spec.OperandOk n x) (hi : i < n)
    {s : List (Cell V)} (hs : s.length = n) : ∃ v, x.read s i = some v ∧ Spec.ValueBefore x s i v ∧
      ∀ w, Spec.ValueBefore x s i w → w = v := by
  have his : i < s.length := by omega
  cases x with
  | own =>
    refine ⟨s[i].val, by simp [Operand.read, his], ⟨s[i], by simp [his], rfl⟩, ?_⟩
    rintro w ⟨c, hc, rfl⟩
    have : c = s[i] := by simpa [his] using hc.symm
    rw [this]
  | array l =>
    have hl : i < l.length := by have : l.length = n := hx; omega
    refine ⟨l[i], by simp [Operand.read, hl], by simp [Spec.ValueBefore, hl], fun w hw => ?_⟩
    simpa [Spec.ValueBefore, hl] using (Eq.symm hw)
  | scalar v => exact ⟨v, rfl, rfl, fun w hw => hw⟩

theorem isNoData_before {p : OperandPolicy V} {n i : Nat} (hp : Spec.OperandPolicyOk n p)
    (hi : i < n) {s : List (Cell V)} (hs : s.length = n) :
    ∃ b, p.isNoData s i = some b ∧ (b = true ↔ Spec.NoDataBefore p s i) := by
  have his : i < s.length := by omega
  cases p with
  | ownMask =>
    exact ⟨s[i].masked, by simp [OperandPolicy.isNoData, his], by simp [Spec.NoDataBefore, his]⟩
  | ownValue f =>
    exact ⟨f s[i].val, by simp [OperandPolicy.isNoData, his], by simp [Spec.NoDataBefore, his]⟩
  | bound p l => exact isNoData_spec hp.2 hp.1 hi
  | number b => exact ⟨b, rfl, Iff.rfl⟩

theorem ActsOk.imp {acts : Nat → Option (List (γ → γ))} {P Q : Nat → γ → γ → Prop} {n : Nat}
    (h : ActsOk acts P n) (hi : ∀ i c c', P i c c' → Q i c c') : ActsOk acts Q n := fun i hn =>
  (h i hn).elim fun fs hf => ⟨fs, hf.1, fun c => hi i c _ (hf.2 c)⟩

theorem marked_unique {outp : OutPolicy V} {c d e : Cell V} (h1 : Spec.Marked outp c d)
    (h2 : Spec.Marked outp c e) : d = e := by
  cases d; cases e
  cases outp with
  | dontMark => exact Eq.trans (show _ = c from h1) (show _ = c from h2).symm
  | markValue nd => obtain ⟨rfl, rfl⟩ := h1; obtain ⟨a, b⟩ := h2; simp_all
  | markMask => obtain ⟨rfl, a⟩ := h1; obtain ⟨b, d⟩ := h2; simp_all

theorem localCell_unique {A : Type} {op : LocalOp A V} {outp : OutPolicy V} {nd : Prop} {a : A}
    {c d e : Cell V} (h1 : Spec.LocalCell op outp nd a c d) (h2 : Spec.LocalCell op outp nd a c e) :
    d = e := by
  by_cases hn : nd
  · exact marked_unique (h1.noData hn) (h2.noData hn)
  · cases hd : op.withinDomain a with
    | false => exact marked_unique (h1.outOfDomain hn hd) (h2.outOfDomain hn hd)
    | true =>
      cases hr : op.withinRange a (op.compute a) with
      | false => exact marked_unique (h1.outOfRange hn hd hr) (h2.outOfRange hn hd hr)
      | true => rw [h1.ok hn hd hr, h2.ok hn hd hr]

theorem elementwise_unique {P : Nat → γ → γ → Prop} {res out out' : List γ}
    (h : Spec.Elementwise P res out) (h' : Spec.Elementwise P res out')
    (hu : ∀ i c d e, res[i]? = some c → P i c d → P i c e → d = e) : out = out' := by
  apply List.ext_getElem? fun i => ?_
  by_cases hi : i < res.length
  · obtain ⟨d, hd, pd⟩ := h.2 i res[i] (by simp [hi])
    obtain ⟨e, he, pe⟩ := h'.2 i res[i] (by simp [hi])
    rw [hd, he, hu i _ d e (by simp [hi]) pd pe]
  · rw [List.getElem?_eq_none (by rw [h.1]; omega), List.getElem?_eq_none (by rw [h'.1]; omega)]

theorem localCell_congr {A R : Type} {op : LocalOp A R} {outp : OutPolicy R}
    {p q : Prop} {a : A} {c c' : Cell R} (h : p ↔ q)
    (hc : Spec.LocalCell op outp p a c c') : Spec.LocalCell op outp q a c c' := by
  rw [← propext h]; exact hc

theorem localCell_of_range {A R : Type} {op op' : LocalOp A R} {outp : OutPolicy R} {nd : Prop} {a : A}
    {c c' : Cell R} (hd : op.withinDomain a = op'.withinDomain a) (hc : op.compute a = op'.compute a)
    (hr : op.withinRange a (op.compute a) = op'.withinRange a (op'.compute a))
    (h : Spec.LocalCell op outp nd a c c') : Spec.LocalCell op' outp nd a c c' := by
  refine ⟨h.noData, fun hn h1 => h.outOfDomain hn (hd.trans h1), fun hn h1 h2 => ?_, fun hn h1 h2 => ?_⟩
  · rw [← hc]; exact h.ok hn (hd.trans h1) (hr.trans h2)
  · rw [← hc]; exact h.outOfRange hn (hd.trans h1) (hr.trans h2)

theorem localCell_aliased {op : LocalOp (V × V) V} {x1 x2 : Operand V} (hr : Spec.RangeAfter op x1 x2)
    {outp : OutPolicy V} {nd : Prop} {a : V × V} {c c' : Cell V}
    (h : Spec.LocalCell (op.aliased x1.isOwn x2.isOwn) outp nd a c c') : Spec.LocalCell op outp nd a c c' := by
  refine localCell_of_range (op := op.aliased x1.isOwn x2.isOwn) rfl rfl ?_ h
  have := hr a.1 a.2
  cases x1 <;> cases x2 <;> exact this

theorem inPlaceCell_aliased {op : LocalOp (V × V) V} {x1 x2 : Operand V}
    {outp : OutPolicy V} {nd : Prop} {v1 v2 : V} {c c' : Cell V}
    (h : Spec.LocalCell (op.aliased x1.isOwn x2.isOwn) outp nd (v1, v2) c c') :
    Spec.InPlaceCell op x1 x2 outp nd v1 v2 c c' := by
  refine ⟨h.noData, h.outOfDomain, fun hn hd hr => h.ok hn hd ?_, fun hn hd hr => h.outOfRange hn hd ?_⟩ <;>
    (cases x1 <;> cases x2 <;> exact hr)

theorem localCell_aliasedUnary {op : LocalOp V V} {x : Operand V} (hr : Spec.RangeAfterUnary op x)
    {outp : OutPolicy V} {nd : Prop} {a : V} {c c' : Cell V}
    (h : Spec.LocalCell (op.aliasedUnary x.isOwn) outp nd a c c') : Spec.LocalCell op outp nd a c c' := by
  refine localCell_of_range (op := op.aliasedUnary x.isOwn) rfl rfl ?_ h
  have := hr a
  cases x <;> exact this

theorem ownUnaryActs_ok (op : LocalOp V V) {p : OperandPolicy V} (outp : OutPolicy V)
    {x : Operand V} {n : Nat} (hp : Spec.OperandPolicyOk n p) (hx : Spec.OperandOk n x)
    {s : List (Cell V)} (hs : s.length = n) :
    ActsOk (ownUnaryActs op p outp x s) (fun i c c' => ∀ v, Spec.ValueBefore x s i v →
      Spec.LocalCell (op.aliasedUnary x.isOwn) outp (Spec.NoDataBefore p s i) v c c') n := by
  intro i hi
  obtain ⟨b, hb, hnd⟩ := isNoData_before hp hi hs
  obtain ⟨v, hv, _, huniq⟩ := read_before hx hi hs
  refine ⟨if b then [outp.mark] else valueActs (op.aliasedUnary x.isOwn) outp v, ?_, fun c w hw => ?_⟩
  · unfold ownUnaryActs
    cases b <;> simp [hb, hv]
  · rw [huniq w hw]
    exact localActs_ok hnd c

theorem ownBinaryActs_ok (op : LocalOp (V × V) V) {p1 p2 : OperandPolicy V} (outp : OutPolicy V)
    {x1 x2 : Operand V} {n : Nat} (hp1 : Spec.OperandPolicyOk n p1) (hp2 : Spec.OperandPolicyOk n p2)
    (hx1 : Spec.OperandOk n x1) (hx2 : Spec.OperandOk n x2) {s : List (Cell V)} (hs : s.length = n) :
    ActsOk (ownBinaryActs op p1 p2 outp x1 x2 s) (fun i c c' => ∀ v1 v2,
      Spec.ValueBefore x1 s i v1 → Spec.ValueBefore x2 s i v2 →
      Spec.LocalCell (op.aliased x1.isOwn x2.isOwn) outp
        (Spec.NoDataBefore p1 s i ∨ Spec.NoDataBefore p2 s i) (v1, v2) c c')
      n := by
  intro i hi
  obtain ⟨b1, hb1, hnd1⟩ := isNoData_before hp1 hi hs
  obtain ⟨b2, hb2, hnd2⟩ := isNoData_before hp2 hi hs
  obtain ⟨v1, hv1, _, huniq1⟩ := read_before hx1 hi hs
  obtain ⟨v2, hv2, _, huniq2⟩ := read_before hx2 hi hs
  refine ⟨if b1 || b2 then [outp.mark] else valueActs (op.aliased x1.isOwn x2.isOwn) outp (v1, v2), ?_, fun c w1 w2 h1 h2 => ?_⟩
  · unfold ownBinaryActs
    cases b1 <;> cases b2 <;> simp [hb1, hb2, hv1, hv2]
  · rw [huniq1 w1 h1, huniq2 w2 h2]
    exact localActs_ok (by rw [← hnd1, ← hnd2]; simp) c

end Fern
