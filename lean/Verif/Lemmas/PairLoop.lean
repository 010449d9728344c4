import Verif.Model.PairLoop
import Verif.Spec.PairLoop
import Verif.Lemmas.IntRaster
namespace Fern.PairLoop

open Fern.Spec
open _root_.Fern.PairLoop.Spec
open _root_.Fern.IntRaster.Spec (ComputesUnless)
open _root_.Fern.IntRaster (computesUnless_d1 computesUnless_d2)

variable {α β γ : Type}

/-- What is done for a pair of values of the types. -/
def PairOk (pair : α → β → Option (List (Cell γ → Cell γ))) (T1 : α → Prop) (T2 : β → Prop)
    (U : α → β → Prop) (P : α → β → Cell γ → Cell γ → Prop) : Prop :=
  ∀ v1 v2, T1 v1 → T2 v2 → (U v1 v2 → pair v1 v2 = none) ∧
    (¬ U v1 v2 → ∃ fs, pair v1 v2 = some fs ∧ ∀ c, P v1 v2 c (foldActs fs c))

theorem hasAt_exists {a : Arg α} {p : InPolicy α} {n i : Nat} (h : a.Fits p n) (hi : i < n) :
    ∃ v, a.HasAt i v := by
  cases a with
  | scalar v => exact ⟨v, rfl⟩
  | array l =>
    have : i < l.length := by have := h.1; omega
    exact ⟨l[i], by simp [Arg.HasAt, this]⟩

theorem hasAt_type {a : Arg α} {T : α → Prop} (h : AllValues T a) {i : Nat} {v : α}
    (hv : a.HasAt i v) : T v := by
  cases a with
  | scalar w => exact (Eq.symm hv : w = v) ▸ h
  | array l => exact h v (List.mem_of_getElem? hv)

section

variable {pair : α → β → Option (List (Cell γ → Cell γ))} {T1 : α → Prop} {T2 : β → Prop}
  {U : α → β → Prop} {P : α → β → Cell γ → Cell γ → Prop} {in1 : InPolicy α} {in2 : InPolicy β}
  {outp : OutPolicy γ}

theorem body_spec (hp : PairOk pair T1 T2 U P) {a1 : Arg α} {a2 : Arg β} {n : Nat}
    (h1 : a1.Fits in1 n) (h2 : a2.Fits in2 n) (o1 : AllValues T1 a1) (o2 : AllValues T2 a2)
    {acts : Nat → Option (List (Cell γ → Cell γ))}
    (hnd : ∀ i < n, a1.NoData in1 i ∨ a2.NoData in2 i → acts i = some [outp.mark])
    (hv : ∀ i < n, ¬ (a1.NoData in1 i ∨ a2.NoData in2 i) → ∀ v1 v2, a1.HasAt i v1 → a2.HasAt i v2 →
      acts i = pair v1 v2) :
    (¬ SomePair U in1 in2 a1 a2 n → ActsOk acts (EachPair P in1 in2 outp a1 a2) n) ∧
    (SomePair U in1 in2 a1 a2 n → ∃ i < n, acts i = none) := by
  constructor
  · intro hb i hi
    by_cases hd : a1.NoData in1 i ∨ a2.NoData in2 i
    · exact ⟨_, hnd i hi hd, fun c => ⟨fun _ => mark_spec outp c, fun h => absurd hd h⟩⟩
    · obtain ⟨v1, e1⟩ := hasAt_exists h1 hi
      obtain ⟨v2, e2⟩ := hasAt_exists h2 hi
      obtain ⟨fs, hfs, hc⟩ := (hp v1 v2 (hasAt_type o1 e1) (hasAt_type o2 e2)).2
        (fun hu => hb ⟨i, hi, hd, v1, v2, e1, e2, hu⟩)
      exact ⟨fs, (hv i hi hd v1 v2 e1 e2).trans hfs,
        fun c => ⟨fun h => absurd h hd, fun _ => ⟨v1, v2, e1, e2, hc c⟩⟩⟩
  · rintro ⟨i, hi, hd, v1, v2, e1, e2, hu⟩
    refine ⟨i, hi, ?_⟩
    rw [hv i hi hd v1 v2 e1 e2]
    exact (hp v1 v2 (hasAt_type o1 e1) (hasAt_type o2 e2)).1 hu

theorem arrayScalar_spec (hp : PairOk pair T1 T2 U P) {value1 : List α} {v2 : β} {n : Nat} {b : Bool}
    (hv : value1.length = n) (h1 : PolicyFor in1 n) (h2 : PolicyFor in2 1)
    (hnd : b = true ↔ NoDataAt in2 [v2] 0) (o1 : ∀ v ∈ value1, T1 v) (o2 : T2 v2) :
    (¬ SomePair U in1 in2 (.array value1) (.scalar v2) n →
      ActsOk (arrayScalarActs pair in1 outp b value1 v2)
        (EachPair P in1 in2 outp (.array value1) (.scalar v2)) n) ∧
    (SomePair U in1 in2 (.array value1) (.scalar v2) n →
      ∃ i < n, arrayScalarActs pair in1 outp b value1 v2 i = none) := by
  refine body_spec (a1 := .array value1) (a2 := .scalar v2) hp ⟨hv, h1⟩ h2 o1 o2
    (fun i hi hd => ?_) (fun i hi hd w1 w2 e1 e2 => ?_)
  · obtain ⟨b1, hb1, hnd1⟩ := isNoData_spec h1 hv hi
    have hd' : NoDataAt in1 value1 i ∨ NoDataAt in2 [v2] 0 := hd
    rw [← hnd1, ← hnd] at hd'
    cases b <;> cases b1 <;> simp [arrayScalarActs, hb1] at hd' ⊢
  · obtain ⟨b1, hb1, hnd1⟩ := isNoData_spec h1 hv hi
    have hd' : ¬ (NoDataAt in1 value1 i ∨ NoDataAt in2 [v2] 0) := hd
    rw [← hnd1, ← hnd] at hd'
    have e1' : value1[i]? = some w1 := e1
    have e2' : w2 = v2 := e2
    subst e2'
    cases b <;> cases b1 <;> simp [arrayScalarActs, hb1, e1'] at hd' ⊢

theorem scalarArray_spec (hp : PairOk pair T1 T2 U P) {v1 : α} {value2 : List β} {n : Nat} {b : Bool}
    (hv : value2.length = n) (h1 : PolicyFor in1 1) (h2 : PolicyFor in2 n)
    (hnd : b = true ↔ NoDataAt in1 [v1] 0) (o1 : T1 v1) (o2 : ∀ v ∈ value2, T2 v) :
    (¬ SomePair U in1 in2 (.scalar v1) (.array value2) n →
      ActsOk (scalarArrayActs pair in2 outp b v1 value2)
        (EachPair P in1 in2 outp (.scalar v1) (.array value2)) n) ∧
    (SomePair U in1 in2 (.scalar v1) (.array value2) n →
      ∃ i < n, scalarArrayActs pair in2 outp b v1 value2 i = none) := by
  refine body_spec (a1 := .scalar v1) (a2 := .array value2) hp h1 ⟨hv, h2⟩ o1 o2
    (fun i hi hd => ?_) (fun i hi hd w1 w2 e1 e2 => ?_)
  · obtain ⟨b1, hb1, hnd1⟩ := isNoData_spec h2 hv hi
    have hd' : NoDataAt in1 [v1] 0 ∨ NoDataAt in2 value2 i := hd
    rw [← hnd1, ← hnd] at hd'
    cases b <;> cases b1 <;> simp [scalarArrayActs, hb1] at hd' ⊢
  · obtain ⟨b1, hb1, hnd1⟩ := isNoData_spec h2 hv hi
    have hd' : ¬ (NoDataAt in1 [v1] 0 ∨ NoDataAt in2 value2 i) := hd
    rw [← hnd1, ← hnd] at hd'
    have e1' : w1 = v1 := e1
    have e2' : value2[i]? = some w2 := e2
    subst e1'
    cases b <;> cases b1 <;> simp [scalarArrayActs, hb1, e2'] at hd' ⊢

theorem arrayArray_spec (hp : PairOk pair T1 T2 U P) {value1 : List α} {value2 : List β} {n : Nat}
    (hv1 : value1.length = n) (hv2 : value2.length = n) (h1 : PolicyFor in1 n) (h2 : PolicyFor in2 n)
    (o1 : ∀ v ∈ value1, T1 v) (o2 : ∀ v ∈ value2, T2 v) :
    (¬ SomePair U in1 in2 (.array value1) (.array value2) n →
      ActsOk (arrayArrayActs pair in1 in2 outp value1 value2)
        (EachPair P in1 in2 outp (.array value1) (.array value2)) n) ∧
    (SomePair U in1 in2 (.array value1) (.array value2) n →
      ∃ i < n, arrayArrayActs pair in1 in2 outp value1 value2 i = none) := by
  refine body_spec (a1 := .array value1) (a2 := .array value2) hp ⟨hv1, h1⟩ ⟨hv2, h2⟩ o1 o2
    (fun i hi hd => ?_) (fun i hi hd w1 w2 e1 e2 => ?_)
  · obtain ⟨b1, hb1, hnd1⟩ := isNoData_spec h1 hv1 hi
    obtain ⟨b2, hb2, hnd2⟩ := isNoData_spec h2 hv2 hi
    have hd' : NoDataAt in1 value1 i ∨ NoDataAt in2 value2 i := hd
    rw [← hnd1, ← hnd2] at hd'
    cases b1 <;> cases b2 <;> simp [arrayArrayActs, hb1, hb2] at hd' ⊢
  · obtain ⟨b1, hb1, hnd1⟩ := isNoData_spec h1 hv1 hi
    obtain ⟨b2, hb2, hnd2⟩ := isNoData_spec h2 hv2 hi
    have hd' : ¬ (NoDataAt in1 value1 i ∨ NoDataAt in2 value2 i) := hd
    rw [← hnd1, ← hnd2] at hd'
    have e1' : value1[i]? = some w1 := e1
    have e2' : value2[i]? = some w2 := e2
    cases b1 <;> cases b2 <;> simp [arrayArrayActs, hb1, hb2, e1', e2'] at hd' ⊢

/-! ### The shapes -/

theorem pair0d0d_spec (hp : PairOk pair T1 T2 U P) {v1 : α} {v2 : β} (c : Cell γ)
    (h1 : PolicyFor in1 1) (h2 : PolicyFor in2 1) (o1 : T1 v1) (o2 : T2 v2) :
    (pair0d0d pair in1 in2 outp v1 v2 c = none ↔
      ¬ (NoDataAt in1 [v1] 0 ∨ NoDataAt in2 [v2] 0) ∧ U v1 v2) ∧
    ∀ c', pair0d0d pair in1 in2 outp v1 v2 c = some c' →
      EachPair P in1 in2 outp (.scalar v1) (.scalar v2) 0 c c' := by
  obtain ⟨b1, hb1, hnd1⟩ := isNoData0_spec (v := v1) h1
  obtain ⟨b2, hb2, hnd2⟩ := isNoData0_spec (v := v2) h2
  by_cases hd : NoDataAt in1 [v1] 0 ∨ NoDataAt in2 [v2] 0
  · have e : pair0d0d pair in1 in2 outp v1 v2 c = some (outp.mark c) := by
      rw [← hnd1, ← hnd2] at hd
      cases b1 <;> cases b2 <;> simp [pair0d0d, run0d, hb1, hb2] at hd ⊢
    refine ⟨by simp [e, hd], fun c' hc' => ?_⟩
    rw [e, Option.some.injEq] at hc'
    subst hc'
    exact ⟨fun _ => mark_spec outp c, fun h => absurd hd h⟩
  · have e : pair0d0d pair in1 in2 outp v1 v2 c = run0d (pair v1 v2) c := by
      rw [← hnd1, ← hnd2] at hd
      cases b1 <;> cases b2 <;> simp [pair0d0d, hb1, hb2] at hd ⊢
    obtain ⟨hu, hg⟩ := hp v1 v2 o1 o2
    rw [e]
    by_cases h : U v1 v2
    · simp [hu h, run0d, hd, h]
    · obtain ⟨fs, hfs, hc⟩ := hg h
      refine ⟨by simp [hfs, run0d, h], fun c' hc' => ⟨fun h => absurd h hd, fun _ => ?_⟩⟩
      simp only [hfs, run0d, Option.bind_eq_bind, Option.bind_some, Option.some.injEq] at hc'
      subst hc'
      exact ⟨v1, v2, rfl, rfl, hc c⟩

theorem pair1d0d_spec (hp : PairOk pair T1 T2 U P) (value1 : List α) (v2 : β) (res : List (Cell γ))
    (hs : res.length = value1.length) (h1 : PolicyFor in1 value1.length) (h2 : PolicyFor in2 1)
    (o1 : ∀ v ∈ value1, T1 v) (o2 : T2 v2) :
    ComputesUnless (SomePair U in1 in2 (.array value1) (.scalar v2) value1.length)
      (pair1d0d pair in1 in2 outp value1 v2 res.length)
      (EachPair P in1 in2 outp (.array value1) (.scalar v2)) res := by
  obtain ⟨b, hb, hnd⟩ := isNoData0_spec (v := v2) h2
  obtain ⟨hg, hbad⟩ := arrayScalar_spec (outp := outp) hp rfl h1 h2 hnd o1 o2
  simpa [pair1d0d, hs, hb] using computesUnless_d1 hs hg hbad

theorem pair0d1d_spec (hp : PairOk pair T1 T2 U P) (v1 : α) (value2 : List β) (res : List (Cell γ))
    (hs : res.length = value2.length) (h1 : PolicyFor in1 1) (h2 : PolicyFor in2 value2.length)
    (o1 : T1 v1) (o2 : ∀ v ∈ value2, T2 v) :
    ComputesUnless (SomePair U in1 in2 (.scalar v1) (.array value2) value2.length)
      (pair0d1d pair in1 in2 outp v1 value2 res.length)
      (EachPair P in1 in2 outp (.scalar v1) (.array value2)) res := by
  obtain ⟨b, hb, hnd⟩ := isNoData0_spec (v := v1) h1
  obtain ⟨hg, hbad⟩ := scalarArray_spec (outp := outp) hp rfl h1 h2 hnd o1 o2
  simpa [pair0d1d, hs, hb] using computesUnless_d1 hs hg hbad

theorem pair1d1d_spec (hp : PairOk pair T1 T2 U P) (value1 : List α) (value2 : List β)
    (res : List (Cell γ)) (hv1 : value1.length = res.length) (hv2 : value2.length = res.length)
    (h1 : PolicyFor in1 res.length) (h2 : PolicyFor in2 res.length) (o1 : ∀ v ∈ value1, T1 v)
    (o2 : ∀ v ∈ value2, T2 v) :
    ComputesUnless (SomePair U in1 in2 (.array value1) (.array value2) res.length)
      (pair1d1d pair in1 in2 outp value1 value2 res.length)
      (EachPair P in1 in2 outp (.array value1) (.array value2)) res := by
  obtain ⟨hg, hbad⟩ := arrayArray_spec (outp := outp) hp hv1 hv2 h1 h2 o1 o2
  simpa [pair1d1d, hv1, hv2] using computesUnless_d1 rfl hg hbad

theorem pair2d0d_spec (hp : PairOk pair T1 T2 U P) (n1 n2 : Nat) (value1 : List α) (v2 : β)
    (res : List (Cell γ)) (hv : value1.length = n1 * n2) (hs : res.length = n1 * n2)
    (h1 : PolicyFor in1 (n1 * n2)) (h2 : PolicyFor in2 1) (o1 : ∀ v ∈ value1, T1 v) (o2 : T2 v2) :
    ComputesUnless (SomePair U in1 in2 (.array value1) (.scalar v2) (n1 * n2))
      (pair2d0d pair in1 in2 outp (n1, n2) value1 v2 (n1, n2))
      (EachPair P in1 in2 outp (.array value1) (.scalar v2)) res := by
  obtain ⟨b, hb, hnd⟩ := isNoData0_spec (v := v2) h2
  obtain ⟨hg, hbad⟩ := arrayScalar_spec (outp := outp) hp hv h1 h2 hnd o1 o2
  simpa [pair2d0d, hb] using computesUnless_d2 hs hg hbad

theorem pair0d2d_spec (hp : PairOk pair T1 T2 U P) (n1 n2 : Nat) (v1 : α) (value2 : List β)
    (res : List (Cell γ)) (hv : value2.length = n1 * n2) (hs : res.length = n1 * n2)
    (h1 : PolicyFor in1 1) (h2 : PolicyFor in2 (n1 * n2)) (o1 : T1 v1) (o2 : ∀ v ∈ value2, T2 v) :
    ComputesUnless (SomePair U in1 in2 (.scalar v1) (.array value2) (n1 * n2))
      (pair0d2d pair in1 in2 outp v1 (n1, n2) value2 (n1, n2))
      (EachPair P in1 in2 outp (.scalar v1) (.array value2)) res := by
  obtain ⟨b, hb, hnd⟩ := isNoData0_spec (v := v1) h1
  obtain ⟨hg, hbad⟩ := scalarArray_spec (outp := outp) hp hv h1 h2 hnd o1 o2
  simpa [pair0d2d, hb] using computesUnless_d2 hs hg hbad

theorem pair2d2d_spec (hp : PairOk pair T1 T2 U P) (n1 n2 : Nat) (value1 : List α)
    (value2 : List β) (res : List (Cell γ)) (hv1 : value1.length = n1 * n2)
    (hv2 : value2.length = n1 * n2) (hs : res.length = n1 * n2) (h1 : PolicyFor in1 (n1 * n2))
    (h2 : PolicyFor in2 (n1 * n2)) (o1 : ∀ v ∈ value1, T1 v) (o2 : ∀ v ∈ value2, T2 v) :
    ComputesUnless (SomePair U in1 in2 (.array value1) (.array value2) (n1 * n2))
      (pair2d2d pair in1 in2 outp (n1, n2) value1 (n1, n2) value2 (n1, n2))
      (EachPair P in1 in2 outp (.array value1) (.array value2)) res := by
  obtain ⟨hg, hbad⟩ := arrayArray_spec (outp := outp) hp hv1 hv2 h1 h2 o1 o2
  simpa [pair2d2d] using computesUnless_d2 hs hg hbad

end

end Fern.PairLoop
