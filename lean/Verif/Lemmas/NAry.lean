import Verif.Lemmas.LocalOps
import Verif.Lemmas.InPlace
/-
Lemmas about the n-ary local operation.
-/
namespace Fern

open Spec

variable {V : Type}

theorem marked_trans {p : OutPolicy V} {c c' c'' : Cell V} (h : Marked p c c')
    (h' : Marked p c' c'') : Marked p c c'' := by
  cases p with
  | dontMark => exact Eq.trans h' h
  | markValue nd => exact ⟨h'.1, h'.2.trans h.2⟩
  | markMask => exact ⟨h'.1.trans h.1, h'.2⟩

theorem inPlaceActs_ok (op : LocalOp (V × V) V) (outp : OutPolicy V)
    {in1 in2 : InPolicy V} {value1 value2 rv value : List V} {n : Nat}
    (hv1 : value1.length = n) (hp1 : PolicyFor in1 n)
    (hv2 : value2.length = n) (hp2 : PolicyFor in2 n)
    (hrv : rv.length = n) (hv : value.length = n) :
    ActsOk (inPlaceActs op in1 in2 outp value1 value2 rv value) (fun i c c' =>
      ∀ r v, rv[i]? = some r → value[i]? = some v →
      LocalCell (op.aliased true false) outp (NoDataAt in1 value1 i ∨ NoDataAt in2 value2 i) (r, v) c c') n := by
  intro i hi
  obtain ⟨b1, hb1, hnd1⟩ := isNoData_spec hp1 hv1 hi
  obtain ⟨b2, hb2, hnd2⟩ := isNoData_spec hp2 hv2 hi
  have hi1 : i < rv.length := by omega
  have hi2 : i < value.length := by omega
  refine ⟨if b1 || b2 then [outp.mark] else valueActs (op.aliased true false) outp (rv[i], value[i]), ?_,
    fun c v1 v2 h1 h2 => ?_⟩
  · unfold inPlaceActs
    cases b1 <;> cases b2 <;> simp [hb1, hb2, hi1, hi2]
  · have : v1 = rv[i] := by simpa [hi1] using h1.symm
    subst this
    have : v2 = value[i] := by simpa [hi2] using h2.symm
    subst this
    exact localActs_ok (by rw [← hnd1, ← hnd2]; simp) c

theorem binaryInPlace_spec (op : LocalOp (V × V) V) (outp : OutPolicy V)
    {in1 in2 : InPolicy V} {value1 value2 value : List V} {result : List (Cell V)}
    (hv1 : value1.length = result.length) (hp1 : PolicyFor in1 result.length)
    (hv2 : value2.length = result.length) (hp2 : PolicyFor in2 result.length)
    (hv : value.length = result.length) :
    ∃ out, binaryInPlace op in1 in2 outp value1 value2 result value = some out ∧
      Elementwise (fun i c c' => ∀ v, value[i]? = some v →
        LocalCell (op.aliased true false) outp (NoDataAt in1 value1 i ∨ NoDataAt in2 value2 i) (c.val, v) c c')
        result out := by
  obtain ⟨out, ho, hl, he⟩ := seq1d_spec (inPlaceActs_ok op outp hv1 hp1 hv2 hp2
    (rv := result.map Cell.val) (by simp) hv) result rfl
  refine ⟨out, by simpa [binaryInPlace, hv] using ho, hl, fun i c hc => ?_⟩
  obtain ⟨c', hc', h⟩ := he i c hc
  exact ⟨c', hc', fun v hv => h c.val v (by simp [hc]) hv⟩

/-- Specification of the steps for `v3 .. vn`, at one position. -/
structure FoldCell (op : LocalOp (V × V) V) (outp : OutPolicy V) (nd : Prop)
    (vs : List V) (c c' : Cell V) : Prop where
  noData : nd → (vs = [] ∧ c' = c) ∨ Marked outp c c'
  ok : ¬ nd → (∀ v ws, vs = v :: ws → NAryOk op c.val v ws) →
    c' = ⟨vs.foldl (fun x v => op.compute (x, v)) c.val, c.masked⟩
  masked : c.masked = true → c'.masked = true
  notOk : ¬ nd → outp = .markMask → ∀ v ws, vs = v :: ws → ¬ NAryOk op c.val v ws →
    c'.masked = true

theorem localCell_masked {op : LocalOp (V × V) V} {outp : OutPolicy V} {nd : Prop} {a : V × V}
    {c c' : Cell V} (h : LocalCell op outp nd a c c') (hm : c.masked = true) :
    c'.masked = true := by
  have key : ∀ {d d' : Cell V}, Marked outp d d' → d.masked = true → d'.masked = true := by
    intro d d' h hd
    cases outp with
    | dontMark => rw [show d' = d from h]; exact hd
    | markValue => exact h.2.trans hd
    | markMask => exact h.2
  by_cases hnd : nd
  · exact key (h.noData hnd) hm
  · cases hd : op.withinDomain a with
    | false => exact key (h.outOfDomain hnd hd) hm
    | true =>
      cases hr : op.withinRange a (op.compute a) with
      | true => rw [h.ok hnd hd hr]; exact hm
      | false => exact key (h.outOfRange hnd hd hr) hm

theorem localCell_notOk {op : LocalOp (V × V) V} {nd : Prop} {a b : V}
    {c c' : Cell V} (h : LocalCell op .markMask nd (a, b) c c') (hnd : ¬ nd)
    (hok : ¬ StepOk op a b) : c'.masked = true := by
  cases hd : op.withinDomain (a, b) with
  | false => exact (h.outOfDomain hnd hd).2
  | true =>
    cases hr : op.withinRange (a, b) (op.compute (a, b)) with
    | true => exact absurd ⟨hd, hr⟩ hok
    | false => exact (h.outOfRange hnd hd hr).2

theorem foldCell_cons {op : LocalOp (V × V) V} {outp : OutPolicy V} {nd : Prop} {v : V}
    {vs : List V} {c d e : Cell V} (h : LocalCell op outp nd (c.val, v) c d)
    (h' : FoldCell op outp nd vs d e) : FoldCell op outp nd (v :: vs) c e := by
  refine ⟨fun hn => ?_, fun hn hok => ?_, fun hm => h'.masked (localCell_masked h hm),
    fun hn ho w ws hw hno => ?_⟩
  · right
    rcases h'.noData hn with ⟨_, rfl⟩ | hm
    · exact h.noData hn
    · exact marked_trans (h.noData hn) hm
  · have hok' := hok v vs rfl
    have hs : StepOk op c.val v := by
      cases vs with
      | nil => exact hok'
      | cons => exact hok'.1
    have hd : d = ⟨op.compute (c.val, v), c.masked⟩ := h.ok hn hs.1 hs.2
    have := h'.ok hn (by
      rintro w ws rfl
      rw [hd]
      exact hok'.2)
    rw [this, hd]
    rfl
  · obtain ⟨rfl, rfl⟩ : v = w ∧ vs = ws := by simpa using hw
    subst ho
    by_cases hs : StepOk op c.val v
    · have hd : d = ⟨op.compute (c.val, v), c.masked⟩ := h.ok hn hs.1 hs.2
      cases vs with
      | nil => exact absurd hs hno
      | cons w ws =>
        refine h'.notOk hn rfl w ws rfl ?_
        rw [hd]
        exact fun hk => hno ⟨hs, hk⟩
    · exact h'.masked (localCell_notOk h hn hs)

theorem nAryOk_aliased {op : LocalOp (V × V) V}
    (ha : ∀ r v, op.withinRange (op.compute (r, v), v) (op.compute (r, v)) =
      op.withinRange (r, v) (op.compute (r, v))) (a b : V) (vs : List V) :
    NAryOk (op.aliased true false) a b vs ↔ NAryOk op a b vs := by
  have step : ∀ a b, StepOk (op.aliased true false) a b ↔ StepOk op a b := fun a b => by
    simp only [StepOk, LocalOp.aliased, if_true, if_false, Bool.false_eq_true, ha]
  induction vs generalizing a b with
  | nil => exact step a b
  | cons v vs ih => exact and_congr (step a b) (ih (op.compute (a, b)) v)

theorem nArySteps_spec (op : LocalOp (V × V) V) (outp : OutPolicy V)
    {in1 in2 : InPolicy V} {value1 value2 : List V} (values : List (List V)) {result : List (Cell V)}
    (hv1 : value1.length = result.length) (hp1 : PolicyFor in1 result.length)
    (hv2 : value2.length = result.length) (hp2 : PolicyFor in2 result.length)
    (hv : ∀ v ∈ values, v.length = result.length) :
    ∃ out, forIn' values (fun v result => binaryInPlace op in1 in2 outp value1 value2 result v) result
        = some out ∧
      Elementwise (fun i c c' => ∀ vs, values.map (·[i]?) = vs.map some →
        FoldCell (op.aliased true false) outp (NoDataAt in1 value1 i ∨ NoDataAt in2 value2 i) vs c c')
        result out := by
  induction values generalizing result with
  | nil =>
    refine ⟨result, rfl, rfl, fun i c hc => ⟨c, hc, fun vs hvs => ?_⟩⟩
    have : vs = [] := by
      cases vs with
      | nil => rfl
      | cons => simp at hvs
    subst this
    exact ⟨fun _ => .inl ⟨rfl, rfl⟩, fun _ _ => rfl, fun h => h, fun _ _ _ _ h => by simp at h⟩
  | cons v values ih =>
    obtain ⟨out, ho, hl, he⟩ := binaryInPlace_spec op outp hv1 hp1 hv2 hp2 (hv v (by simp))
    rw [← hl] at hv1 hp1 hv2 hp2
    obtain ⟨out', ho', hl', he'⟩ := ih hv1 hp1 hv2 hp2
      (fun w hw => (hv w (by simp [hw])).trans hl.symm)
    refine ⟨out', by rw [forIn'_cons, ho]; exact ho', hl'.trans hl, fun i c hc => ?_⟩
    obtain ⟨d, hd, h⟩ := he i c hc
    obtain ⟨e, hee, h'⟩ := he' i d hd
    refine ⟨e, hee, fun vs hvs => ?_⟩
    cases vs with
    | nil => simp at hvs
    | cons w ws =>
      simp only [List.map_cons, List.cons.injEq] at hvs
      exact foldCell_cons (h w hvs.1) (h' ws hvs.2)

end Fern
