import Verif.Lemmas.Select
/-
Property C16: unite_no_data, intersect_no_data and merge_no_data.
-/
namespace Fern

open Spec

variable {R V1 V2 : Type}

/-- C16: `unite_no_data(0d, 0d)`. -/
theorem C16_unite_0d (in1 : InPolicy V1) (in2 : InPolicy V2) (outp : OutPolicy R) (v1 : V1)
    (v2 : V2) (c : Cell R) (h1 : PolicyFor in1 1) (h2 : PolicyFor in2 1) :
    ∃ c', unite0d in1 in2 outp v1 v2 c = some c' ∧
      MarkedIff outp (NoDataAt in1 [v1] 0 ∨ NoDataAt in2 [v2] 0) c c' := by
  obtain ⟨b1, hb1, hn1⟩ := isNoData_spec (vals := [v1]) h1 rfl (by omega : 0 < 1)
  obtain ⟨b2, hb2, hn2⟩ := isNoData_spec (vals := [v2]) h2 rfl (by omega : 0 < 1)
  cases b1 <;> cases b2 <;>
    simp [unite0d, run0d, uniteActs, MarkedIff, hb1, hb2, ← hn1, ← hn2, mark_spec]

/-- C16: `intersect_no_data(0d, 0d)`. -/
theorem C16_intersect_0d (in1 : InPolicy V1) (in2 : InPolicy V2) (outp : OutPolicy R) (v1 : V1)
    (v2 : V2) (c : Cell R) (h1 : PolicyFor in1 1) (h2 : PolicyFor in2 1) :
    ∃ c', intersect0d in1 in2 outp v1 v2 c = some c' ∧
      MarkedIff outp (NoDataAt in1 [v1] 0 ∧ NoDataAt in2 [v2] 0) c c' := by
  obtain ⟨b1, hb1, hn1⟩ := isNoData_spec (vals := [v1]) h1 rfl (by omega : 0 < 1)
  obtain ⟨b2, hb2, hn2⟩ := isNoData_spec (vals := [v2]) h2 rfl (by omega : 0 < 1)
  cases b1 <;> cases b2 <;>
    simp [intersect0d, run0d, intersectActs, MarkedIff, hb1, hb2, ← hn1, ← hn2, mark_spec]

/-- C16: `merge_no_data(0d)`. -/
theorem C16_merge_0d (inp : InPolicy V1) (outp : OutPolicy R) (v : V1) (c : Cell R)
    (h : PolicyFor inp 1) :
    ∃ c', merge0d inp outp v c = some c' ∧ MarkedIff outp (NoDataAt inp [v] 0) c c' := by
  obtain ⟨b1, hb1, hn1⟩ := isNoData_spec (vals := [v]) h rfl (by omega : 0 < 1)
  cases b1 <;> simp [merge0d, run0d, mergeActs, MarkedIff, hb1, ← hn1, mark_spec]

/-- C16: `unite_no_data(2d, 2d)`, sequential and parallel: exactly the elements that are no-data in
either argument are marked, all others are not touched. -/
theorem C16_unite_2d (in1 : InPolicy V1) (in2 : InPolicy V2) (outp : OutPolicy R) (n1 n2 : Nat)
    (value1 : List V1) (value2 : List V2) (result : List (Cell R)) (hr : result.length = n1 * n2)
    (h1 : (Arg.array value1).Fits in1 (n1 * n2)) (h2 : (Arg.array value2).Fits in2 (n1 * n2)) :
    Computes (unite2d in1 in2 outp (n1, n2) value1 (n1, n2) value2 (n1, n2))
      (fun i => MarkedIff outp (NoDataAt in1 value1 i ∨ NoDataAt in2 value2 i)) result := by
  have : unite2d in1 in2 outp (n1, n2) value1 (n1, n2) value2 (n1, n2) =
    some (.d2 n1 n2 n2 (uniteActs in1 in2 outp value1 value2)) := by simp [unite2d]
  rw [this]
  refine computes_d2 (actsOk_intro fun i hi => ?_) hr
  obtain ⟨b1, hb1, hn1⟩ := isNoData_spec h1.2 h1.1 hi
  obtain ⟨b2, hb2, hn2⟩ := isNoData_spec h2.2 h2.1 hi
  constructor
  · cases b1 <;> cases b2 <;> simp [uniteActs, hb1, hb2]
  · intro fs hfs c
    cases b1 <;> cases b2 <;> simp [uniteActs, hb1, hb2] at hfs <;> subst hfs <;>
      simp [MarkedIff, foldActs, ← hn1, ← hn2, mark_spec]

/-- C16: `intersect_no_data(2d, 2d)`: exactly the elements that are no-data in both. -/
theorem C16_intersect_2d (in1 : InPolicy V1) (in2 : InPolicy V2) (outp : OutPolicy R) (n1 n2 : Nat)
    (value1 : List V1) (value2 : List V2) (result : List (Cell R)) (hr : result.length = n1 * n2)
    (h1 : (Arg.array value1).Fits in1 (n1 * n2)) (h2 : (Arg.array value2).Fits in2 (n1 * n2)) :
    Computes (intersect2d in1 in2 outp (n1, n2) value1 (n1, n2) value2 (n1, n2))
      (fun i => MarkedIff outp (NoDataAt in1 value1 i ∧ NoDataAt in2 value2 i)) result := by
  have : intersect2d in1 in2 outp (n1, n2) value1 (n1, n2) value2 (n1, n2) =
    some (.d2 n1 n2 n2 (intersectActs in1 in2 outp value1 value2)) := by simp [intersect2d]
  rw [this]
  refine computes_d2 (actsOk_intro fun i hi => ?_) hr
  obtain ⟨b1, hb1, hn1⟩ := isNoData_spec h1.2 h1.1 hi
  obtain ⟨b2, hb2, hn2⟩ := isNoData_spec h2.2 h2.1 hi
  constructor
  · cases b1 <;> cases b2 <;> simp [intersectActs, hb1, hb2]
  · intro fs hfs c
    cases b1 <;> cases b2 <;> simp [intersectActs, hb1, hb2] at hfs <;> subst hfs <;>
      simp [MarkedIff, foldActs, ← hn1, ← hn2, mark_spec]

/-- C16: `merge_no_data(2d)`: exactly the elements that are no-data in the argument. -/
theorem C16_merge_2d (inp : InPolicy V1) (outp : OutPolicy R) (n1 n2 : Nat)
    (value : List V1) (result : List (Cell R)) (hr : result.length = n1 * n2)
    (h : (Arg.array value).Fits inp (n1 * n2)) :
    Computes (merge2d inp outp (n1, n2) value (n1, n2))
      (fun i => MarkedIff outp (NoDataAt inp value i)) result := by
  have : merge2d inp outp (n1, n2) value (n1, n2) =
    some (.d2 n1 n2 n2 (mergeActs inp outp value)) := by simp [merge2d]
  rw [this]
  refine computes_d2 (actsOk_intro fun i hi => ?_) hr
  obtain ⟨b1, hb1, hn1⟩ := isNoData_spec h.2 h.1 hi
  constructor
  · cases b1 <;> simp [mergeActs, hb1]
  · intro fs hfs c
    cases b1 <;> simp [mergeActs, hb1] at hfs <;> subst hfs <;>
      simp [MarkedIff, foldActs, ← hn1, mark_spec]

/-- C16: with a masking output policy, being marked means: the mask entry is set iff it was set already
or the element is no-data, and the value stays as it is. -/
theorem C16_markMask {R : Type} {nd : Prop} {c c' : Cell R} (h : MarkedIff .markMask nd c c') :
    c'.val = c.val ∧ (c'.masked = true ↔ c.masked = true ∨ nd) := by
  by_cases hn : nd
  · have := h.1 hn
    exact ⟨this.1, by simp [this.2, hn]⟩
  · rw [h.2 hn]
    simp [hn]

/-! Set algebra of the patterns that the operations write in a result that had no no-data. -/

/-- The policy that detects the no-data pattern `a` in a mask. -/
def maskPolicy (a : List Bool) : InPolicy Unit := .byMask (a.map (fun b => if b then 1 else 0)) 1

/-- The pattern written by `unite_no_data` for arguments with patterns `a` and `b`. -/
def unitePattern (n1 n2 : Nat) (a b : List Bool) : Option (List Bool) :=
  (runSeq (unite2d (maskPolicy a) (maskPolicy b) .markMask (n1, n2)
    (List.replicate (n1 * n2) ()) (n1, n2) (List.replicate (n1 * n2) ()) (n1, n2))
    (List.replicate (n1 * n2) ⟨(), false⟩)).map (fun r => r.map Cell.masked)

/-- The pattern written by `intersect_no_data` for arguments with patterns `a` and `b`. -/
def intersectPattern (n1 n2 : Nat) (a b : List Bool) : Option (List Bool) :=
  (runSeq (intersect2d (maskPolicy a) (maskPolicy b) .markMask (n1, n2)
    (List.replicate (n1 * n2) ()) (n1, n2) (List.replicate (n1 * n2) ()) (n1, n2))
    (List.replicate (n1 * n2) ⟨(), false⟩)).map (fun r => r.map Cell.masked)

theorem maskPolicy_noData (a : List Bool) (vals : List Unit) (i : Nat) :
    NoDataAt (maskPolicy a) vals i ↔ a[i]? = some true := by
  simp only [NoDataAt, maskPolicy, List.getElem?_map]
  cases a[i]? with
  | none => simp
  | some b => cases b <;> simp

theorem pattern_eq {n1 n2 : Nat} {a b : List Bool} {f : Bool → Bool → Bool}
    {loop : Option (ElemLoop (Cell Unit))} {P : Nat → Prop} (ha : a.length = n1 * n2)
    (hb : b.length = n1 * n2)
    (hc : Computes loop (fun i => MarkedIff .markMask (P i))
      (List.replicate (n1 * n2) ⟨(), false⟩))
    (hP : ∀ i x y, a[i]? = some x → b[i]? = some y → (P i ↔ f x y = true)) :
    (runSeq loop (List.replicate (n1 * n2) ⟨(), false⟩)).map (fun r => r.map Cell.masked) =
      some (List.zipWith f a b) := by
  obtain ⟨out, ho, ⟨hl, he⟩, _⟩ := hc
  rw [ho]
  simp only [Option.map_some, Option.some.injEq]
  rw [List.length_replicate] at hl
  apply List.ext_getElem
  · simp [hl, ha, hb]
  · intro i h1 h2
    have hi : i < n1 * n2 := by simpa [hl] using h1
    obtain ⟨c', hc', h⟩ := he i ⟨(), false⟩ (by simp [hi])
    have hP' := hP i (a[i]'(by omega)) (b[i]'(by omega)) (by simp [ha, hi]) (by simp [hb, hi])
    simp only [List.getElem_map, List.getElem_zipWith]
    have : out[i] = c' := by simpa [hl, hi] using hc'
    rw [this]
    by_cases hp : P i
    · rw [(h.1 hp).2, hP'.mp hp]
    · rw [h.2 hp]
      have := fun e => hp (hP'.mpr e)
      simpa using this

/-- The union of two patterns. -/
theorem C16_unite_pattern {n1 n2 : Nat} {a b : List Bool} (ha : a.length = n1 * n2)
    (hb : b.length = n1 * n2) : unitePattern n1 n2 a b = some (List.zipWith (· || ·) a b) := by
  refine pattern_eq ha hb (C16_unite_2d _ _ _ _ _ _ _ _ (by simp) ⟨by simp, by simp [PolicyFor, maskPolicy, ha]⟩
    ⟨by simp, by simp [PolicyFor, maskPolicy, hb]⟩) ?_
  intro i x y hx hy
  rw [maskPolicy_noData, maskPolicy_noData, hx, hy]
  simp

/-- The intersection of two patterns. -/
theorem C16_intersect_pattern {n1 n2 : Nat} {a b : List Bool} (ha : a.length = n1 * n2)
    (hb : b.length = n1 * n2) : intersectPattern n1 n2 a b = some (List.zipWith (· && ·) a b) := by
  refine pattern_eq ha hb (C16_intersect_2d _ _ _ _ _ _ _ _ (by simp) ⟨by simp, by simp [PolicyFor, maskPolicy, ha]⟩
    ⟨by simp, by simp [PolicyFor, maskPolicy, hb]⟩) ?_
  intro i x y hx hy
  rw [maskPolicy_noData, maskPolicy_noData, hx, hy]
  simp

theorem zipWith_comm' {f : Bool → Bool → Bool} (h : ∀ x y, f x y = f y x) (a b : List Bool) :
    List.zipWith f a b = List.zipWith f b a := by
  induction a generalizing b with
  | nil => cases b <;> rfl
  | cons x a ih => cases b with
    | nil => rfl
    | cons y b => simp [h x y, ih b]

theorem zipWith_assoc' {f : Bool → Bool → Bool} (h : ∀ x y z, f (f x y) z = f x (f y z))
    (a b c : List Bool) :
    List.zipWith f (List.zipWith f a b) c = List.zipWith f a (List.zipWith f b c) := by
  induction a generalizing b c with
  | nil => rfl
  | cons x a ih => cases b with
    | nil => rfl
    | cons y b => cases c with
      | nil => rfl
      | cons z c => simp [h x y z, ih b c]

theorem zipWith_idem' {f : Bool → Bool → Bool} (h : ∀ x, f x x = x) (a : List Bool) :
    List.zipWith f a a = a := by
  simp [List.zipWith_self, h]

/-- Commutative. -/
theorem C16_unite_comm {n1 n2 : Nat} {a b : List Bool} (ha : a.length = n1 * n2)
    (hb : b.length = n1 * n2) : unitePattern n1 n2 a b = unitePattern n1 n2 b a := by
  rw [C16_unite_pattern ha hb, C16_unite_pattern hb ha, zipWith_comm' Bool.or_comm]

theorem C16_intersect_comm {n1 n2 : Nat} {a b : List Bool} (ha : a.length = n1 * n2)
    (hb : b.length = n1 * n2) : intersectPattern n1 n2 a b = intersectPattern n1 n2 b a := by
  rw [C16_intersect_pattern ha hb, C16_intersect_pattern hb ha, zipWith_comm' Bool.and_comm]

/-- Associative. -/
theorem C16_unite_assoc {n1 n2 : Nat} {a b c : List Bool} (ha : a.length = n1 * n2)
    (hb : b.length = n1 * n2) (hc : c.length = n1 * n2) :
    (unitePattern n1 n2 a b).bind (fun ab => unitePattern n1 n2 ab c) =
    (unitePattern n1 n2 b c).bind (fun bc => unitePattern n1 n2 a bc) := by
  rw [C16_unite_pattern ha hb, C16_unite_pattern hb hc, Option.bind_some, Option.bind_some,
    C16_unite_pattern (by simp [ha, hb]) hc, C16_unite_pattern ha (by simp [hb, hc]),
    zipWith_assoc' Bool.or_assoc]

theorem C16_intersect_assoc {n1 n2 : Nat} {a b c : List Bool} (ha : a.length = n1 * n2)
    (hb : b.length = n1 * n2) (hc : c.length = n1 * n2) :
    (intersectPattern n1 n2 a b).bind (fun ab => intersectPattern n1 n2 ab c) =
    (intersectPattern n1 n2 b c).bind (fun bc => intersectPattern n1 n2 a bc) := by
  rw [C16_intersect_pattern ha hb, C16_intersect_pattern hb hc, Option.bind_some, Option.bind_some,
    C16_intersect_pattern (by simp [ha, hb]) hc, C16_intersect_pattern ha (by simp [hb, hc]),
    zipWith_assoc' Bool.and_assoc]

/-- Idempotent. -/
theorem C16_unite_idem {n1 n2 : Nat} {a : List Bool} (ha : a.length = n1 * n2) :
    unitePattern n1 n2 a a = some a := by
  rw [C16_unite_pattern ha ha, zipWith_idem' Bool.or_self]

theorem C16_intersect_idem {n1 n2 : Nat} {a : List Bool} (ha : a.length = n1 * n2) :
    intersectPattern n1 n2 a a = some a := by
  rw [C16_intersect_pattern ha ha, zipWith_idem' Bool.and_self]

/-- Dual: the complement of the union is the intersection of the complements. -/
theorem C16_deMorgan {n1 n2 : Nat} {a b : List Bool} (ha : a.length = n1 * n2)
    (hb : b.length = n1 * n2) :
    (unitePattern n1 n2 a b).map (fun u => u.map not) =
      intersectPattern n1 n2 (a.map not) (b.map not) := by
  rw [C16_unite_pattern ha hb, C16_intersect_pattern (by simp [ha]) (by simp [hb])]
  simp only [Option.map_some, List.map_zipWith, List.zipWith_map_left,
    List.zipWith_map_right, Bool.not_or]

example : unitePattern 1 3 [true, false, false] [false, true, false] = some [true, true, false] ∧
    intersectPattern 1 3 [true, true, false] [false, true, false] = some [false, true, false] := by
  constructor <;> rfl

/-- Elements that aren't marked keep the value and the mask they have. -/
example :
    let z : List (Cell Int) := [⟨7, false⟩, ⟨8, true⟩, ⟨9, false⟩]
    let m1 : InPolicy Int := .byMask [1, 0, 0] 1
    let m2 : InPolicy Int := .detect (· == 3)
    runSeq (unite2d m1 m2 .markMask (1, 3) [1, 1, 1] (1, 3) [3, 4, 3] (1, 3)) z =
      some [⟨7, true⟩, ⟨8, true⟩, ⟨9, true⟩] ∧
    runSeq (intersect2d m1 m2 .markMask (1, 3) [1, 1, 1] (1, 3) [3, 4, 3] (1, 3)) z =
      some [⟨7, true⟩, ⟨8, true⟩, ⟨9, false⟩] ∧
    runSeq (merge2d m2 (.markValue 0) (1, 3) [3, 4, 3] (1, 3)) z =
      some [⟨0, false⟩, ⟨8, true⟩, ⟨0, false⟩] ∧
    unite0d m2 m2 (.markValue 0) 3 4 ⟨7, false⟩ = some ⟨0, false⟩ ∧
    intersect0d m2 m2 (.markValue 0) 3 4 ⟨7, false⟩ = some ⟨7, false⟩ ∧
    merge0d m2 (.markValue 0) 3 ⟨7, false⟩ = some ⟨0, false⟩ :=
  ⟨rfl, rfl, rfl, rfl, rfl, rfl⟩

end Fern
