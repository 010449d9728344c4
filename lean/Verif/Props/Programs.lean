import Verif.Spec.Programs
import Verif.Props.LocalOps
import Verif.Model.FloatArith

/-!
# C98: programs of local operations
-/

namespace Fern.Programs

open Fern Fern.Spec Fern.Programs.Spec

variable {V : Type}

theorem input_policy (s : Scheme V) (raster : List (Cell V)) : PolicyFor (s.input raster) raster.length := by
  cases s
  · simp [Scheme.input, PolicyFor]
  · trivial

theorem noDataAt_input {s : Scheme V} {raster : List (Cell V)} {i : Nat} {c : Cell V} (h : raster[i]? = some c) :
    NoDataAt (s.input raster) (values raster) i ↔ content s c = none := by
  cases s with
  | mask =>
    simp only [Scheme.input, NoDataAt, List.getElem?_map, h, content, Option.map_some]
    cases c.masked <;> simp
  | value noData isNoData =>
    simp only [Scheme.input, NoDataAt, values, List.getElem?_map, h, content, Option.map_some]
    simp

theorem content_val {s : Scheme V} {c : Cell V} (h : content s c ≠ none) : content s c = some c.val := by
  cases s <;> simp only [content] at h ⊢ <;> split at h <;> simp_all

theorem localCell_content {A : Type} {s : Scheme V} (hs : Recognised s) {op : LocalOp A V} {nd : Prop} {a : A}
    {arg : Option A} {c c' : Cell V} (h : LocalCell op s.output nd a c c') (h1 : nd → arg = none)
    (h2 : ¬ nd → arg = some a) : content s c' = stored s (content s c) (apply op arg) := by
  have marked : ∀ d : Cell V, Marked s.output d c' → content s c' = none := by
    intro d hd
    cases s with
    | mask => simp [content, hd.2]
    | value noData isNoData => simp [content, hd.1, show isNoData noData = true from hs]
  have none' : stored s (content s c) none = none := by
    cases s <;> simp [stored]
  by_cases hn : nd
  · rw [marked c (h.noData hn), h1 hn]
    exact none'.symm
  · rw [h2 hn]
    cases hd : op.withinDomain a with
    | false =>
      rw [marked c (h.outOfDomain hn hd)]
      simp [apply, hd, none']
    | true =>
      cases hr : op.withinRange a (op.compute a) with
      | false =>
        rw [marked _ (h.outOfRange hn hd hr)]
        simp [apply, hd, hr, none']
      | true =>
        rw [h.ok hn hd hr]
        simp only [apply, Option.bind_some, hd, hr, Bool.and_self, if_true]
        cases s with
        | mask => cases hm : c.masked <;> simp [content, stored, hm]
        | value noData isNoData => simp [content, stored]

theorem cell_put {s : Scheme V} {m : Rasters V} {k : Nat} {raster : List (Cell V)} {i : Nat} :
    cell s (put m k raster) i = fun j => if j = k then raster[i]?.bind (content s) else cell s m i j := by
  funext j
  simp only [cell, put]
  split <;> rfl

/-- The part that all calls share. -/
theorem finish {s : Scheme V} {size : Nat × Nat} {m : Rasters V} (hm : Sized size m) {c : Call V} {out : List (Cell V)}
    {P : Nat → Cell V → Cell V → Prop} (he : Elementwise P (m (target c)) out)
    (hP : ∀ i d d', (m (target c))[i]? = some d → P i d d' → i < size.1 * size.2 →
      content s d' = stored s (content s d) (result (cell s m i) c)) :
    Sized size (put m (target c) out) ∧
      ∀ i, i < size.1 * size.2 → cell s (put m (target c) out) i = cellCall s (cell s m i) c := by
  refine ⟨fun k => ?_, fun i hi => ?_⟩
  · simp only [put]
    split
    · rw [he.1, hm]
    · exact hm k
  · rw [cell_put]
    funext k
    simp only [cellCall]
    split
    · rename_i hk
      subst hk
      have hl : i < (m (target c)).length := by rw [hm]; exact hi
      have hd := List.getElem?_eq_getElem hl
      obtain ⟨d', e1, e2⟩ := he.2 i _ hd
      rw [e1, Option.bind_some, hP i _ d' hd e2 hi]
      simp only [cell, hd, Option.bind_some]
    · rfl

theorem call_spec (s : Scheme V) (hs : Recognised s) (size : Nat × Nat) (m : Rasters V) (hm : Sized size m) (c : Call V) :
    ∃ m', call s size m c = some m' ∧ Sized size m' ∧
      ∀ i, i < size.1 * size.2 → cell s m' i = cellCall s (cell s m i) c := by
  obtain ⟨n1, n2⟩ := size
  have hv : ∀ k, (values (m k)).length = n1 * n2 := fun k => by simpa [values] using hm k
  have hp : ∀ k, PolicyFor (s.input (m k)) (n1 * n2) := fun k => by
    have := input_policy s (m k)
    rwa [hm k] at this
  have get : ∀ k i, i < n1 * n2 → ∃ d, (m k)[i]? = some d ∧ (values (m k))[i]? = some d.val ∧
      cell s m i k = content s d := fun k i hi => by
    have hl : i < (m k).length := by rw [hm]; exact hi
    have hd := List.getElem?_eq_getElem hl
    exact ⟨_, hd, by simp [values, hd], by simp [cell, hd]⟩
  cases c with
  | unary op a r =>
    obtain ⟨out, e1, e2⟩ := C09_unary_2d op (s.input (m a)) s.output n1 n2 (values (m a)) (m r) (hv a) (hm r) (hp a)
    refine ⟨put m r out, by simp only [call, e1]; rfl, ?_⟩
    refine finish (c := .unary op a r) hm e2 fun i d d' hd h hi => ?_
    obtain ⟨x, g1, g2, g3⟩ := get a i hi
    refine localCell_content hs (h _ g2) (fun hn => ?_) (fun hn => ?_)
    · rw [g3]; exact (noDataAt_input g1).1 hn
    · rw [g3]; exact content_val (mt (noDataAt_input g1).2 hn)
  | binary op a b r =>
    obtain ⟨out, e1, e2⟩ := C10_binary_2d2d op (s.input (m a)) (s.input (m b)) s.output n1 n2 (values (m a))
      (values (m b)) (m r) (hv a) (hv b) (hm r) (hp a) (hp b)
    refine ⟨put m r out, by simp only [call, e1]; rfl, ?_⟩
    refine finish (c := .binary op a b r) hm e2 fun i d d' hd h hi => ?_
    obtain ⟨x, g1, g2, g3⟩ := get a i hi
    obtain ⟨y, k1, k2, k3⟩ := get b i hi
    refine localCell_content hs (h _ _ g2 k2) (fun hn => ?_) (fun hn => ?_)
    · rw [g3, k3, both]
      rcases hn with hn | hn
      · rw [(noDataAt_input g1).1 hn]; rfl
      · rw [(noDataAt_input k1).1 hn]; cases content s x <;> rfl
    · rw [not_or] at hn
      rw [g3, k3, content_val (mt (noDataAt_input g1).2 hn.1), content_val (mt (noDataAt_input k1).2 hn.2)]
      rfl
  | binaryRight op a v r =>
    obtain ⟨out, e1, e2⟩ := C10_binary_2d0d op (s.input (m a)) .skip s.output n1 n2 (values (m a)) v (m r) (hv a) (hm r)
      (hp a) trivial
    refine ⟨put m r out, by simp only [call, e1]; rfl, ?_⟩
    refine finish (c := .binaryRight op a v r) hm e2 fun i d d' hd h hi => ?_
    obtain ⟨x, g1, g2, g3⟩ := get a i hi
    refine localCell_content hs (h _ g2) (fun hn => ?_) (fun hn => ?_)
    · rw [g3, both]
      rcases hn with hn | hn
      · rw [(noDataAt_input g1).1 hn]; rfl
      · exact hn.elim
    · rw [not_or] at hn
      rw [g3, content_val (mt (noDataAt_input g1).2 hn.1)]
      rfl
  | binaryLeft op v b r =>
    obtain ⟨out, e1, e2⟩ := C10_binary_0d2d op .skip (s.input (m b)) s.output n1 n2 v (values (m b)) (m r) (hv b) (hm r)
      trivial (hp b)
    refine ⟨put m r out, by simp only [call, e1]; rfl, ?_⟩
    refine finish (c := .binaryLeft op v b r) hm e2 fun i d d' hd h hi => ?_
    obtain ⟨x, g1, g2, g3⟩ := get b i hi
    refine localCell_content hs (h _ g2) (fun hn => ?_) (fun hn => ?_)
    · rw [g3, both]
      rcases hn with hn | hn
      · exact hn.elim
      · rw [(noDataAt_input g1).1 hn]; rfl
    · rw [not_or] at hn
      rw [g3, content_val (mt (noDataAt_input g1).2 hn.2)]
      rfl

/-- A program of local operations treats each cell by itself, as if the operations were performed on values that may be
missing: an operation has no result if an argument is missing, or if it is out of domain or range. -/
theorem C98_program (s : Scheme V) (hs : Recognised s) (size : Nat × Nat) (m : Rasters V) (hm : Sized size m)
    (cs : List (Call V)) :
    ∃ m', calls s size m cs = some m' ∧ Sized size m' ∧
      ∀ i, i < size.1 * size.2 → cell s m' i = cellCalls s (cell s m i) cs := by
  induction cs generalizing m with
  | nil => exact ⟨m, rfl, hm, fun _ _ => rfl⟩
  | cons c cs ih =>
    obtain ⟨m1, e1, e2, e3⟩ := call_spec s hs size m hm c
    obtain ⟨m2, f1, f2, f3⟩ := ih m1 e2
    refine ⟨m2, by rw [calls, e1]; exact f1, f2, fun i hi => ?_⟩
    rw [f3 i hi, e3 i hi]
    rfl

/-- The number of threads does not matter. -/
theorem C98_threads (s : Scheme V) (hs : Recognised s) (size : Nat × Nat) (m : Rasters V) (hm : Sized size m)
    (cs : List (Call V)) (threads : Nat) (ht : 1 ≤ threads) (o : Option (Rasters V)) :
    CallsBy threads s size m cs o ↔ o = calls s size m cs := by
  have one : ∀ m : Rasters V, Sized size m → ∀ (c : Call V) o, CallBy threads s size m c o ↔ o = call s size m c := by
    intro m hm c o
    obtain ⟨n1, n2⟩ := size
    have hv : ∀ k, (values (m k)).length = n1 * n2 := fun k => by simpa [values] using hm k
    have hp : ∀ k, PolicyFor (s.input (m k)) (n1 * n2) := fun k => by
      have := input_policy s (m k)
      rwa [hm k] at this
    cases c with
    | unary op a r =>
      simp only [CallBy, call,
        C04_unary_2d op (s.input (m a)) s.output n1 n2 (values (m a)) (m r) (hv a) (hm r) (hp a) threads ht]
      exact ⟨fun ⟨x, e, h⟩ => e ▸ h, fun h => ⟨_, rfl, h⟩⟩
    | binary op a b r =>
      simp only [CallBy, call, C04_binary_2d2d op (s.input (m a)) (s.input (m b)) s.output n1 n2 (values (m a))
        (values (m b)) (m r) (hv a) (hv b) (hm r) (hp a) (hp b) threads ht]
      exact ⟨fun ⟨x, e, h⟩ => e ▸ h, fun h => ⟨_, rfl, h⟩⟩
    | binaryRight op a v r =>
      simp only [CallBy, call, C04_binary_2d0d op (s.input (m a)) .skip s.output n1 n2 (values (m a)) v (m r) (hv a)
        (hm r) (hp a) trivial threads ht]
      exact ⟨fun ⟨x, e, h⟩ => e ▸ h, fun h => ⟨_, rfl, h⟩⟩
    | binaryLeft op v b r =>
      simp only [CallBy, call, C04_binary_0d2d op .skip (s.input (m b)) s.output n1 n2 v (values (m b)) (m r) (hv b)
        (hm r) trivial (hp b) threads ht]
      exact ⟨fun ⟨x, e, h⟩ => e ▸ h, fun h => ⟨_, rfl, h⟩⟩
  induction cs generalizing m with
  | nil =>
    constructor
    · intro h; cases h; rfl
    · rintro rfl; exact .nil m
  | cons c cs ih =>
    obtain ⟨m1, e1, e2, -⟩ := call_spec s hs size m hm c
    rw [calls, e1, Option.bind_some]
    constructor
    · intro h
      cases h with
      | fails _ _ _ h =>
        have := (one m hm c none).1 h
        rw [e1] at this
        cases this
      | cons _ m' _ _ _ h1 h2 =>
        have := (one m hm c _).1 h1
        rw [e1] at this
        cases this
        exact (ih m1 e2).1 h2
    · intro h
      exact .cons m m1 c cs o ((one m hm c _).2 e1.symm) ((ih m1 e2).2 h)

/-- Results depend neither on what was in the rasters that get them nor on marks in them, if each raster gets one result,
and no mark is in it. -/
theorem C98_fresh (x : Nat → Option V) (cs : List (Call V)) (hd : (cs.map target).Nodup)
    (hx : ∀ c ∈ cs, x (target c) ≠ none) : cellCalls .mask x cs = plainCalls x cs := by
  induction cs generalizing x with
  | nil => rfl
  | cons c cs ih =>
    simp only [List.map_cons, List.nodup_cons, List.mem_map, not_exists, not_and] at hd
    have h1 : cellCall .mask x c = fun k => if k = target c then result x c else x k := by
      funext k
      simp only [cellCall]
      split
      · rename_i hk
        subst hk
        cases h : x (target c) with
        | none => exact absurd h (hx c (by simp))
        | some v => rfl
      · rfl
    rw [cellCalls, plainCalls, List.foldl_cons, List.foldl_cons, h1]
    refine ih _ hd.2 fun d hdm => ?_
    rw [if_neg (hd.1 d hdm)]
    exact hx d (by simp [hdm])

/-- Idem, for rasters that use a value that none of the results happens to be. -/
theorem C98_no_collision (noData : V) (isNoData : V → Bool) (x : Nat → Option V) (cs : List (Call V))
    (h : ∀ c ∈ cs, ∀ y v, result y c = some v → isNoData v = false) :
    cellCalls (.value noData isNoData) x cs = plainCalls x cs := by
  induction cs generalizing x with
  | nil => rfl
  | cons c cs ih =>
    have h1 : cellCall (.value noData isNoData) x c = fun k => if k = target c then result x c else x k := by
      funext k
      simp only [cellCall]
      split
      · simp only [stored]
        cases hr : result x c with
        | none => rfl
        | some v => simp [h c (by simp) x v hr]
      · rfl
    rw [cellCalls, plainCalls, List.foldl_cons, List.foldl_cons, h1]
    exact ih _ fun d hd => h d (by simp [hd])

/-- Subtracting and dividing, for examples. -/
def minusOp : LocalOp (Int × Int) Int := ⟨fun _ => true, fun a => a.1 - a.2, fun _ _ => true⟩

@[inherit_doc minusOp]
def overOp : LocalOp (Int × Int) Int := ⟨fun a => a.2 != 0, fun a => a.1 / a.2, fun _ _ => true⟩

/-- Rasters for examples. -/
def someRasters : Rasters Int
  | 0 => [⟨6, false⟩, ⟨7, false⟩, ⟨8, true⟩, ⟨9, false⟩]
  | 1 => [⟨2, false⟩, ⟨7, false⟩, ⟨1, false⟩, ⟨8, false⟩]
  | _ => [⟨0, false⟩, ⟨0, false⟩, ⟨0, false⟩, ⟨0, false⟩]

example : ((calls .mask (2, 2) someRasters [.binary minusOp 0 1 2, .binaryLeft overOp 12 2 3]).map fun m => m 3) =
    some [⟨3, false⟩, ⟨0, true⟩, ⟨0, true⟩, ⟨12, false⟩] := by decide +kernel

example : Sized (2, 2) someRasters := by
  intro k
  match k with
  | 0 => rfl
  | 1 => rfl
  | _ + 2 => rfl

/-- A mark that is in the mask before the call stays there, also if there is a result. -/
theorem C98_stale_false :
    ((calls .mask (1, 1) (fun k => if k = 0 then [⟨5, false⟩] else [⟨0, true⟩]) [.binaryRight minusOp 0 1 1]).map
      fun m => m 1) = some [(⟨4, true⟩ : Cell Int)] := by decide +kernel

/-- A result that happens to be the value that stands for no value is lost. -/
theorem C98_collision_false : let s : Scheme Int := .value (-9999) (· == -9999)
    ((calls s (1, 1) (fun k => if k = 0 then [⟨1, false⟩] else [⟨0, false⟩])
      [.binaryRight minusOp 0 10000 1, .binaryRight minusOp 1 1 2]).map fun m => m 2) = some [⟨-9999, false⟩] := by
  decide +kernel

/-- If NaN stands for no value, a cell that was marked is not recognised as such by the next operation: here NaN is
greater than zero or it is not, and the latter is reported as a fact. -/
theorem C98_nan_false : let s : Scheme Domains.Flt := .value .nan (Domains.Flt.eq · .nan)
    let positive : LocalOp Domains.Flt Domains.Flt :=
      ⟨fun _ => true, fun a => if Domains.Flt.lt (.fin 0) a then .fin 1 else .fin 0, fun _ _ => true⟩
    ¬ Recognised s ∧
    ((calls s (1, 1) (fun k => if k = 0 then [⟨.fin 1, false⟩] else [⟨.fin 0, false⟩])
      [.binaryRight (FloatArith.divFltOp .double) 0 (.fin 0) 1, .unary positive 1 2]).map fun m => (m 1, m 2)) =
      some ([⟨.nan, false⟩], [⟨.fin 0, false⟩]) := by
  refine ⟨by simp [Recognised, Domains.Flt.eq], by decide +kernel⟩

/-- For all values other than NaN it is. -/
theorem C98_numbers (noData : Domains.Flt) : Recognised (.value noData (Domains.Flt.eq · noData)) ↔ noData ≠ .nan := by
  cases noData <;> simp [Recognised, Domains.Flt.eq]

end Fern.Programs
