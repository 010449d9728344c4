import Verif.Spec.PySession
import Verif.Props.PyOps

/-! # Lemmas for C113 -/

namespace Fern.PySession

open Fern Fern.Spec PyOps PyOps.Spec Spec

theorem andThen_ok {α β : Type} {a : Out α} {f : α → Out β} {b : β} :
    a.andThen f = .ok b ↔ ∃ x, a = .ok x ∧ f x = .ok b := by
  cases a <;> simp [Out.andThen]

/-- A raster as programs can make it. -/
def Good (r : Raster) : Prop := WellFormed r ∧ Supported r.type

theorem supported_result {t u r : IntTy} (ht : Supported t) (hu : Supported u) (h : resultInt t u = some r) :
    Supported r := by
  rw [supported_iff] at *
  revert ht hu h
  cases t <;> cases u <;> cases r <;> decide

theorem gives_good {o : Out Raster} {t : IntTy} {l q : Raster} {f : Nat → Option Int} (h : Gives o t l f)
    (ht : Supported t) (hq : o = .ok q) : Good q := by
  obtain ⟨q', h1, h2, -, h3, -⟩ := h
  rw [hq] at h1
  cases h1
  exact ⟨h3, h2 ▸ ht⟩

theorem rasters_cases (o : Arith) (g : Nat → Int) {l r : Raster} (hl : Good l) (hr : Good r) :
    (∀ g', rasterRaster o g' l r = rasterRaster o g l r) ∧ ∀ q, rasterRaster o g l r = .ok q → Good q := by
  by_cases hsz : r.rows = l.rows ∧ r.cols = l.cols
  · obtain ⟨t, ht⟩ := resultInt_some l.type r.type
    have hk := fun g' => rasterRaster_eq o g' hl.1 hr.1 hsz.1 hsz.2 hl.2 hr.2 ht
    by_cases hp : SomePair (valueAt l) (valueAt r) (fun a b => o.elem l.type r.type a b = none)
    · refine ⟨fun g' => by rw [(hk g').1 hp, (hk g).1 hp], fun q hq => ?_⟩
      rw [(hk g).1 hp] at hq
      cases hq
    · exact ⟨fun g' => gives_unique ((hk g').2 hp) ((hk g).2 hp),
        fun q hq => gives_good ((hk g).2 hp) (supported_result hl.2 hr.2 ht) hq⟩
  · have := fun g' => (C88_sizes_differ o .less g' l r hsz).1
    refine ⟨fun g' => by rw [this, this], fun q hq => ?_⟩
    rw [this] at hq
    cases hq

theorem compareRasters_cases (c : Comparison) (g : Nat → Int) {l r : Raster} (hl : Good l) (hr : Good r) :
    (∀ g', compareRasters c g' l r = compareRasters c g l r) ∧ ∀ q, compareRasters c g l r = .ok q → Good q := by
  by_cases hsz : r.rows = l.rows ∧ r.cols = l.cols
  · have hk := fun g' => compareRasters_eq c g' hl.1 hr.1 hsz.1 hsz.2 hl.2 hr.2
    exact ⟨fun g' => gives_unique (hk g') (hk g), fun q hq => gives_good (hk g) (by simp [Supported]) hq⟩
  · have := fun g' => (C88_sizes_differ .add c g' l r hsz).2.2
    refine ⟨fun g' => by rw [this, this], fun q hq => ?_⟩
    rw [this] at hq
    cases hq

theorem number_cases (o : Arith) (g : Nat → Int) {l : Raster} (n : Int) (hl : Good l) :
    (∀ g', rasterNumber o g' l n = rasterNumber o g l n) ∧ ∀ q, rasterNumber o g l n = .ok q → Good q := by
  have hk := fun g' => rasterNumber_eq o g' n hl.1 hl.2
  refine ⟨fun g' => ?_, fun q hq => ?_⟩
  · rw [← C88_number_commutes o g g' l n hl.1 hl.2, ← C88_number_commutes o g g l n hl.1 hl.2]
  · by_contra hno
    by_cases hp : rasterNumber o g l n = .undefined
    · rw [hp] at hq
      cases hq
    · obtain ⟨k1, k2⟩ := hk g
      have := k2 fun h => hp (k1 h)
      exact hno (gives_good this hl.2 hq)

theorem elem_reflected (t : IntTy) (ht : Supported t) (n v : Int) :
    lessElem .i64 t n v = greaterElem t .i64 v n ∧ greaterElem .i64 t n v = lessElem t .i64 v n := by
  unfold lessElem greaterElem
  rcases ht with rfl | rfl | rfl | rfl | rfl <;> exact ⟨rfl, rfl⟩

theorem compareNumber_cases (c : Comparison) (g : Nat → Int) {l : Raster} (n : Int) (hl : Good l) :
    (∀ g', compareNumber c g' l n = compareNumber c g l n) ∧ ∀ q, compareNumber c g l n = .ok q → Good q := by
  have hk := fun g' => compareNumber_eq c g' n hl.1 hl.2
  exact ⟨fun g' => gives_unique (hk g') (hk g), fun q hq => gives_good (hk g) (by simp [Supported]) hq⟩

theorem numberCompare_reflected (g g' : Nat → Int) {l : Raster} (n : Int) (hl : Good l) :
    numberCompare .less g n l = compareNumber .greater g' l n ∧
    numberCompare .greater g n l = compareNumber .less g' l n := by
  have h1 := numberCompare_eq .less g n hl.1 hl.2
  have h2 := numberCompare_eq .greater g n hl.1 hl.2
  simp only [Comparison.elem, (elem_reflected l.type hl.2 n _).1, (elem_reflected l.type hl.2 n _).2] at h1 h2
  exact ⟨gives_unique h1 (compareNumber_eq .greater g' n hl.1 hl.2),
    gives_unique h2 (compareNumber_eq .less g' n hl.1 hl.2)⟩

theorem inPlace_good (o : Arith) {self : Raster} {other : Other} {q : Raster} (hl : Good self)
    (hr : Good (operand self other)) (hq : inPlace o self other = .ok q) : Good q := by
  have hok : (operand self other).type = self.type ∧ (operand self other).rows = self.rows ∧
      (operand self other).cols = self.cols := by
    cases other with
    | self => exact ⟨rfl, rfl, rfl⟩
    | raster r =>
      refine ⟨?_, ?_⟩
      · by_contra h
        rw [(C88_types_differ o (fun _ => 0) self self r h).1] at hq
        cases hq
      · by_contra h
        rw [(C88_sizes_differ o .less (fun _ => 0) self r h).2.1] at hq
        cases hq
  obtain ⟨k1, k2⟩ := inPlace_eq o hl.1 hr.1 hok.1 hok.2.1 hok.2.2 hl.2
  by_contra hno
  by_cases hp : inPlace o self other = .undefined
  · rw [hp] at hq
    cases hq
  · exact hno (gives_good (k2 fun h => hp (k1 h)) hl.2 hq)

theorem copyRows_empty {t : IntTy} {values : List (List Int)} {mask : List (List Bool)} (n : Nat) :
    ∀ {k : Nat} {vs : List Int}, copyRows t values mask 0 k n = some vs → vs = [] := by
  induction n with
  | zero =>
    intro k vs h
    simpa [copyRows] using h.symm
  | succ n ih =>
    intro k vs h
    simp only [copyRows, Option.bind_eq_bind, Option.bind_eq_some_iff, copyRow, Option.some.injEq] at h
    obtain ⟨_, _, _, _, _, rfl, ws, h1, rfl⟩ := h
    simp [ih h1]

theorem fromLists_good {t : IntTy} {values : List (List Int)} {mask : List (List Bool)} {origin cellSizes : Rat × Rat}
    {q : Raster} (h : fromLists t values mask origin cellSizes = .ok q) : Good q := by
  cases values with
  | nil => simp [fromLists] at h
  | cons first rest =>
    by_cases ht : Supported t
    · by_cases h0 : 0 < first.length
      · obtain ⟨k1, k2⟩ := C88_lists t first rest mask origin cellSizes ht h0
        by_cases hc : Complete t (first :: rest) mask first.length
        · obtain ⟨q', e1, e2, -, -, -, -, e3, -⟩ := k1 hc
          rw [h] at e1
          cases e1
          exact ⟨e3, e2 ▸ ht⟩
        · rw [k2 hc] at h
          cases h
      · have h0' : first.length = 0 := by omega
        simp only [fromLists, List.getElem?_cons_zero, supported_iff.1 ht, Bool.not_true, Bool.false_eq_true, if_false,
          h0'] at h
        split at h
        · cases h
        · next vs hv =>
          cases h
          rw [copyRows_empty _ hv]
          exact ⟨⟨by simp, by simp⟩, ht⟩
    · have := supported_iff.not.1 ht
      simp [fromLists, this] at h

/-! ### Names -/

theorem find_unbind (s : State) (x y : String) : (s.unbind x).find y = if y = x then none else s.find y := by
  unfold State.find State.unbind
  simp only
  rw [List.find?_filter]
  by_cases h : y = x
  · subst h
    rw [if_pos rfl, List.find?_eq_none.2 (by simp)]
    rfl
  · rw [if_neg h]
    congr 2
    funext p
    by_cases hp : p.1 = y
    · simp [hp, h]
    · simp [hp]

theorem find_bind (s : State) (x y : String) (o : Nat) :
    (s.bind x o).find y = if y = x then some o else s.find y := by
  have h1 : (s.bind x o).find y = if x = y then some o else (s.unbind x).find y := by
    unfold State.find State.bind
    simp only [List.find?_cons]
    by_cases h : x = y
    · simp [h]
    · rw [beq_false_of_ne h, if_neg h]
  rw [h1, find_unbind]
  by_cases h : y = x
  · simp [h]
  · rw [if_neg h, if_neg h, if_neg fun e : x = y => h e.symm]

theorem find_new (s : State) (x y : String) (v : Object) :
    (s.new x v).find y = if y = x then some s.objects.length else s.find y := by
  unfold State.new
  rw [find_bind]
  rfl

theorem alive_iff {s : State} {o : Nat} : s.alive o = true ↔ ∃ x, s.find x = some o := by
  unfold State.alive
  rw [List.any_eq_true]
  constructor
  · rintro ⟨p, -, h⟩
    exact ⟨p.1, by simpa using h⟩
  · rintro ⟨x, h⟩
    have h' := h
    unfold State.find at h'
    obtain ⟨p, hp, -⟩ := Option.map_eq_some_iff.1 h'
    have h1 := List.find?_some hp
    simp only [beq_iff_eq] at h1
    exact ⟨p, List.mem_of_find?_eq_some hp, by simp [h1, h]⟩

@[simp] theorem objects_bind (s : State) (x : String) (o : Nat) : (s.bind x o).objects = s.objects := rfl
@[simp] theorem objects_unbind (s : State) (x : String) : (s.unbind x).objects = s.objects := rfl
@[simp] theorem objects_new (s : State) (x : String) (v : Object) : (s.new x v).objects = s.objects ++ [v] := rfl

theorem get_ok {s : State} {x : String} {o : Nat} {v : Value} :
    s.get x = .ok (o, v) ↔ ∃ p, s.find x = some p ∧
      ((p = o ∧ s.objects[p]? = some v.object) ∨
        (s.objects[p]? = some (.reference o) ∧ (∃ z, s.find z = some o) ∧
          ∃ r, v = .raster r ∧ s.objects[o]? = some (.raster r))) := by
  unfold State.get
  cases hf : s.find x with
  | none => simp
  | some p =>
    simp only [Option.some.injEq, exists_eq_left']
    cases ho : s.objects[p]? with
    | none => simp
    | some ob =>
      cases ob with
      | number n =>
        cases v <;> simp [Value.object, eq_comm]
      | raster r =>
        cases v <;> simp [Value.object, eq_comm]
      | reference w =>
        by_cases ha : s.alive w = true
        · have ha' := alive_iff.1 ha
          simp only [ha, if_true]
          cases hw : s.objects[w]? with
          | none =>
            refine ⟨nofun, ?_⟩
            rintro (⟨-, h⟩ | ⟨h', -, r, -, h⟩)
            · cases v <;> cases h
            · cases h'
              rw [hw] at h
              cases h
          | some ow =>
            cases ow with
            | raster r =>
              simp only [Out.ok.injEq, Prod.mk.injEq, Option.some.injEq, Object.reference.injEq]
              constructor
              · rintro ⟨rfl, rfl⟩
                exact .inr ⟨rfl, ha', r, rfl, hw⟩
              · rintro (⟨-, h⟩ | ⟨rfl, -, r', rfl, h⟩)
                · cases v <;> cases h
                · rw [hw] at h
                  cases h
                  exact ⟨rfl, rfl⟩
            | number _ | reference _ =>
              refine ⟨nofun, ?_⟩
              rintro (⟨-, h⟩ | ⟨h', -, r, -, h⟩)
              · cases v <;> cases h
              · cases h'
                rw [hw] at h
                cases h
        · simp only [ha, Bool.false_eq_true, if_false]
          refine ⟨nofun, ?_⟩
          rintro (⟨-, h⟩ | ⟨h', h, -⟩)
          · cases v <;> cases h
          · cases h'
            exact absurd (alive_iff.2 h) ha

theorem get_error {s : State} (hs : Sound s) {x : String} : s.get x = .error ↔ s.find x = none := by
  unfold State.get
  cases hf : s.find x with
  | none => simp
  | some p =>
    simp only [reduceCtorEq, iff_false]
    have := hs.names x p hf
    rw [List.getElem?_eq_getElem this]
    cases ho : s.objects[p] with
    | number n => simp
    | raster r => simp
    | reference w =>
      dsimp only
      split
      · split <;> simp
      · simp

theorem sound_raster {s : State} (hs : Sound s) {x : String} {o : Nat} {r : Raster}
    (h : s.get x = .ok (o, .raster r)) : s.objects[o]? = some (.raster r) ∧ Good r := by
  obtain ⟨p, h1, ⟨rfl, h2⟩ | ⟨h2, h3, r', e, h4⟩⟩ := get_ok.1 h
  · exact ⟨h2, hs.rasters _ _ h2⟩
  · cases e
    exact ⟨h4, hs.rasters _ _ h4⟩

/-! ### Values -/

/-- Rasters are as programs make them. -/
def GoodValue : Value → Prop
  | .number _ => True
  | .raster r => Good r

theorem fits_i64 {n : Int} : (IntTy.i64.min ≤ n ∧ n ≤ IntTy.i64.max) ↔ Fits .i64 n := min_max_iff

theorem made_andThen (o : Out Raster) : (o.andThen fun q => Out.ok (Value.raster q)) = meant.made o := by
  cases o <;> rfl

theorem operate_meant (garbage : Nat → Int) (f : Operator) {v w : Value} (hv : GoodValue v) (hw : GoodValue w) :
    operate garbage f v w = meant f v w := by
  cases v with
  | number n =>
    cases w with
    | number m => cases f <;> simp [operate, meant, Operator.numbers]
    | raster r =>
      have hr : Good r := hw
      simp only [operate, made_andThen, method, callNumber, meant, fits_i64]
      by_cases hn : Fits .i64 n
      · simp only [hn, if_true]
        congr 1
        cases f with
        | add => exact (C88_number_commutes _ _ _ _ _ hr.1 hr.2).symm
        | multiply => exact (C88_number_commutes _ _ _ _ _ hr.1 hr.2).symm
        | less => exact (numberCompare_reflected _ _ n hr).1.symm
        | greater => exact (numberCompare_reflected _ _ n hr).2.symm
      · simp [hn, meant.made]
  | raster l =>
    have hl : Good l := hv
    simp only [operate, made_andThen]
    cases w with
    | number n =>
      simp only [method, callNumber, meant, fits_i64]
      by_cases hn : Fits .i64 n
      · simp only [hn, if_true]
        congr 1
        cases f with
        | add => exact (number_cases _ _ n hl).1 _
        | multiply => exact (number_cases _ _ n hl).1 _
        | less => exact (compareNumber_cases _ _ n hl).1 _
        | greater => exact (compareNumber_cases _ _ n hl).1 _
      · simp [hn, meant.made]
    | raster r =>
      have hr : Good r := hw
      simp only [method, meant]
      congr 1
      cases f with
      | add => exact (rasters_cases _ _ hl hr).1 _
      | multiply => exact (rasters_cases _ _ hl hr).1 _
      | less => exact (compareRasters_cases _ _ hl hr).1 _
      | greater => exact (compareRasters_cases _ _ hl hr).1 _

theorem callNumber_good {garbage : Nat → Int} {f : Operator} {l q : Raster} {n : Int} (hl : Good l)
    (h : callNumber garbage f l n = .ok q) : Good q := by
  unfold callNumber at h
  split at h
  · cases f with
    | add => exact (number_cases _ _ n hl).2 q h
    | multiply => exact (number_cases _ _ n hl).2 q h
    | less => exact (compareNumber_cases _ _ n hl).2 q h
    | greater => exact (compareNumber_cases _ _ n hl).2 q h
  · cases h

theorem operate_good {garbage : Nat → Int} {f : Operator} {v w q : Value} (hv : GoodValue v) (hw : GoodValue w)
    (h : operate garbage f v w = .ok q) : GoodValue q := by
  cases v with
  | number n =>
    cases w with
    | number m =>
      simp only [operate, Out.ok.injEq] at h
      subst h
      trivial
    | raster r =>
      simp only [operate, andThen_ok, method] at h
      obtain ⟨x, h1, h2⟩ := h
      cases h2
      exact callNumber_good (show Good r from hw) h1
  | raster l =>
    simp only [operate, andThen_ok] at h
    obtain ⟨x, h1, h2⟩ := h
    cases h2
    have hl : Good l := hv
    cases w with
    | number n => exact callNumber_good hl h1
    | raster r =>
      have hr : Good r := hw
      simp only [method] at h1
      cases f with
      | add => exact (rasters_cases _ _ hl hr).2 _ h1
      | multiply => exact (rasters_cases _ _ hl hr).2 _ h1
      | less => exact (compareRasters_cases _ _ hl hr).2 _ h1
      | greater => exact (compareRasters_cases _ _ hl hr).2 _ h1

theorem eval_good {garbage : Nat → Int} {s : State} (hs : Sound s) {e : Expr} :
    ∀ {v : Value}, eval garbage s e = .ok v → GoodValue v := by
  induction e with
  | name x =>
    intro v h
    simp only [eval, andThen_ok] at h
    obtain ⟨⟨o, w⟩, h1, h2⟩ := h
    cases h2
    cases w with
    | number n => trivial
    | raster r => exact (sound_raster hs h1).2
  | number n =>
    intro v h
    cases h
    trivial
  | raster t vs m o c =>
    intro v h
    simp only [eval, andThen_ok] at h
    obtain ⟨r, h1, h2⟩ := h
    cases h2
    exact fromLists_good h1
  | operate f a b iha ihb =>
    intro v h
    simp only [eval, andThen_ok] at h
    obtain ⟨x, h1, y, h2, h3⟩ := h
    exact operate_good (iha h1) (ihb h2) h3

theorem eval_means (garbage : Nat → Int) {s : State} {env : Environment} (hs : Sound s) (hr : HasValues s env)
    {e : Expr} : ∀ {v : Value}, eval garbage s e = .ok v ↔ Means env e v := by
  induction e with
  | name x =>
    intro v
    have := hr x
    simp only [eval, andThen_ok]
    constructor
    · rintro ⟨⟨o, w⟩, h1, h2⟩
      cases h2
      cases he : env x with
      | none =>
        rw [he] at this
        rw [h1] at this
        cases this
      | some u =>
        rw [he] at this
        obtain ⟨o', h3⟩ := this
        rw [h1] at h3
        cases h3
        exact .name he
    · intro h
      cases h with
      | name h =>
        rw [h] at this
        obtain ⟨o, h3⟩ := this
        exact ⟨_, h3, rfl⟩
  | number n =>
    intro v
    constructor
    · intro h
      cases h
      exact .number
    · intro h
      cases h
      rfl
  | raster t vs m o c =>
    intro v
    simp only [eval, andThen_ok]
    constructor
    · rintro ⟨r, h1, h2⟩
      cases h2
      exact .raster h1
    · intro h
      cases h with
      | raster h => exact ⟨_, h, rfl⟩
  | operate f a b iha ihb =>
    intro v
    simp only [eval, andThen_ok]
    constructor
    · rintro ⟨x, h1, y, h2, h3⟩
      rw [operate_meant garbage f (eval_good hs h1) (eval_good hs h2)] at h3
      exact .operate (iha.1 h1) (ihb.1 h2) h3
    · intro h
      cases h with
      | operate h1 h2 h3 =>
        have e1 := iha.2 h1
        have e2 := ihb.2 h2
        exact ⟨_, e1, _, e2, by rw [operate_meant garbage f (eval_good hs e1) (eval_good hs e2)]; exact h3⟩

/-! ### States -/

theorem sound_bind {s : State} (hs : Sound s) {x : String} {o : Nat} (ho : o < s.objects.length) :
    Sound (s.bind x o) where
  rasters := hs.rasters
  names y o' h := by
    rw [find_bind] at h
    split at h
    · cases h
      exact ho
    · exact hs.names y o' h
  references := hs.references

theorem sound_unbind {s : State} (hs : Sound s) (x : String) : Sound (s.unbind x) where
  rasters := hs.rasters
  names y o h := by
    rw [find_unbind] at h
    split at h
    · cases h
    · exact hs.names y o h
  references := hs.references

theorem getElem_snoc {α : Type} {l : List α} {a b : α} {i : Nat} :
    (l ++ [a])[i]? = some b ↔ l[i]? = some b ∨ (i = l.length ∧ a = b) := by
  rcases Nat.lt_trichotomy i l.length with h | h | h
  · rw [List.getElem?_append_left h]
    simp [Nat.ne_of_lt h]
  · subst h
    simp
  · rw [List.getElem?_eq_none (by simp; omega), List.getElem?_eq_none (by omega)]
    simp
    omega

theorem sound_new {s : State} (hs : Sound s) (x : String) {v : Object}
    (h1 : ∀ r, v = .raster r → Good r) (h2 : ∀ w, v = .reference w → ∃ r, s.objects[w]? = some (.raster r)) :
    Sound (s.new x v) where
  rasters o r h := by
    rw [objects_new, getElem_snoc] at h
    rcases h with h | ⟨-, h⟩
    · exact hs.rasters o r h
    · exact h1 r h
  names y o h := by
    rw [find_new] at h
    rw [objects_new, List.length_append, List.length_singleton]
    split at h
    · cases h
      omega
    · have := hs.names y o h
      omega
  references o w h := by
    rw [objects_new, getElem_snoc] at h
    rw [objects_new]
    rcases h with h | ⟨-, h⟩
    · obtain ⟨r, hr⟩ := hs.references o w h
      exact ⟨r, getElem_snoc.2 (.inl hr)⟩
    · obtain ⟨r, hr⟩ := h2 w h
      exact ⟨r, getElem_snoc.2 (.inl hr)⟩

theorem value_good {v : Value} (h : GoodValue v) : ∀ r, v.object = .raster r → Good r := by
  intro r e
  cases v with
  | number => cases e
  | raster => cases e; exact h

theorem value_plain {v : Value} {w : Nat} : v.object ≠ .reference w := by cases v <;> nofun

theorem sound_set {s : State} (hs : Sound s) {o : Nat} {q : Raster}
    (hq : Good q) : Sound { s with objects := s.objects.set o (.raster q) } where
  rasters o' r' h := by
    simp only [List.getElem?_set] at h
    split at h
    · split at h
      · cases h
        exact hq
      · cases h
    · exact hs.rasters o' r' h
  names y o' h := by
    rw [List.length_set]
    exact hs.names y o' h
  references o' w h := by
    simp only [List.getElem?_set] at h ⊢
    split at h
    · split at h <;> cases h
    · obtain ⟨r', hr'⟩ := hs.references o' w h
      by_cases e : o = w
      · have : w < s.objects.length := by
          rw [List.getElem?_eq_some_iff] at hr'
          exact hr'.1
        exact ⟨q, by rw [if_pos e, if_pos (e ▸ this)]⟩
      · exact ⟨r', by rw [if_neg e]; exact hr'⟩

theorem holder_ok {garbage : Nat → Int} {s : State} {e : Expr} {o : Nat} {r : Raster} {v : Value}
    (h : holder s e = some o) (hr : s.objects[o]? = some (.raster r)) (hv : eval garbage s e = .ok v) :
    v = .raster r := by
  cases e with
  | name x =>
    simp only [eval, andThen_ok] at hv
    obtain ⟨⟨o', w⟩, h1, h2⟩ := hv
    cases h2
    simp only [holder, h1, Option.some.injEq] at h
    subst h
    obtain ⟨p, -, ⟨rfl, h2⟩ | ⟨-, -, r', rfl, h2⟩⟩ := get_ok.1 h1
    · rw [hr] at h2
      cases w <;> cases h2
      rfl
    · rw [hr] at h2
      cases h2
      rfl
  | number => cases h
  | raster => cases h
  | operate => cases h

/-- What an operation in place does. -/
theorem callInPlace_ok {garbage : Nat → Int} {f : Arith} {s : State} {o : Nat} {r : Raster} {e : Expr} {s' : State}
    (h : callInPlace garbage f s o r e = .ok s') :
    ∃ r' q, eval garbage s e = .ok (.raster r') ∧
      inPlace f r (if holder s e = some o then .self else .raster r') = .ok q ∧
      s' = { s with objects := s.objects.set o (.raster q) } := by
  simp only [callInPlace, andThen_ok] at h
  obtain ⟨v, h1, h2⟩ := h
  cases v with
  | number => cases h2
  | raster r' =>
    simp only [andThen_ok] at h2
    obtain ⟨q, h3, h4⟩ := h2
    cases h4
    exact ⟨r', q, h1, h3, rfl⟩

theorem sound_callInPlace {garbage : Nat → Int} {f : Arith} {s : State} (hs : Sound s) {o : Nat} {r : Raster} {e : Expr}
    {s' : State} (ho : s.objects[o]? = some (.raster r)) (h : callInPlace garbage f s o r e = .ok s') :
    Sound s' ∧ ∃ q, s'.objects[o]? = some (.raster q) := by
  obtain ⟨r', q, h1, h2, rfl⟩ := callInPlace_ok h
  have hr' : Good r' := eval_good hs h1
  have hr : Good r := hs.rasters o r ho
  refine ⟨sound_set hs (inPlace_good f hr ?_ h2), q, ?_⟩
  · split
    · exact hr
    · exact hr'
  · have : o < s.objects.length := (List.getElem?_eq_some_iff.1 ho).1
    simp [this]

theorem sound_assign {garbage : Nat → Int} {s : State} (hs : Sound s) {x : String} {e : Expr} {s' : State}
    (h : assign garbage s x e = .ok s') : Sound s' := by
  unfold assign at h
  split at h
  · next y =>
    split at h
    · cases h
    · next o ho =>
      cases h
      exact sound_bind hs (hs.names _ _ ho)
  · rw [andThen_ok] at h
    obtain ⟨v, h1, h2⟩ := h
    cases h2
    exact sound_new hs x (value_good (eval_good hs h1)) fun w e => absurd e value_plain

theorem sound_exec {garbage : Nat → Int} {s : State} (hs : Sound s) {c : Statement} {s' : State}
    (h : exec garbage s c = .ok s') : Sound s' := by
  cases c with
  | assign x e => exact sound_assign hs h
  | times x e => exact sound_assign (e := .operate .multiply (.name x) e) hs h
  | plus x e =>
    simp only [exec, andThen_ok] at h
    obtain ⟨⟨o, v⟩, h1, h2⟩ := h
    cases v with
    | number n => exact sound_assign hs h2
    | raster r =>
      simp only [andThen_ok] at h2
      obtain ⟨s1, h3, h4⟩ := h2
      cases h4
      obtain ⟨k1, k2⟩ := sound_callInPlace hs (sound_raster hs h1).1 h3
      exact sound_new k1 x nofun fun w e => by cases e; exact k2
  | call f x e =>
    simp only [exec, andThen_ok] at h
    obtain ⟨⟨o, v⟩, h1, h2⟩ := h
    cases v with
    | number n => cases h2
    | raster r => exact (sound_callInPlace hs (sound_raster hs h1).1 h2).1
  | look x =>
    simp only [exec] at h
    split at h
    · cases h
    · split at h
      · rw [andThen_ok] at h
        obtain ⟨a, -, h⟩ := h
        cases h
        exact ⟨hs.rasters, hs.names, hs.references⟩
      · cases h
      · cases h
  | delete x =>
    simp only [exec] at h
    split at h
    · cases h
      exact sound_unbind hs x
    · cases h

/-! ### Programs that change no raster -/

theorem plain_get {s : State} (hp : Plain s) {x : String} {o : Nat} {v : Value} :
    s.get x = .ok (o, v) ↔ s.find x = some o ∧ s.objects[o]? = some v.object := by
  rw [get_ok]
  constructor
  · rintro ⟨p, h1, ⟨rfl, h2⟩ | ⟨h2, -⟩⟩
    · exact ⟨h1, h2⟩
    · exact absurd h2 (hp _ _)
  · rintro ⟨h1, h2⟩
    exact ⟨o, h1, .inl ⟨rfl, h2⟩⟩

theorem plain_new {s : State} (hp : Plain s) (x : String) (v : Value) : Plain (s.new x v.object) := by
  intro o w h
  rw [objects_new, getElem_snoc] at h
  rcases h with h | ⟨-, h⟩
  · exact hp o w h
  · exact value_plain h

theorem represents_iff {s : State} {env : Environment} (hs : Sound s) (hp : Plain s) :
    HasValues s env ↔ ∀ x, match env x with
      | none => s.find x = none
      | some v => ∃ o, s.find x = some o ∧ s.objects[o]? = some v.object := by
  unfold HasValues
  refine forall_congr' fun x => ?_
  cases env x with
  | none => exact get_error hs
  | some v => exact exists_congr fun o => plain_get hp

theorem represents_new {s : State} {env : Environment} (hs : Sound s) (hp : Plain s) (hr : HasValues s env) (x : String)
    {v : Value} (hv : GoodValue v) : HasValues (s.new x v.object) (env.with x (some v)) := by
  rw [represents_iff (sound_new hs x (value_good hv) fun w e => absurd e value_plain) (plain_new hp x v)]
  rw [represents_iff hs hp] at hr
  intro y
  unfold Environment.with
  rw [find_new]
  by_cases h : y = x
  · rw [if_pos h, if_pos h]
    exact ⟨_, rfl, by simp⟩
  · rw [if_neg h, if_neg h]
    have := hr y
    cases he : env y with
    | none =>
      rw [he] at this
      exact this
    | some w =>
      rw [he] at this
      obtain ⟨o, h1, h2⟩ := this
      exact ⟨o, h1, by rw [objects_new, getElem_snoc]; exact .inl h2⟩

theorem represents_bind {s : State} {env : Environment} (hs : Sound s) (hp : Plain s) (hr : HasValues s env) (x : String)
    {v : Value} {o : Nat} (ho : s.objects[o]? = some v.object) :
    HasValues (s.bind x o) (env.with x (some v)) := by
  have hl : o < s.objects.length := (List.getElem?_eq_some_iff.1 ho).1
  rw [represents_iff (sound_bind hs hl) (s := s.bind x o) hp]
  rw [represents_iff hs hp] at hr
  intro y
  unfold Environment.with
  rw [find_bind]
  by_cases h : y = x
  · rw [if_pos h, if_pos h]
    exact ⟨_, rfl, ho⟩
  · rw [if_neg h, if_neg h]
    exact hr y

theorem represents_unbind {s : State} {env : Environment} (hs : Sound s) (hp : Plain s) (hr : HasValues s env)
    (x : String) : HasValues (s.unbind x) (env.with x none) := by
  rw [represents_iff (sound_unbind hs x) (s := s.unbind x) hp]
  rw [represents_iff hs hp] at hr
  intro y
  unfold Environment.with
  rw [find_unbind]
  by_cases h : y = x
  · rw [if_pos h, if_pos h]
  · rw [if_neg h, if_neg h]
    exact hr y

/-- Assignments. -/
theorem assign_iff (garbage : Nat → Int) {s : State} {env : Environment} (hs : Sound s) (hp : Plain s)
    (hr : HasValues s env) (x : String) (e : Expr) :
    (∀ s', assign garbage s x e = .ok s' → ∃ v, Means env e v ∧ Plain s' ∧ HasValues s' (env.with x (some v))) ∧
    ∀ v, Means env e v → ∃ s', assign garbage s x e = .ok s' ∧ Plain s' ∧ HasValues s' (env.with x (some v)) := by
  have hrest : ∀ e : Expr, (assign garbage s x e = (eval garbage s e).andThen fun v => .ok (s.new x v.object)) →
      (∀ s', assign garbage s x e = .ok s' → ∃ v, Means env e v ∧ Plain s' ∧ HasValues s' (env.with x (some v))) ∧
      ∀ v, Means env e v → ∃ s', assign garbage s x e = .ok s' ∧ Plain s' ∧ HasValues s' (env.with x (some v)) := by
    intro e he
    rw [he]
    constructor
    · intro s' h
      rw [andThen_ok] at h
      obtain ⟨v, h1, h2⟩ := h
      cases h2
      exact ⟨v, (eval_means garbage hs hr).1 h1, plain_new hp x v, represents_new hs hp hr x (eval_good hs h1)⟩
    · intro v h
      have h1 := (eval_means garbage hs hr).2 h
      exact ⟨_, andThen_ok.2 ⟨v, h1, rfl⟩, plain_new hp x v, represents_new hs hp hr x (eval_good hs h1)⟩
  cases e with
  | name y =>
    have hy := (represents_iff hs hp).1 hr y
    simp only [assign]
    constructor
    · intro s' h
      split at h
      · cases h
      · next o ho =>
        cases h
        cases he : env y with
        | none =>
          rw [he] at hy
          rw [hy] at ho
          cases ho
        | some v =>
          rw [he] at hy
          obtain ⟨o', h1, h2⟩ := hy
          rw [ho] at h1
          cases h1
          exact ⟨v, .name he, hp, represents_bind hs hp hr x h2⟩
    · intro v h
      cases h with
      | name he =>
        rw [he] at hy
        obtain ⟨o, h1, h2⟩ := hy
        rw [h1]
        exact ⟨_, rfl, hp, represents_bind hs hp hr x h2⟩
  | number n => exact hrest _ rfl
  | raster t vs m o c => exact hrest _ rfl
  | operate f a b => exact hrest _ rfl

theorem arrays_assign {garbage : Nat → Int} {s s' : State} {x : String} {e : Expr} (h : assign garbage s x e = .ok s') :
    s'.arrays = s.arrays := by
  unfold assign at h
  split at h
  · split at h
    · cases h
    · cases h
      rfl
  · rw [andThen_ok] at h
    obtain ⟨v, -, h⟩ := h
    cases h
    rfl

end Fern.PySession
