import Verif.Lemmas.StdOps

/-!
# C107: attributes in space keep what is added to them; absolute values
-/

namespace Fern.StdOps

open Fern Fern.StdOps.Spec Fern.Domains

variable {G V α : Type}

/-- Adding always succeeds. The identifiers are 0, 1, 2, ...; the attribute has as many elements as were added; and going
through it gives the geometries in the order in which they were added. -/
theorem C107_added (l : List (G × V)) :
    ∃ a, addAll (.empty : Attribute G V) l = some (a, List.range l.length) ∧ a.size = some l.length ∧
      a.isEmpty = some l.isEmpty ∧ a.domain = (List.range l.length).zip (l.map (·.1)) := by
  refine ⟨numbered l, addAll_empty l, by simp [Attribute.size, numbered], ?_, ?_⟩
  · cases l <;> simp [Attribute.isEmpty, numbered]
  · apply List.ext_getElem <;> simp [numbered]

/-- Each geometry and each value is found by its identifier, and nothing else is. -/
theorem C107_found (l : List (G × V)) (a : Attribute G V) (h : Built l a) (i : Nat) :
    a.domain.geometry i = (l[i]?).map (·.1) ∧ a.value i = (l[i]?).map (·.2) := by
  rw [(built_iff l a).1 h]
  exact ⟨numbered_geometry l i, numbered_value l i⟩

/-- What was added earlier stays, with the same identifiers, whatever is added after it. -/
theorem C107_kept (l k : List (G × V)) (a b : Attribute G V) (ha : Built l a) (hb : Built (l ++ k) b) (i : Nat)
    (hi : i < l.length) : b.domain.geometry i = a.domain.geometry i ∧ b.value i = a.value i := by
  rw [(C107_found _ _ ha i).1, (C107_found _ _ ha i).2, (C107_found _ _ hb i).1, (C107_found _ _ hb i).2,
    List.getElem?_append_left hi]
  exact ⟨rfl, rfl⟩

example : Built [("a", (7 : Int)), ("b", 8), ("a", 9)] ⟨[(0, "a"), (1, "b"), (2, "a")], [(0, 7), (1, 8), (2, 9)]⟩ :=
  ⟨[0, 1, 2], rfl⟩

theorem absInt_right (t : IntTy) (v : Int) (h0 : t.min ≤ v) (h1 : v ≤ t.max) (h : t.signed = true → v ≠ t.min) :
    absInt t v = some (if v < 0 then -v else v) := by
  by_cases hv : v < 0
  · have hs : t.signed = true := by
      cases hs : t.signed with
      | true => rfl
      | false =>
        have : t.min = 0 := by simp [IntTy.min, hs]
        omega
    rw [if_pos hv, absInt_of t v (by have := h hs; omega) h1, abs_of_neg hv]
  · rw [if_neg hv, absInt_nonneg t v (by omega)]

/-- The absolute value of an integer constant is its magnitude, unless it is the least value of its type. -/
theorem C107_constant (t : IntTy) (v : Int) (h0 : t.min ≤ v) (h1 : v ≤ t.max) (h : t.signed = true → v ≠ t.min) :
    abs [(.constInt t v : Arg G)] = .ok [.constInt t (if v < 0 then -v else v)] := by
  have e := absInt_right t v h0 h1 h
  simp [abs, e]

example : abs [(.constInt .i8 (-127) : Arg Unit)] = .ok [.constInt .i8 127] :=
  C107_constant .i8 (-127) (by decide) (by decide) (by decide)

/-- The least value of a signed type has no magnitude in that type: for types of 8 and 16 bits the result is the negative
number itself, and for the others the behaviour is undefined. -/
theorem C107_least (t : IntTy) (hs : t.signed = true) :
    abs [(.constInt t t.min : Arg G)] = if t.bits < 32 then .ok [.constInt t t.min] else .undefined := by
  simp only [abs, absInt_min t hs]
  split <;> simp_all

/-- So an absolute value can be negative. -/
theorem C107_negative_false :
    abs [(.constInt .i8 (-128) : Arg Unit)] = .ok [.constInt .i8 (-128)] ∧
      abs [(.constInt .i64 (-9223372036854775808) : Arg Unit)] = .undefined :=
  ⟨C107_least .i8 rfl, C107_least .i64 rfl⟩

/-- The absolute value of a floating point constant is its magnitude: of infinities infinity, and of what is not a number
the same. -/
theorem C107_float (d : Bool) (x : Flt) : abs [(.constFlt d x : Arg G)] = .ok [.constFlt d (magnitude x)] := by
  simp [abs, absFlt_eq]

/-- The absolute values of a field of integers: a field with the same geometries in the same order, arrays of the same shapes
with the same masks, and the magnitudes of the cells that have a value. -/
theorem C107_field (t : IntTy) (l : List (G × Field Int)) (a : Attribute G (Field Int)) (ha : Built l a)
    (hrows : ∀ p ∈ l, 0 < p.2.rows)
    (hv : ∀ p ∈ l, ∀ r c, r < p.2.rows → c < p.2.cols → (p.2.cell r c).2 = false →
      t.min ≤ (p.2.cell r c).1 ∧ (p.2.cell r c).1 ≤ t.max ∧ (t.signed = true → (p.2.cell r c).1 ≠ t.min)) :
    ∃ k b, abs [.fieldInt t a] = .ok [.fieldInt t b] ∧ Built k b ∧
      List.Forall₂ (fun p q => q.1 = p.1 ∧
        Cells (fun v => some (if v < 0 then -v else v)) 0 p.2 q.2) l k := by
  rw [built_iff] at ha
  subst ha
  obtain ⟨k, hk, hf⟩ := absBoxes_numbered 0 (absInt t) l hrows (fun p hp r c hr hc hm => by
    obtain ⟨h0, h1, h2⟩ := hv p hp r c hr hc hm
    rw [absInt_right t _ h0 h1 h2]; rfl)
  refine ⟨k, numbered k, by simp [abs, hk, Outcome.andThen], (built_iff _ _).2 rfl, ?_⟩
  refine forall₂_imp_mem ?_ hf
  rintro p q hp ⟨h1, h2⟩
  refine ⟨h1, h2.rows, h2.cols, h2.mask, fun r c hr hc hm => ?_, h2.masked⟩
  obtain ⟨g0, g1, g2⟩ := hv p hp r c hr hc hm
  rw [← h2.value r c hr hc hm, absInt_right t _ g0 g1 g2]

/-- The same for a field of floating point numbers, whatever they are. -/
theorem C107_field_float (d : Bool) (l : List (G × Field Flt)) (a : Attribute G (Field Flt)) (ha : Built l a)
    (hrows : ∀ p ∈ l, 0 < p.2.rows) :
    ∃ k b, abs [.fieldFlt d a] = .ok [.fieldFlt d b] ∧ Built k b ∧
      List.Forall₂ (fun p q => q.1 = p.1 ∧ Cells (fun v => some (magnitude v)) (.fin 0) p.2 q.2) l k := by
  rw [built_iff] at ha
  subst ha
  obtain ⟨k, hk, hf⟩ := absBoxes_numbered (.fin 0) (fun x => some (absFlt x)) l hrows (by simp)
  refine ⟨k, numbered k, by simp [abs, hk, Outcome.andThen], (built_iff _ _).2 rfl, ?_⟩
  have e : (fun x => some (absFlt x)) = fun v => some (magnitude v) := by funext x; rw [absFlt_eq]
  rw [← e]
  exact hf

/-- A field with an array without rows has no absolute values: the execution does not succeed. Nor does it when a cell
that has a value holds the least value of a type of 32 or 64 bits. -/
theorem C107_field_not (t : IntTy) (l : List (G × Field Int)) (a : Attribute G (Field Int)) (ha : Built l a)
    (p : G × Field Int) (hp : p ∈ l)
    (h : p.2.rows = 0 ∨ (t.signed = true ∧ 32 ≤ t.bits ∧
      ∃ r c, r < p.2.rows ∧ c < p.2.cols ∧ p.2.cell r c = (t.min, false))) :
    ¬∃ r, abs [.fieldInt t a] = .ok r := by
  rw [built_iff] at ha
  subst ha
  rintro ⟨r, hr⟩
  have hn : ¬∃ dst, absField 0 (absInt t) p.2 = .ok dst := by
    rintro ⟨dst, hd⟩
    rcases h with h | ⟨hs, hb, r, c, h1, h2, h3⟩
    · simp [absField, h] at hd
    · have : (List.range p.2.rows).foldlM (absRow (absInt t) p.2) (fun r c => ((0 : Int), (p.2.cell r c).2)) = none := by
        apply absRows_none
        refine ⟨r, List.mem_range.2 h1, c, h2, by rw [h3], ?_⟩
        rw [h3, absInt_min t hs, if_neg (by omega)]
      simp only [absField, this] at hd
      split at hd <;> cases hd
  have := absBoxes_not_ok 0 (absInt t) l p hn l [] .empty rfl hp
  apply this
  simp only [abs] at hr
  have e : (l.mapIdx fun i p => (([] : List (G × Field Int)).length + i, p.1)) = (numbered l).domain := by
    simp [numbered]
  rw [e]
  cases hb : absBoxes 0 (absInt t) (numbered l) .empty (numbered l).domain with
  | ok b => exact ⟨b, rfl⟩
  | fails => rw [hb] at hr; cases hr
  | undefined => rw [hb] at hr; cases hr

/-- The array `[[-3, masked], [4, 0]]`. -/
def sampleField : Field Int := ⟨2, 2, fun r c => if r = 0 then (if c = 0 then (-3, false) else (5, true))
  else (if c = 0 then (4, false) else (0, false))⟩

example : ∃ k b, abs [.fieldInt .i32 ⟨[(0, "box")], [(0, sampleField)]⟩] = .ok [.fieldInt .i32 b] ∧ Built k b ∧
    List.Forall₂ (fun p q => q.1 = p.1 ∧ Cells (fun v => some (if v < 0 then -v else v)) 0 p.2 q.2)
      [("box", sampleField)] k := by
  refine C107_field .i32 [("box", sampleField)] _ ⟨[0], rfl⟩ (by simp [sampleField]) ?_
  intro p hp r c _ _ _
  rw [List.mem_singleton] at hp
  subst hp
  simp only [sampleField]
  split <;> split <;> decide

/-- If there is a result, it is one attribute, a constant or a field as the argument was, with values of the same type. -/
theorem C107_kind (args res : List (Arg G)) (h : abs args = .ok res) :
    ∃ x y, args = [x] ∧ res = [y] ∧ kind y = kind x := by
  match args with
  | [] => cases h
  | _ :: _ :: _ => simp [abs] at h
  | [.constInt t v] =>
    simp only [abs] at h
    cases ha : absInt t v with
    | none => rw [ha] at h; cases h
    | some r => rw [ha] at h; cases h; exact ⟨_, _, rfl, rfl, rfl⟩
  | [.constFlt d v] => cases h; exact ⟨_, _, rfl, rfl, rfl⟩
  | [.constString _] => cases h
  | [.constBool _] => cases h
  | [.fieldBool _] => cases h
  | [.fieldString _] => cases h
  | [.fieldInt t a] =>
    simp only [abs] at h
    cases ha : absBoxes 0 (absInt t) a .empty a.domain with
    | ok b => rw [ha] at h; cases h; exact ⟨_, _, rfl, rfl, rfl⟩
    | fails => rw [ha] at h; cases h
    | undefined => rw [ha] at h; cases h
  | [.fieldFlt d a] =>
    simp only [abs] at h
    cases ha : absBoxes (.fin 0) (fun x => some (absFlt x)) a .empty a.domain with
    | ok b => rw [ha] at h; cases h; exact ⟨_, _, rfl, rfl, rfl⟩
    | fails => rw [ha] at h; cases h
    | undefined => rw [ha] at h; cases h

/-- Taking the absolute value twice is taking it once. -/
theorem C107_twice (t : IntTy) (v r : Int) (h0 : t.min ≤ v) (h1 : v ≤ t.max)
    (h : abs [(.constInt t v : Arg G)] = .ok [.constInt t r]) : abs [(.constInt t r : Arg G)] = .ok [.constInt t r] := by
  by_cases hm : t.signed = true ∧ v = t.min
  · obtain ⟨hs, rfl⟩ := hm
    rw [C107_least t hs] at h
    split at h
    · cases h
      rw [C107_least t hs, if_pos ‹_›]
    · cases h
  · rw [C107_constant t v h0 h1 (fun hs e => hm ⟨hs, e⟩)] at h
    have e : (if v < 0 then -v else v) = r := by
      injection h with h; injection h with h; injection h
    have : absInt t r = some r := absInt_nonneg t r (by split at e <;> omega)
    simp [abs, this]

/-- Strings, booleans, and anything but one argument: an assertion fails. -/
theorem C107_unsupported (s : List Char) (b : Bool) (x y : Arg G) (l : List (Arg G)) :
    abs [(.constString s : Arg G)] = .fails ∧ abs [(.constBool b : Arg G)] = .fails ∧ abs ([] : List (Arg G)) = .fails ∧
      abs (x :: y :: l) = .fails := by
  refine ⟨rfl, rfl, rfl, ?_⟩
  cases x <;> rfl

/-- Addition and the conversion to `int32` have no results: whatever the arguments, executing them fails or
leaves nothing, although both operations promise a result. -/
theorem C107_add_false (args : List (Arg G)) :
    (∀ res, add args = .ok res → res = []) ∧ int32 args = .fails := by
  refine ⟨fun res h => ?_, rfl⟩
  unfold add at h
  split at h
  · cases h; rfl
  · cases h

example : add [(.constInt .i64 1 : Arg Unit), .constInt .i64 2] = .ok [] := rfl
example : add [(.constFlt true (.fin 1) : Arg Unit), .constInt .i64 2] = .fails := rfl

end Fern.StdOps
