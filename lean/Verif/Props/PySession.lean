import Verif.Lemmas.PySession

/-!
# C113: Python programs with rasters

Operators have the meaning of the operation that is written, also with a number at the left hand side. Programs without
`+=`, `iadd` and `imultiply` change no raster: names can be read as if they had values. `+=` and the two functions change
one raster, for all names that stand for it, and no other; `*=` does not, unlike what the code intends. After `+=` the
name refers to the object of the raster without keeping it: unless there is another name for it, the next use of the name
is undefined.
-/

namespace Fern.PySession

open Fern Fern.Spec PyOps PyOps.Spec Spec

/-- A raster of one row. -/
def line (t : IntTy) (values : List Int) : Raster := ⟨t, 1, values.length, (0, 0), (1, 1), values⟩

/-- The expression for such a raster. -/
def lineOf (t : IntTy) (values : List Int) : Expr :=
  .raster t [values] [values.map fun _ => false] (0, 0) (1, 1)

/-- The memory of results in examples. -/
def junk : Nat → Int := fun _ => 77

/-- The empty program state is a state. -/
theorem C113_start : Sound .empty ∧ Plain .empty ∧ HasValues .empty fun _ => none :=
  ⟨⟨nofun, nofun, nofun⟩, nofun, fun _ => rfl⟩

/-- All rasters of programs are well formed and have a supported type, whatever the program does. -/
theorem C113_sound (garbage : Nat → Int) (p : List Statement) :
    ∀ (s s' : State), Sound s → run garbage s p = .ok s' → Sound s' := by
  induction p with
  | nil =>
    intro s s' hs h
    cases h
    exact hs
  | cons c rest ih =>
    intro s s' hs h
    simp only [run, andThen_ok] at h
    obtain ⟨s1, h1, h2⟩ := h
    exact ih s1 s' (sound_exec hs h1) h2

/-- Operators do what is written, also with the number at the left hand side. -/
theorem C113_operators (garbage : Nat → Int) (s : State) (hs : Sound s) (f : Operator) (a b : Expr) (v w : Value)
    (ha : eval garbage s a = .ok v) (hb : eval garbage s b = .ok w) :
    eval garbage s (.operate f a b) = meant f v w := by
  simp only [eval, ha, hb, Out.andThen]
  exact operate_meant garbage f (eval_good hs ha) (eval_good hs hb)

example : eval junk .empty (.operate .less (.number 3) (lineOf .i32 [2, 3, 4, -2147483648])) =
      .ok (.raster (line .u8 [0, 0, 1, 255])) ∧
    eval junk .empty (.operate .multiply (.number 3) (lineOf .i32 [2, -2147483648])) =
      .ok (.raster (line .i32 [6, -2147483648])) := by decide +kernel

/-- Programs that change no raster have the meaning that they have if names had values. -/
theorem C113_values (garbage : Nat → Int) (p : List Statement) :
    ∀ (s : State) (env : Environment), Sound s → Plain s → HasValues s env → (∀ c ∈ p, Harmless c) →
      (∀ s', run garbage s p = .ok s' → ∃ env', Leads env p env' ∧ HasValues s' env') ∧
      ∀ env', Leads env p env' → ∃ s', run garbage s p = .ok s' ∧ HasValues s' env' := by
  induction p with
  | nil =>
    intro s env hs hp hr _
    refine ⟨fun s' h => ?_, fun env' h => ?_⟩
    · cases h
      exact ⟨env, .nil, hr⟩
    · cases h
      exact ⟨s, rfl, hr⟩
  | cons c rest ih =>
    intro s env hs hp hr hh
    have hrest : ∀ c ∈ rest, Harmless c := fun c hc => hh c (List.mem_cons_of_mem _ hc)
    have hc := hh c (List.mem_cons_self ..)
    cases c with
    | plus x e => exact hc.elim
    | call f x e => exact hc.elim
    | assign x e =>
      obtain ⟨k1, k2⟩ := assign_iff garbage hs hp hr x e
      refine ⟨fun s' h => ?_, fun env' h => ?_⟩
      · simp only [run, andThen_ok, exec] at h
        obtain ⟨s1, h1, h2⟩ := h
        obtain ⟨v, h3, h4, h5⟩ := k1 s1 h1
        obtain ⟨env', h6, h7⟩ := (ih s1 _ (sound_assign hs h1) h4 h5 hrest).1 s' h2
        exact ⟨env', .assign h3 h6, h7⟩
      · cases h with
        | assign h3 h6 =>
          obtain ⟨s1, h1, h4, h5⟩ := k2 _ h3
          obtain ⟨s', h2, h7⟩ := (ih s1 _ (sound_assign hs h1) h4 h5 hrest).2 env' h6
          exact ⟨s', andThen_ok.2 ⟨s1, h1, h2⟩, h7⟩
    | times x e =>
      obtain ⟨k1, k2⟩ := assign_iff garbage hs hp hr x (.operate .multiply (.name x) e)
      refine ⟨fun s' h => ?_, fun env' h => ?_⟩
      · simp only [run, andThen_ok, exec] at h
        obtain ⟨s1, h1, h2⟩ := h
        obtain ⟨v, h3, h4, h5⟩ := k1 s1 h1
        obtain ⟨env', h6, h7⟩ := (ih s1 _ (sound_assign hs h1) h4 h5 hrest).1 s' h2
        exact ⟨env', .times h3 h6, h7⟩
      · cases h with
        | times h3 h6 =>
          obtain ⟨s1, h1, h4, h5⟩ := k2 _ h3
          obtain ⟨s', h2, h7⟩ := (ih s1 _ (sound_assign hs h1) h4 h5 hrest).2 env' h6
          exact ⟨s', andThen_ok.2 ⟨s1, h1, h2⟩, h7⟩
    | look x =>
      have hx := (represents_iff hs hp).1 hr x
      have hs1 : ∀ a : List NumpyArray, Sound { s with arrays := a } := fun a =>
        ⟨hs.rasters, hs.names, hs.references⟩
      have hr1 : ∀ a : List NumpyArray, HasValues { s with arrays := a } env := fun a =>
        (represents_iff (hs1 a) hp).2 ((represents_iff hs hp).1 hr)
      refine ⟨fun s' h => ?_, fun env' h => ?_⟩
      · simp only [run, andThen_ok, exec] at h
        obtain ⟨s1, h1, h2⟩ := h
        split at h1
        · cases h1
        · next o ho =>
          split at h1
          · next r hor =>
            rw [andThen_ok] at h1
            obtain ⟨a, -, h1⟩ := h1
            cases h1
            obtain ⟨env', h6, h7⟩ := (ih { s with arrays := s.arrays ++ [a] } env (hs1 _) hp (hr1 _) hrest).1 s' h2
            refine ⟨env', .look (r := r) ?_ h6, h7⟩
            cases he : env x with
            | none =>
              rw [he] at hx
              rw [hx] at ho
              cases ho
            | some v =>
              rw [he] at hx
              obtain ⟨o', h8, h9⟩ := hx
              rw [ho] at h8
              cases h8
              rw [hor] at h9
              cases v <;> cases h9
              rfl
          · cases h1
          · cases h1
      · cases h with
        | @look _ _ r _ _ h3 h6 =>
          rw [h3] at hx
          obtain ⟨o, h8, h9⟩ := hx
          have hg := (hs.rasters o r h9).2
          obtain ⟨s', h2, h7⟩ := (ih { s with arrays := s.arrays ++ [⟨r.type, (r.rows, r.cols), r.values⟩] } env
            (hs1 _) hp (hr1 _) hrest).2 env' h6
          refine ⟨s', andThen_ok.2 ⟨_, ?_, h2⟩, h7⟩
          simp only [exec, h8]
          rw [h9]
          simp [Value.object, asArray, supported_iff.1 hg, Out.andThen]
    | delete x =>
      have hx := (represents_iff hs hp).1 hr x
      refine ⟨fun s' h => ?_, fun env' h => ?_⟩
      · simp only [run, andThen_ok, exec] at h
        obtain ⟨s1, h1, h2⟩ := h
        split at h1
        · next ho =>
          cases h1
          obtain ⟨env', h6, h7⟩ := (ih _ _ (sound_unbind hs x) hp (represents_unbind hs hp hr x) hrest).1 s' h2
          cases he : env x with
          | none =>
            rw [he] at hx
            rw [hx] at ho
            cases ho
          | some v => exact ⟨env', .delete he h6, h7⟩
        · cases h1
      · cases h with
        | delete h3 h6 =>
          rw [h3] at hx
          obtain ⟨o, h8, -⟩ := hx
          obtain ⟨s', h2, h7⟩ := (ih _ _ (sound_unbind hs x) hp (represents_unbind hs hp hr x) hrest).2 env' h6
          exact ⟨s', andThen_ok.2 ⟨s.unbind x, by simp [exec, h8], h2⟩, h7⟩

example : (run junk .empty [.assign "a" (lineOf .i32 [1, 2]), .assign "b" (.name "a"), .times "a" (.name "b"),
      .times "a" (.number 3)]).andThen (fun s => (s.get "a").andThen fun p => .ok p.2) =
    .ok (.raster (line .i32 [3, 12])) := by decide +kernel

/-- Functions `iadd` and `imultiply` change the raster that a name stands for: all names that stand for it stand for the
result, and the other names for what they stood for. -/
theorem C113_call (garbage : Nat → Int) (f : Arith) (s s' : State) (hs : Sound s) (x : String) (e : Expr)
    (o : Nat) (r : Raster) (hx : Stands s x o r) (h : exec garbage s (.call f x e) = .ok s') :
    ∃ r' q, eval garbage s e = .ok (.raster r') ∧
      inPlace f r (if holder s e = some o then .self else .raster r') = .ok q ∧
      (∀ y v, s.get y = .ok (o, v) → Stands s' y o q) ∧
      ∀ y w v, w ≠ o → s.get y = .ok (w, v) → s'.get y = .ok (w, v) := by
  simp only [exec, show s.get x = _ from hx, Out.andThen] at h
  obtain ⟨r', q, h1, h2, rfl⟩ := callInPlace_ok h
  have ho := (sound_raster hs hx).1
  have hl : o < s.objects.length := (List.getElem?_eq_some_iff.1 ho).1
  refine ⟨r', q, h1, h2, fun y v hy => ?_, fun y w v hw hy => ?_⟩
  · obtain ⟨p, h3, ⟨rfl, h4⟩ | ⟨h4, h5, -⟩⟩ := get_ok.1 hy
    · exact get_ok.2 ⟨p, h3, .inl ⟨rfl, by simp [hl, Value.object]⟩⟩
    · have hpo : o ≠ p := by
        rintro rfl
        rw [ho] at h4
        cases h4
      refine get_ok.2 ⟨p, h3, .inr ⟨?_, h5, q, rfl, by simp [hl]⟩⟩
      simp only [List.getElem?_set, if_neg hpo]
      exact h4
  · obtain ⟨p, h3, ⟨rfl, h4⟩ | ⟨h4, h5, r1, rfl, h6⟩⟩ := get_ok.1 hy
    · refine get_ok.2 ⟨p, h3, .inl ⟨rfl, ?_⟩⟩
      simp only [List.getElem?_set, if_neg fun e : o = p => hw e.symm]
      exact h4
    · have hpo : o ≠ p := by
        rintro rfl
        rw [ho] at h4
        cases h4
      refine get_ok.2 ⟨p, h3, .inr ⟨?_, h5, r1, rfl, ?_⟩⟩
      · simp only [List.getElem?_set, if_neg hpo]
        exact h4
      · simp only [List.getElem?_set, if_neg fun e : o = w => hw e.symm]
        exact h6

/-- The right hand side is the raster itself exactly if it is a name for it. -/
theorem C113_operand (garbage : Nat → Int) (s : State) (hs : Sound s) (x : String) (e : Expr) (o : Nat) (r r' : Raster)
    (hx : Stands s x o r) (he : eval garbage s e = .ok (.raster r')) :
    operand r (if holder s e = some o then .self else .raster r') = r' := by
  by_cases h : holder s e = some o
  · rw [if_pos h]
    have := holder_ok h (sound_raster hs hx).1 he
    cases this
    rfl
  · rw [if_neg h]
    rfl

/-- `x += e` does so too, for names other than `x`, if another name refers to the object of the raster: `x` itself then
stands for the result. -/
theorem C113_plus (garbage : Nat → Int) (s s' : State) (hs : Sound s) (x : String) (e : Expr) (o : Nat)
    (r : Raster) (hx : Stands s x o r) (hk : Shared s x o) (h : exec garbage s (.plus x e) = .ok s') :
    ∃ r' q, eval garbage s e = .ok (.raster r') ∧
      inPlace .add r (if holder s e = some o then .self else .raster r') = .ok q ∧
      (∀ y v, s.get y = .ok (o, v) → Stands s' y o q) ∧
      ∀ y w v, w ≠ o → s.get y = .ok (w, v) → s'.get y = .ok (w, v) := by
  have hx' : s.get x = .ok (o, .raster r) := hx
  simp only [exec, andThen_ok, hx', Out.ok.injEq, exists_eq_left'] at h
  obtain ⟨s1, h1, h2⟩ := h
  cases h2
  obtain ⟨r', q, k1, k2, k3, k4⟩ := C113_call garbage .add s s1 hs x e o r hx (by
    simp only [exec, hx', Out.andThen]
    exact h1)
  obtain ⟨_, _, -, -, e1⟩ := callInPlace_ok h1
  have hfind : ∀ y, s1.find y = s.find y := fun y => by rw [e1]; rfl
  have hlen : s1.objects.length = s.objects.length := by rw [e1]; simp
  have hs1 : Sound s1 := (sound_callInPlace hs (sound_raster hs hx).1 h1).1
  have ho1 := (sound_raster hs1 (k3 x _ hx')).1
  obtain ⟨z, hz, hz'⟩ := hk
  have hzx : (s1.new x (.reference o)).find z = some o := by rw [find_new, if_neg hz, hfind, hz']
  have old : ∀ {i : Nat} {ob : Object}, s1.objects[i]? = some ob →
      (s1.new x (.reference o)).objects[i]? = some ob := fun h => by
    rw [objects_new, getElem_snoc]
    exact .inl h
  have hself : (s1.new x (.reference o)).get x = .ok (o, .raster q) := by
    refine get_ok.2 ⟨s1.objects.length, by rw [find_new, if_pos rfl], .inr ⟨by simp, ⟨z, hzx⟩, q, rfl, old ho1⟩⟩
  have keep : ∀ y w v, y ≠ x → s1.get y = .ok (w, v) → (s1.new x (.reference o)).get y = .ok (w, v) := by
    intro y w v hy hg
    obtain ⟨p, h3, ⟨rfl, h4⟩ | ⟨h4, ⟨z', h5⟩, r1, rfl, h6⟩⟩ := get_ok.1 hg
    · exact get_ok.2 ⟨p, by rw [find_new, if_neg hy, h3], .inl ⟨rfl, old h4⟩⟩
    · refine get_ok.2 ⟨p, by rw [find_new, if_neg hy, h3], .inr ⟨old h4, ?_, r1, rfl, old h6⟩⟩
      by_cases hz2 : z' = x
      · -- `x` refers to the object itself: it is that of the raster
        subst hz2
        obtain ⟨p', h7, ⟨rfl, -⟩ | ⟨h8, -⟩⟩ := get_ok.1 (k3 _ _ hx')
        · rw [h5] at h7
          cases h7
          exact ⟨z, hzx⟩
        · rw [h5] at h7
          cases h7
          rw [h6] at h8
          cases h8
      · exact ⟨z', by rw [find_new, if_neg hz2, h5]⟩
  refine ⟨r', q, k1, k2, fun y v hy => ?_, fun y w v hw hy => ?_⟩
  · by_cases hyx : y = x
    · subst hyx
      exact hself
    · exact keep y o _ hyx (k3 y v hy)
  · refine keep y w v ?_ (k4 y w v hw hy)
    rintro rfl
    rw [hx'] at hy
    cases hy
    exact hw rfl

example : (run junk .empty [.assign "a" (lineOf .i32 [1, 2]), .assign "b" (.name "a"), .plus "a" (lineOf .i32 [5, 6])]).andThen
      (fun s => .ok (s.get "a", s.get "b")) =
    .ok (.ok (0, .raster (line .i32 [6, 8])), .ok (0, .raster (line .i32 [6, 8]))) := by decide +kernel

/-- But if no other name refers to the object of the raster, then it is deleted: the next use of the name is
undefined. -/
theorem C113_plus_lost (garbage : Nat → Int) (s s' : State) (hs : Sound s) (x : String) (e : Expr) (o : Nat)
    (r : Raster) (hx : Stands s x o r) (hk : ¬ Shared s x o) (h : exec garbage s (.plus x e) = .ok s') :
    s'.get x = .undefined ∧ (∀ f e', eval garbage s' (.operate f (.name x) e') = .undefined) ∧
      ∀ e', exec garbage s' (.plus x e') = .undefined ∧ exec garbage s' (.times x e') = .undefined := by
  have hx' : s.get x = .ok (o, .raster r) := hx
  have hg : s'.get x = .undefined := by
    simp only [exec, andThen_ok, hx', Out.ok.injEq, exists_eq_left'] at h
    obtain ⟨s1, h1, h2⟩ := h
    cases h2
    obtain ⟨_, _, -, -, e1⟩ := callInPlace_ok h1
    have hfind : ∀ y, s1.find y = s.find y := fun y => by rw [e1]; rfl
    have hlen : s1.objects.length = s.objects.length := by rw [e1]; simp
    have ho := (sound_raster hs hx).1
    have hl : o < s.objects.length := (List.getElem?_eq_some_iff.1 ho).1
    have hdead : (s1.new x (.reference o)).alive o = false := by
      rw [← Bool.not_eq_true, alive_iff]
      rintro ⟨y, hy⟩
      rw [find_new] at hy
      split at hy
      · cases hy
        omega
      · next hyx =>
        rw [hfind] at hy
        exact hk ⟨y, hyx, hy⟩
    unfold State.get
    rw [find_new, if_pos rfl]
    simp [hdead]
  refine ⟨hg, fun f e' => ?_, fun e' => ⟨?_, ?_⟩⟩
  · simp [eval, hg, Out.andThen]
  · simp [exec, hg, Out.andThen]
  · simp [exec, assign, eval, hg, Out.andThen]

/-- So `+=` twice, with rasters that have one name each, is undefined, although it is defined with two names. -/
theorem C113_plus_twice :
    run junk .empty [.assign "a" (lineOf .i32 [1, 2]), .plus "a" (lineOf .i32 [5, 6]),
      .plus "a" (lineOf .i32 [5, 6])] = .undefined ∧
    (run junk .empty [.assign "a" (lineOf .i32 [1, 2]), .assign "b" (.name "a"), .plus "a" (lineOf .i32 [5, 6]),
      .plus "a" (lineOf .i32 [5, 6])]).andThen (fun s => s.get "b") =
        .ok (0, .raster (line .i32 [11, 14])) := by decide +kernel

/-- A number cannot be added to a raster by `+=`, nor by the functions; `a + 5` and `a *= 5` are possible. -/
theorem C113_plus_number (garbage : Nat → Int) (s : State) (x : String) (e : Expr) (o : Nat) (r : Raster) (n : Int)
    (hx : Stands s x o r) (he : eval garbage s e = .ok (.number n)) :
    exec garbage s (.plus x e) = .error ∧ ∀ f, exec garbage s (.call f x e) = .error := by
  have hx' : s.get x = .ok (o, .raster r) := hx
  simp [exec, hx', Out.andThen, callInPlace, he]

example : (run junk .empty [.assign "a" (lineOf .i32 [1, 2]), .times "a" (.number 5)]).andThen (fun s => s.get "a") =
      .ok (1, .raster (line .i32 [5, 10])) ∧
    run junk .empty [.assign "a" (lineOf .i32 [1, 2]), .plus "a" (.number 5)] = .error := by decide +kernel

/-- `x *= e` is the same as `x = x * e`: whatever it is applied to, no raster changes. -/
theorem C113_times (garbage : Nat → Int) (s : State) (x : String) (e : Expr) :
    exec garbage s (.times x e) = exec garbage s (.assign x (.operate .multiply (.name x) e)) ∧
    ∀ s', exec garbage s (.times x e) = .ok s' → ∀ (o : Nat) (ob : Object), s.objects[o]? = some ob →
      s'.objects[o]? = some ob := by
  refine ⟨rfl, fun s' h o ob ho => ?_⟩
  simp only [exec, assign, andThen_ok] at h
  obtain ⟨v, -, h⟩ := h
  cases h
  rw [objects_new, getElem_snoc]
  exact .inl ho

/-- So it is not in place, as `+=` and `imultiply` are: with two names for a raster the other one does not change. -/
theorem C113_times_false :
    ¬ ∀ (garbage : Nat → Int) (s s' : State) (x : String) (e : Expr) (o : Nat) (r : Raster), Sound s →
      Stands s x o r → Shared s x o → exec garbage s (.times x e) = .ok s' →
      ∀ y v, s.get y = .ok (o, v) → s'.get y = s'.get x := by
  intro h
  have hrun : run junk .empty [.assign "a" (lineOf .i32 [1, 2]), .assign "b" (.name "a")] =
      .ok ⟨[.raster (line .i32 [1, 2])], [("b", 0), ("a", 0)], []⟩ := by decide +kernel
  have hs := C113_sound junk _ _ _ C113_start.1 hrun
  have := h junk _ ⟨[.raster (line .i32 [1, 2]), .raster (line .i32 [3, 6])], [("a", 1), ("b", 0)], []⟩ "a" (.number 3) 0
    (line .i32 [1, 2]) hs (by unfold Stands; decide +kernel) ⟨"b", by decide, by decide +kernel⟩ (by decide +kernel) "b"
    (.raster (line .i32 [1, 2])) (by decide +kernel)
  revert this
  decide +kernel

/-- Arrays are copies: they never change, whatever a program does to rasters afterwards. -/
theorem C113_arrays (garbage : Nat → Int) (p : List Statement) :
    ∀ (s s' : State), run garbage s p = .ok s' → ∃ more, s'.arrays = s.arrays ++ more := by
  induction p with
  | nil =>
    intro s s' h
    cases h
    exact ⟨[], by simp⟩
  | cons c rest ih =>
    intro s s' h
    simp only [run, andThen_ok] at h
    obtain ⟨s1, h1, h2⟩ := h
    obtain ⟨more, hm⟩ := ih s1 s' h2
    have hc : ∃ m, s1.arrays = s.arrays ++ m := by
      cases c with
      | assign x e => exact ⟨[], by simpa using arrays_assign h1⟩
      | times x e => exact ⟨[], by simpa using arrays_assign (e := .operate .multiply (.name x) e) h1⟩
      | plus x e =>
        simp only [exec, andThen_ok] at h1
        obtain ⟨⟨o, v⟩, -, h3⟩ := h1
        cases v with
        | number n => exact ⟨[], by simpa using arrays_assign h3⟩
        | raster r =>
          simp only [andThen_ok] at h3
          obtain ⟨s2, h4, h5⟩ := h3
          cases h5
          obtain ⟨_, _, -, -, e1⟩ := callInPlace_ok h4
          exact ⟨[], by rw [e1]; simp [State.new, State.bind]⟩
      | call f x e =>
        simp only [exec, andThen_ok] at h1
        obtain ⟨⟨o, v⟩, -, h3⟩ := h1
        cases v with
        | number n => cases h3
        | raster r =>
          obtain ⟨_, _, -, -, e1⟩ := callInPlace_ok h3
          exact ⟨[], by rw [e1]; simp⟩
      | look x =>
        simp only [exec] at h1
        split at h1
        · cases h1
        · split at h1
          · rw [andThen_ok] at h1
            obtain ⟨a, -, h1⟩ := h1
            cases h1
            exact ⟨[a], rfl⟩
          · cases h1
          · cases h1
      | delete x =>
        simp only [exec] at h1
        split at h1
        · cases h1
          exact ⟨[], by simp [State.unbind]⟩
        · cases h1
    obtain ⟨m, hm'⟩ := hc
    exact ⟨m ++ more, by rw [hm, hm', List.append_assoc]⟩

/-- There are no arrays of rasters of 16 bit integers and of 8 bit signed integers: an assertion fails. -/
theorem C113_look_unsupported (garbage : Nat → Int) (s : State) (x : String) (o : Nat) (r : Raster)
    (hx : s.find x = some o) (ho : s.objects[o]? = some (.raster r)) (ht : ¬ Supported r.type) :
    exec garbage s (.look x) = .assertion := by
  simp [exec, hx, ho, asArray, unsupported_iff.1 ht, Out.andThen]

/-- The array of a raster has its type, its rows and columns and, in each cell, its value; masked cells have the value
that is reserved for them. -/
theorem C113_look (garbage : Nat → Int) (s : State) (hs : Sound s) (x : String) (o : Nat) (r : Raster)
    (hx : s.find x = some o) (ho : s.objects[o]? = some (.raster r)) :
    ∃ a, exec garbage s (.look x) = .ok { s with arrays := s.arrays ++ [a] } ∧ a.type = r.type ∧
      a.shape = (r.rows, r.cols) ∧ a.elements.length = r.rows * r.cols ∧
      ∀ i, i < r.rows * r.cols → a.elements[i]? = some ((valueAt r i).getD (reserved r.type)) := by
  obtain ⟨hw, ht⟩ := hs.rasters o r ho
  refine ⟨⟨r.type, (r.rows, r.cols), r.values⟩, ?_, rfl, rfl, hw.size, fun i hi => ?_⟩
  · simp [exec, hx, ho, asArray, supported_iff.1 ht, Out.andThen]
  · obtain ⟨v, hv⟩ := has_value hw hi
    dsimp only
    rw [hv, valueAt_of hv]
    split
    · next h => simp [h]
    · simp

/-- From lists of values and of mask values to an array: it has the values where the mask is false, and the reserved value
where it is true. -/
theorem C113_lists (garbage : Nat → Int) (s : State) (hs : Sound s) (x : String) (t : IntTy) (first : List Int)
    (rest : List (List Int)) (mask : List (List Bool)) (origin cellSizes : Rat × Rat) (ht : Supported t)
    (h0 : 0 < first.length) (hc : Complete t (first :: rest) mask first.length) :
    ∃ s' a, run garbage s [.assign x (.raster t (first :: rest) mask origin cellSizes), .look x] = .ok s' ∧
      s'.arrays = s.arrays ++ [a] ∧ a.type = t ∧ a.shape = (rest.length + 1, first.length) ∧
      ∀ i j, i < rest.length + 1 → j < first.length →
        (element mask i j = some true → a.elements[i * first.length + j]? = some (reserved t)) ∧
        (element mask i j = some false → ∀ v, element (first :: rest) i j = some v →
          a.elements[i * first.length + j]? = some v) := by
  obtain ⟨q, h1, h2, h3, h4, -, -, h5, h6⟩ := (C88_lists t first rest mask origin cellSizes ht h0).1 hc
  have hg : Good q := ⟨h5, h2 ▸ ht⟩
  have hs1 : Sound (s.new x (.raster q)) := sound_new hs x (fun r e => by cases e; exact hg) nofun
  obtain ⟨a, e1, e2, e3, e4, e5⟩ := C113_look garbage (s.new x (.raster q)) hs1 x s.objects.length q
    (by rw [find_new, if_pos rfl]) (by simp)
  refine ⟨{ s.new x (.raster q) with arrays := (s.new x (.raster q)).arrays ++ [a] }, a, ?_, rfl, e2.trans h2, by rw [e3, h3, h4], fun i j hi hj => ?_⟩
  · refine andThen_ok.2 ⟨s.new x (.raster q), ?_, andThen_ok.2 ⟨_, e1, rfl⟩⟩
    simp [exec, assign, eval, h1, Out.andThen, Value.object]
  · have hlt : i * first.length + j < q.rows * q.cols := by
      rw [h3, h4]
      calc i * first.length + j < i * first.length + first.length := by omega
        _ = (i + 1) * first.length := by ring
        _ ≤ _ := Nat.mul_le_mul_right _ hi
    obtain ⟨m1, m2⟩ := h6 i j (by omega) (by omega)
    have hv := e5 _ hlt
    rw [h4] at m1 m2
    refine ⟨fun hm => ?_, fun hm v hv' => ?_⟩
    · rw [hv, m1 hm, h2]
      rfl
    · rw [hv, m2 hm v hv', h2]
      unfold unlessReserved
      split
      · next e => simp [e]
      · rfl

example : (run junk .empty [.assign "a" (.raster .u8 [[1, 2], [3, 4]] [[false, true], [false, false]] (0, 0) (1, 1)),
      .look "a", .plus "a" (.name "a")]).andThen (fun s => .ok s.arrays) =
    .ok [⟨.u8, (2, 2), [1, 255, 3, 4]⟩] := by decide +kernel

end Fern.PySession
