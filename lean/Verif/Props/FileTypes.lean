import Verif.Spec.FileTypes
import Verif.Props.FernDataset
import Mathlib.Tactic.SplitIfs

/-!
# C111: the types of numbers in files
-/

namespace Fern.FileTypes

open Fern.Spec

variable {narrow : Rat → Rat}

/-- **C111**: the type with which a number is written is recognised when it is read, also if the computer that reads has
the other order of bytes. -/
theorem C111_recognised (big : Bool) (v : ValueType) (t : FileType) (h : nativeType big v = some t) :
    valueType t = some v := by
  cases v <;> simp only [nativeType, Option.some.injEq, reduceCtorEq] at h <;> subst h <;> rfl

/-- **C111**: exactly the types of numbers can be written. -/
theorem C111_writable (big : Bool) (v : ValueType) : (nativeType big v).isSome ↔ IsNumberType v := by
  cases v <;> simp [nativeType, IsNumberType]

/-- **C111**: a type in a file is taken for a value type exactly if it has the class, the sign (integers) and the size of the
type that is used for writing. -/
theorem C111_types (t : FileType) (v : ValueType) :
    valueType t = some v ↔ ∃ n, nativeType t.bigEndian v = some n ∧ n.cls = t.cls ∧ n.size = t.size ∧
      (t.cls = .integer → n.sign = t.sign) := by
  obtain ⟨cls, sign, size, big⟩ := t
  constructor
  · intro h
    cases cls <;> simp only [valueType, reduceCtorEq] at h
    · cases sign <;> simp only [or_true, true_or, if_true, if_false, reduceCtorEq, or_self] at h
      all_goals
        split_ifs at h with h1 h2 h3 h4 <;> simp only [Option.some.injEq, reduceCtorEq] at h <;> subst h <;>
          exact ⟨_, rfl, rfl, by simp [*], fun _ => rfl⟩
    · split_ifs at h with h1 h2 <;> simp only [Option.some.injEq, reduceCtorEq] at h <;> subst h <;>
        exact ⟨_, rfl, rfl, by simp [*], fun h => by cases h⟩
  · rintro ⟨n, h1, h2, h3, h4⟩
    cases v <;> simp only [nativeType, Option.some.injEq, reduceCtorEq] at h1 <;> subst h1 <;>
      simp only at h2 h3 h4 <;> subst h2 <;> subst h3
    all_goals first
      | rfl
      | (have h5 := h4 rfl
         subst h5
         rfl)

/-- **C111**: the expression type of an attribute, on which the checks of scripts are based, is that of a constant of the
value type with which it will be read; if the one fails so does the other. -/
theorem C111_expression_type (d : Stored) :
    expressionType d = (if d.space = .scalar then
      (valueType d.type).map (fun v => ⟨DataTypes.constant, v.flag⟩) else none) := by
  obtain ⟨⟨cls, sign, size, big⟩, space, value⟩ := d
  have hm : ∀ v : ValueType, ExpressionType.make DataTypes.constant v.flag = some ⟨DataTypes.constant, v.flag⟩ := by
    intro v
    have h1 : DataTypes.constant.equal Flags.unknown = false := by decide
    have h2 : v.flag.equal Flags.unknown = false := by cases v <;> decide
    simp only [ExpressionType.make, h1, h2, Bool.or_self, Bool.false_eq_true, if_false]
  cases space
  case scalar =>
    simp only [if_true]
    cases cls <;> simp only [expressionType, valueType, expressionTypeNumeric, Option.map_none, hm]
    · split_ifs <;> rfl
    · split_ifs <;> rfl
  all_goals
    simp only [reduceCtorEq, if_false]
    cases cls <;> simp only [expressionType, expressionTypeNumeric] <;> split_ifs <;> rfl

theorem native_same {big big' : Bool} {v : ValueType} {t t' : FileType} (h : nativeType big v = some t)
    (h' : nativeType big' v = some t') : t.sign = t'.sign ∧ t.size = t'.size ∧ t.cls = t'.cls := by
  cases v <;> simp only [nativeType, Option.some.injEq, reduceCtorEq] at h h' <;> subst h <;> subst h' <;>
    exact ⟨rfl, rfl, rfl⟩

theorem native_isSome (big : Bool) (n : Number) : ∃ t, nativeType big n.valueType = some t := by
  rcases n with ⟨t, v⟩ | v | v
  · cases t <;> exact ⟨_, rfl⟩
  · exact ⟨_, rfl⟩
  · exact ⟨_, rfl⟩

theorem convert_same {t t' : FileType} (h1 : t.sign = t'.sign) (h2 : t.size = t'.size) (r : Raw) :
    convertRaw narrow t t' r = r := by
  cases r with
  | int v => simp only [convertRaw, h1, h2, and_self, if_true]
  | float v => simp only [convertRaw, h2, lt_irrefl, if_false]

/-- **C111**: what is kept is read, by every computer. -/
theorem C111_read {d : Stored} {n : Number} (h : Holds d n) (big : Bool) : readDataset narrow big d = some n := by
  obtain ⟨type, space, value⟩ := d
  obtain ⟨big', h1, h2, h3⟩ := h
  simp only at h1 h2 h3
  subst h2
  subst h3
  obtain ⟨t, ht⟩ := native_isSome big n
  obtain ⟨e1, e2, _⟩ := native_same h1 ht
  rw [readDataset, C111_recognised _ _ _ h1]
  simp only [Option.bind_some]
  rw [readConstant, ht]
  simp only [Option.bind_some, convert_same e1 e2]
  rcases n with ⟨t, v⟩ | v | v
  · cases t <;> rfl
  · rfl
  · rfl

/-- **C111**: the number that is written in a new attribute is kept. -/
theorem C111_new (big : Bool) (n : Number) : ∃ d, writeDataset narrow big n none = some d ∧ Holds d n := by
  obtain ⟨t, ht⟩ := native_isSome big n
  refine ⟨⟨t, .scalar, raw n⟩, ?_, big, ht, rfl, rfl⟩
  simp only [writeDataset, createDataset, ht, Option.map_some, Option.bind_some, writeValue, convert_same]

theorem nearest_eq {t : FileType} {i : IntTy} (hs : leastOf t = i.min) (hg : greatestOf t = i.max) (v : Int) :
    (if v < leastOf t then Raw.int (leastOf t) else if greatestOf t < v then Raw.int (greatestOf t) else Raw.int v) =
      Raw.int (nearest i v) := by
  have hle : i.min ≤ i.max := by cases i <;> decide
  rw [hs, hg]
  unfold nearest
  split_ifs <;> congr 1 <;> omega

/-- **C111**: a number that is written in an attribute which is there changes its value, as far as the type allows, and
never its type; it needs to be of the same class. -/
theorem C111_changed {d : Stored} {old : Number} (h : Holds d old) (big : Bool) (n : Number) (hc : SameClass old n) :
    ∃ d', writeDataset narrow big n (some d) = some d' ∧ Holds d' (kept narrow old n) := by
  obtain ⟨type, space, value⟩ := d
  obtain ⟨big', h1, h2, h3⟩ := h
  simp only at h1 h2 h3
  subst h2
  subst h3
  obtain ⟨t, ht⟩ := native_isSome big n
  have hcls : type.cls = numberClass n := by
    rcases old with ⟨t', v'⟩ | v' | v' <;> rcases n with ⟨t'', v''⟩ | v'' | v'' <;> simp only [SameClass] at hc
    all_goals try (cases t')
    all_goals
      simp only [Number.valueType, nativeType, Option.some.injEq] at h1
      subst h1
      rfl
  refine ⟨⟨type, .scalar, convertRaw narrow t type (raw n)⟩, ?_, big', ?_, rfl, ?_⟩
  · simp only [writeDataset, if_true, hcls, writeValue, ht, Option.map_some]
  · rw [← h1]
    rcases old with ⟨t', v'⟩ | v' | v' <;> rcases n with ⟨t'', v''⟩ | v'' | v'' <;>
      simp only [SameClass] at hc <;> simp only [kept]
    · cases t' <;> rfl
    all_goals rfl
  · rcases old with ⟨t', v'⟩ | v' | v' <;> rcases n with ⟨t'', v''⟩ | v'' | v'' <;> simp only [SameClass] at hc
    · simp only [kept, raw, convertRaw]
      by_cases he : t'' = t'
      · subst he
        obtain ⟨e1, e2, _⟩ := native_same (v := Number.valueType (.int t'' v')) h1 (by rw [← ht]; cases t'' <;> rfl)
        simp only [e1, e2, and_self, if_true]
      · rw [if_neg, if_neg (Ne.symm he), nearest_eq]
        · cases t' <;> simp only [Number.valueType, nativeType, Option.some.injEq] at h1 <;> subst h1 <;> rfl
        · cases t' <;> simp only [Number.valueType, nativeType, Option.some.injEq] at h1 <;> subst h1 <;> rfl
        · intro hh
          cases t' <;> cases t'' <;> simp only [Number.valueType, nativeType, Option.some.injEq] at h1 ht <;>
            subst h1 <;> subst ht <;> simp at hh he
    all_goals
      simp only [Number.valueType, nativeType, Option.some.injEq] at h1 ht
      subst h1
      subst ht
      simp [kept, raw, convertRaw]

/-- **C111**: a floating point number can't be written over an integer, nor the other way around. -/
theorem C111_other_class {d : Stored} {old : Number} (h : Holds d old) (big : Bool) (n : Number)
    (hc : ¬ SameClass old n) : writeDataset narrow big n (some d) = none := by
  obtain ⟨type, space, value⟩ := d
  obtain ⟨big', h1, h2, h3⟩ := h
  simp only at h1 h2 h3
  subst h2
  have hcls : type.cls ≠ numberClass n := by
    rcases old with ⟨t', v'⟩ | v' | v' <;> rcases n with ⟨t'', v''⟩ | v'' | v'' <;>
      simp only [SameClass, not_true_eq_false] at hc
    all_goals try (cases t')
    all_goals
      simp only [Number.valueType, nativeType, Option.some.injEq] at h1
      subst h1
      simp [numberClass]
  simp only [writeDataset, if_true, hcls, if_false]

/-- **C111**: nothing is written over a dataset that isn't a single value, such as a raster. -/
theorem C111_not_scalar (d : Stored) (h : d.space ≠ .scalar) (big : Bool) (n : Number) :
    writeDataset narrow big n (some d) = none := by
  simp only [writeDataset, h, if_false]

/-- The writes to an attribute, each by a computer with one of the orders of bytes. -/
def writes (narrow : Rat → Rat) : Option Stored → List (Bool × Number) → Option (Option Stored)
  | d, [] => some d
  | d, (big, n) :: ws => (writeDataset narrow big n d).bind fun d => writes narrow (some d) ws

/-- **C111**: after any number of writes of integers to a new attribute, it has the type of the first one, and the value that
is nearest to the last one (the last one itself if it has that type). -/
theorem C111_history (first : Bool × IntTy × Int) (ws : List (Bool × IntTy × Int)) (big : Bool) :
    ∃ d, writes narrow none ((first :: ws).map fun w => (w.1, .int w.2.1 w.2.2)) = some (some d) ∧
      readDataset narrow big d = some (.int first.2.1
        (match ws.getLast? with
          | none => first.2.2
          | some last => if first.2.1 = last.2.1 then last.2.2 else nearest first.2.1 last.2.2)) := by
  obtain ⟨b, t, v⟩ := first
  obtain ⟨d, h1, h2⟩ := C111_new (narrow := narrow) b (.int t v)
  have key : ∀ (ws : List (Bool × IntTy × Int)) (d : Stored) (x : Int), Holds d (.int t x) →
      ∃ d', writes narrow (some d) (ws.map fun w => (w.1, .int w.2.1 w.2.2)) = some (some d') ∧
        Holds d' (.int t (match ws.getLast? with
          | none => x
          | some last => if t = last.2.1 then last.2.2 else nearest t last.2.2)) := by
    intro ws
    induction ws with
    | nil => intro d x h; exact ⟨d, rfl, h⟩
    | cons w ws ih =>
      intro d x h
      obtain ⟨d', h3, h4⟩ := C111_changed (narrow := narrow) h w.1 (.int w.2.1 w.2.2) trivial
      obtain ⟨d'', h5, h6⟩ := ih d' _ h4
      refine ⟨d'', ?_, ?_⟩
      · rw [List.map_cons, writes, h3]
        exact h5
      · cases hl : ws.getLast? with
        | none =>
          have : ws = [] := List.getLast?_eq_none_iff.1 hl
          subst this
          exact h6
        | some last =>
          rw [List.getLast?_cons, hl]
          rw [hl] at h6
          exact h6
  obtain ⟨d', h3, h4⟩ := key ws d v h2
  refine ⟨d', ?_, C111_read h4 big⟩
  rw [List.map_cons, writes, h1]
  exact h3

/-- **C111**: so it is not true that the number written last is the one that is read: writing 300 over an attribute of
bytes leaves 255. -/
theorem C111_last_false :
    ∃ d, writes narrow none [(false, .int .u8 7), (false, .int .i32 300)] = some (some d) ∧
      readDataset narrow false d = some (.int .u8 255) := by
  obtain ⟨d, h1, h2⟩ := C111_history (narrow := narrow) (false, .u8, 7) [(false, .i32, 300)] false
  refine ⟨d, h1, ?_⟩
  rw [h2]
  decide

theorem kept_same (a b : Number) (h : SameType a b) : kept narrow a b = b := by
  rcases a with ⟨t, v⟩ | v | v <;> rcases b with ⟨t', v'⟩ | v' | v' <;> simp only [SameType] at h
  · subst h
    simp [kept]
  · rfl
  · rfl

/-- **C111**: a whole file. After any writes to a new file, of which those to the same path write numbers of the same type,
each attribute has the number that was written last. -/
theorem C111_file (ws : List (List Str × Number))
    (ht : ∀ w ∈ ws, ∀ w' ∈ ws, w.1 = w'.1 → SameType w.2 w'.2) (f' : Hdf5)
    (hw : writeAll (kept narrow) .empty ws = some f') (p : List Str) (n : Number) :
    f'.readAttribute p = .ok n ↔ lastWritten ws p = some n :=
  C79_history kept_same ws ht f' hw p n

/-! Types that are and that are not supported. -/

example : valueType ⟨.integer, .twos, 2, true⟩ = some .int16 := rfl

example : valueType ⟨.integer, .twos, 16, false⟩ = none := rfl

example : valueType ⟨.string, .none, 1, false⟩ = none := rfl

example : Holds ⟨⟨.integer, .none, 4, true⟩, .scalar, .int 77⟩ (.int .u32 77) := ⟨true, rfl, rfl, rfl⟩

end Fern.FileTypes
