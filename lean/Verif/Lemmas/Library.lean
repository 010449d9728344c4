import Verif.Model.Library
import Verif.Spec.Library
import Verif.Spec.Accepted
import Verif.Props.Annotate
import Verif.Spec.Execute
import Mathlib.Data.Fintype.Pi

/-!
Lemmas about the operations of the library.
-/

namespace Fern.Library

open _root_.Fern.Spec _root_.Fern.Library.Spec

/-! ### Types -/

theorem valueFlag_iff (v : ValueType) (i : Fin 13) : v.flag i = true ↔ i = v.index := by
  simp [ValueType.flag, Flags.single]

theorem number_index (v : ValueType) : ValueTypes.number v.index = true ↔ v ∈ ladder := by
  cases v <;> decide +kernel

theorem kept_defined (t : Ty) : IsDefined t.kept := by
  cases t with
  | one f v =>
    refine ⟨⟨if f then 1 else 0, ?_⟩, v.index, by simp [Ty.kept, valueFlag_iff]⟩
    cases f <;> rfl
  | numberField => exact ⟨⟨1, rfl⟩, ⟨2, rfl⟩⟩

theorem undefined_not : ¬ IsDefined ExpressionType.undefined := by
  rintro ⟨⟨i, h⟩, _⟩
  exact absurd h (by simp [ExpressionType.undefined, Flags.unknown])

theorem passable_numbers (t : Ty) : Passable [numbers] t.kept ↔ t.IsNumber := by
  have hall : ∀ i : Fin 2, numbers.data i = true := by decide +kernel
  constructor
  · rintro ⟨_, p, hp, _, hv⟩
    rw [List.mem_singleton] at hp
    subst hp
    cases t with
    | one f v => exact (number_index v).1 (hv v.index ((valueFlag_iff v _).2 rfl))
    | numberField => trivial
  · intro h
    refine ⟨kept_defined t, numbers, List.mem_singleton.2 rfl, fun i _ => hall i, fun i hi => ?_⟩
    cases t with
    | one f v => rw [(valueFlag_iff v i).1 hi]; exact (number_index v).2 h
    | numberField => exact hi

theorem index_inj {v w : ValueType} (h : v.index = w.index) : v = w := by
  revert h; cases v <;> cases w <;> decide

theorem passable_text (t : Ty) : Passable [text] t.kept ↔ t = constantText := by
  constructor
  · rintro ⟨_, p, hp, hd, hv⟩
    rw [List.mem_singleton] at hp
    subst hp
    cases t with
    | one f v =>
      have h1 := (valueFlag_iff .string _).1 (hv v.index ((valueFlag_iff v _).2 rfl))
      rw [index_inj h1]
      cases f with
      | false => rfl
      | true => exact absurd (hd 1 rfl) (by decide)
    | numberField => exact absurd (hv 2 rfl) (by decide)
  · rintro rfl
    exact ⟨kept_defined _, text, List.mem_singleton.2 rfl, fun _ h => h, fun _ h => h⟩

theorem not_passable_undefined (p : ExpressionTypes) : ¬ Passable p .undefined := fun h => undefined_not h.1

/-! ### The rules for the types of the type system -/

theorem rule_abs (t : Ty) : standardExpressionType absType 0 [t.kept] = some t.kept := by
  cases t with
  | one f v => cases f <;> cases v <;> rfl
  | numberField => rfl

theorem rule_int32 (t : Ty) : standardExpressionType int32Type 0 [t.kept] = some (Ty.one t.field .int32).kept := by
  cases t with
  | one f v => cases f <;> rfl
  | numberField => rfl

theorem data_add (a b : Bool) :
    resultDataType addType 0 [if a then DataTypes.staticField else DataTypes.constant,
      if b then DataTypes.staticField else DataTypes.constant] =
    some (if a || b then DataTypes.staticField else DataTypes.constant) := by
  revert a b; decide +kernel

theorem value_add : ∀ a ∈ ladder, ∀ b ∈ ladder,
    resultValueType addType 0 [a.flag, b.flag] = some (winner a b).flag := by decide +kernel

theorem value_add_left : ∀ a ∈ ladder,
    resultValueType addType 0 [a.flag, ValueTypes.number] = some ValueType.float64.flag := by decide +kernel

theorem value_add_right : ∀ a ∈ ladder,
    resultValueType addType 0 [ValueTypes.number, a.flag] = some ValueType.float64.flag := by decide +kernel

theorem value_add_both :
    resultValueType addType 0 [ValueTypes.number, ValueTypes.number] = some ValueType.float64.flag := by
  decide +kernel

theorem make_kept (f : Bool) (v : ValueType) :
    ExpressionType.make (if f then DataTypes.staticField else DataTypes.constant) v.flag =
      some (Ty.one f v).kept := by
  cases f <;> cases v <;> rfl

theorem kept_data (t : Ty) : t.kept.data = if t.field then DataTypes.staticField else DataTypes.constant := by
  cases t <;> rfl

theorem rule_add (t u : Ty) (ht : t.IsNumber) (hu : u.IsNumber) :
    standardExpressionType addType 0 [t.kept, u.kept] = some (Ty.one (t.field || u.field) (sumValue t u)).kept := by
  have hv : resultValueType addType 0 [t.kept.value, u.kept.value] = some (sumValue t u).flag := by
    cases t <;> cases u
    · exact value_add _ ht _ hu
    · exact value_add_left _ ht
    · exact value_add_right _ hu
    · exact value_add_both
  unfold standardExpressionType
  simp only [List.map_cons, List.map_nil, kept_data, data_add, hv, Option.bind_eq_bind, Option.bind_some]
  exact make_kept _ _

/-! ### The rules for all types -/

theorem union_comm {n : ℕ} (a b : Flags n) : a.union b = b.union a := by
  funext i; simp [Flags.union, Bool.or_comm]

theorem merge_two {n : ℕ} (a b : Flags n) : mergeFlags [a, b] = mergeFlags [b, a] := by
  funext i
  simp [mergeFlags, Flags.union, Flags.unknown, Bool.or_comm]

theorem add_swap (a b : ExpressionType) :
    standardExpressionType addType 0 [a, b] = standardExpressionType addType 0 [b, a] := by
  have hd : resultDataType addType 0 [a.data, b.data] = resultDataType addType 0 [b.data, a.data] := by
    have := merge_two (a.data.inter numbers.data) (b.data.inter numbers.data)
    simp only [resultDataType, addType, OperationType.parameterTypes, List.mapM_cons, List.mapM_nil,
      List.zipWith_cons_cons, List.zipWith_nil_right, List.map_cons, List.map_nil, Option.bind_eq_bind,
      Option.bind_some, Option.pure_def, List.length_cons, List.length_nil] at this ⊢
    rw [this]
  have hv : resultValueType addType 0 [a.value, b.value] = resultValueType addType 0 [b.value, a.value] := by
    have := merge_two (a.value.inter numbers.value) (b.value.inter numbers.value)
    simp only [resultValueType, resultValueType.general, addType, OperationType.parameterTypes, List.mapM_cons,
      List.mapM_nil,
      List.zipWith_cons_cons, List.zipWith_nil_right, List.map_cons, List.map_nil, Option.bind_eq_bind,
      Option.bind_some, Option.pure_def, List.length_cons, List.length_nil] at this ⊢
    rw [this]
  simp only [standardExpressionType, List.map_cons, List.map_nil, hd, hv]

theorem isSome_of_bind {d : Option DataTypes} {v : Option ValueTypes}
    (hd : d.any (fun x => !x.equal Flags.unknown) = true) (hv : v.any (fun x => !x.equal Flags.unknown) = true) :
    (d.bind fun x => v.bind fun y => ExpressionType.make x y).isSome := by
  cases d with
  | none => cases hd
  | some d =>
    cases v with
    | none => cases hv
    | some v =>
      simp only [Option.any_some, Bool.not_eq_true'] at hd hv
      simp [ExpressionType.make, hd, hv]

theorem data_one (op : OperationType) (h : op = absType ∨ op = int32Type) (a : DataTypes) :
    (resultDataType op 0 [a]).any (fun x => !x.equal Flags.unknown) = true := by
  rcases h with rfl | rfl <;> revert a <;> decide +kernel

theorem data_two : ∀ a b : DataTypes,
    (resultDataType addType 0 [a, b]).any (fun x => !x.equal Flags.unknown) = true := by decide +kernel

theorem eq_unknown_of_any {n : ℕ} {a : Flags n} (h : a.any = false) : a = Flags.unknown := by
  funext i
  rw [Flags.any, List.any_eq_false] at h
  have := h i (List.mem_finRange i)
  simpa [Flags.unknown] using this

theorem not_equal_of_any {n : ℕ} {a : Flags n} (h : a.any = true) : a.equal Flags.unknown = false := by
  rw [Flags.any, List.any_eq_true] at h
  obtain ⟨i, hi, h⟩ := h
  rw [Flags.equal, List.all_eq_false]
  exact ⟨i, hi, by simp [h, Flags.unknown]⟩

theorem any_of_fixed {n : ℕ} {a : Flags n} (h : a.fixed = true) : a.any = true := by
  by_contra hc
  rw [Bool.not_eq_true] at hc
  rw [eq_unknown_of_any hc] at h
  have : (List.finRange n).filter Flags.unknown = [] := List.filter_eq_nil_iff.2 fun i _ => by simp [Flags.unknown]
  simp [Flags.fixed, Flags.count, this] at h

theorem value_abs (a : ValueTypes) :
    (resultValueType absType 0 [a]).any (fun x => !x.equal Flags.unknown) = true := by
  cases h : a.any with
  | true =>
    have : resultValueType absType 0 [a] = some a := by
      have hf : numbers.value.fixed = false := by decide +kernel
      simp [resultValueType, absType, h, hf]
    rw [this, Option.any_some, not_equal_of_any h]; rfl
  | false => rw [eq_unknown_of_any h]; decide +kernel

theorem value_int32 (a : ValueTypes) :
    (resultValueType int32Type 0 [a]).any (fun x => !x.equal Flags.unknown) = true := by
  have : resultValueType int32Type 0 [a] = some ValueType.int32.flag := by
    have hf : ValueType.int32.flag.fixed = true := by decide +kernel
    simp [resultValueType, int32Type, hf]
  rw [this]
  decide +kernel

/-- Numbers among which the chain of tests finds none. -/
theorem chain_none {m : ValueTypes} (hm : ∀ i, m i = true → ValueTypes.number i = true)
    (h : valueTypeChain.find? (ValueTypes.test m) = none) : m = Flags.unknown ∨ m = ValueType.int16.flag := by
  rw [List.find?_eq_none] at h
  have hk : ∀ i : Fin 13, i ≠ 5 → m i = false := by
    intro i hi
    by_contra hc
    rw [Bool.not_eq_false] at hc
    have hn := hm i hc
    have : ∃ v ∈ valueTypeChain, v.index = i := by
      revert hn hi; clear hc; revert i; decide +kernel
    obtain ⟨v, hv, rfl⟩ := this
    exact h v hv hc
  cases h5 : m 5 with
  | false =>
    left; funext i
    by_cases hi : i = 5
    · rw [hi, h5]; rfl
    · rw [hk i hi]; rfl
  | true =>
    right; funext i
    by_cases hi : i = 5
    · rw [hi, h5]; rfl
    · rw [hk i hi]
      have : ¬ i = ValueType.int16.index := hi
      simp [ValueType.flag, Flags.single, this]

theorem chain_some : ∀ v ∈ valueTypeChain,
    v.flag.isSubsetOf numbers.value = true ∧ v.flag.equal Flags.unknown = false := by decide +kernel

theorem value_two (a b : ValueTypes) :
    (resultValueType addType 0 [a, b]).any (fun x => !x.equal Flags.unknown) = true := by
  have hf : numbers.value.fixed = false := by decide +kernel
  have hm : ∀ i, mergeFlags [a.inter numbers.value, b.inter numbers.value] i = true →
      ValueTypes.number i = true := by
    intro i hi
    simp only [mergeFlags, List.foldl_cons, List.foldl_nil, Flags.union, Flags.unknown, Flags.inter, Bool.false_or,
      Bool.or_eq_true, Bool.and_eq_true] at hi
    rcases hi with hi | hi <;> exact hi.2
  simp only [resultValueType, resultValueType.general, addType, OperationType.parameterTypes, List.mapM_cons,
    List.mapM_nil, List.zipWith_cons_cons, List.zipWith_nil_right, List.map_cons, List.map_nil, Option.bind_eq_bind,
    Option.bind_some, Option.pure_def, List.length_cons, List.length_nil, hf, List.getElem?_cons_zero]
  generalize mergeFlags [a.inter numbers.value, b.inter numbers.value] = m at hm
  cases hfx : m.fixed with
  | true =>
    simp only [ne_eq, not_true_eq_false, if_true, if_false, Bool.false_eq_true, Option.any_some,
      not_equal_of_any (any_of_fixed hfx)]
    rfl
  | false =>
    simp only [ne_eq, not_true_eq_false, if_false, Bool.false_eq_true]
    cases hc : valueTypeChain.find? (ValueTypes.test m) with
    | some v =>
      have := chain_some v (List.mem_of_find?_eq_some hc)
      simp [this.1, this.2]
    | none =>
      rcases chain_none hm hc with rfl | rfl
      · decide +kernel
      · exact absurd hfx (by decide +kernel)

/-! ### Lookup -/

section

variable {V : Type} (execute : Str → List V → Option (List V))

theorem library_abs : library execute "abs".toList =
    some ⟨[[numbers]], standardExpressionType absType 0, execute "abs".toList⟩ := rfl

theorem library_add : library execute "add".toList =
    some ⟨[[numbers], [numbers]], standardExpressionType addType 0, execute "add".toList⟩ := rfl

theorem library_int32 : library execute "int32".toList =
    some ⟨[[numbers]], standardExpressionType int32Type 0, execute "int32".toList⟩ := rfl

theorem library_read : library execute "read".toList =
    some ⟨[[text]], firstResult readType, execute "read".toList⟩ := rfl

theorem library_write : library execute "write".toList =
    some ⟨[[numbers], [text], [text]], noResult writeType, execute "write".toList⟩ := rfl

theorem library_other {n : Str} (h1 : n ≠ "abs".toList) (h2 : n ≠ "add".toList) (h3 : n ≠ "int32".toList)
    (h4 : n ≠ "read".toList) (h5 : n ≠ "write".toList) : library execute n = none := by
  have hb : ∀ {m : Str}, n ≠ m → (n == m) = false := fun h => beq_eq_false_iff_ne.2 h
  unfold library
  rw [List.lookup_cons, hb h1, List.lookup_cons, hb h2, List.lookup_cons, hb h3, List.lookup_cons, hb h4,
    List.lookup_cons, hb h5]
  rfl

/-- The names of the library. -/
theorem library_cases (n : Str) : n = "abs".toList ∨ n = "add".toList ∨ n = "int32".toList ∨ n = "read".toList ∨
    n = "write".toList ∨ library execute n = none := by
  by_cases h1 : n = "abs".toList
  · exact .inl h1
  by_cases h2 : n = "add".toList
  · exact .inr (.inl h2)
  by_cases h3 : n = "int32".toList
  · exact .inr (.inr (.inl h3))
  by_cases h4 : n = "read".toList
  · exact .inr (.inr (.inr (.inl h4)))
  by_cases h5 : n = "write".toList
  · exact .inr (.inr (.inr (.inr (.inl h5))))
  exact .inr (.inr (.inr (.inr (.inr (library_other execute h1 h2 h3 h4 h5)))))

theorem rules_symmetric (n : Str) (op : Operation V) (h : library execute n = some op) (l : List ExpressionType)
    (hl : l.length = op.parameters.length) : op.exprType l.reverse = op.exprType l := by
  rcases library_cases execute n with rfl | rfl | rfl | rfl | rfl | hn
  · rw [library_abs] at h; cases h
    obtain ⟨a, rfl⟩ := List.length_eq_one_iff.1 hl; rfl
  · rw [library_add] at h; cases h
    obtain ⟨a, b, rfl⟩ := List.length_eq_two.1 hl; exact add_swap b a
  · rw [library_int32] at h; cases h
    obtain ⟨a, rfl⟩ := List.length_eq_one_iff.1 hl; rfl
  · rw [library_read] at h; cases h; rfl
  · rw [library_write] at h; cases h; rfl
  · rw [hn] at h; cases h

theorem rules_total : TotalRules (library execute) := by
  intro n op h l hl
  rcases library_cases execute n with rfl | rfl | rfl | rfl | rfl | hn
  · rw [library_abs] at h; cases h
    obtain ⟨a, rfl⟩ := List.length_eq_one_iff.1 hl
    exact isSome_of_bind (data_one _ (.inl rfl) _) (value_abs _)
  · rw [library_add] at h; cases h
    obtain ⟨a, b, rfl⟩ := List.length_eq_two.1 hl
    exact isSome_of_bind (data_two _ _) (value_two _ _)
  · rw [library_int32] at h; cases h
    obtain ⟨a, rfl⟩ := List.length_eq_one_iff.1 hl
    exact isSome_of_bind (data_one _ (.inr rfl) _) (value_int32 _)
  · rw [library_read] at h; cases h; rfl
  · rw [library_write] at h; cases h; rfl
  · rw [hn] at h; cases h

/-! ### Expressions -/

/-- The types suit the parameters. -/
def Suitable (n : Str) (Ts : List Ty) : Prop :=
  ∃ op, library execute n = some op ∧ List.Forall₂ (fun p (T : Ty) => Passable p T.kept) op.parameters Ts

theorem suitable_one {n : Str} {op : Operation V} {p : ExpressionTypes} (h : library execute n = some op)
    (hp : op.parameters = [p]) (Ts : List Ty) :
    Suitable execute n Ts ↔ ∃ T : Ty, Ts = [T] ∧ Passable p T.kept := by
  constructor
  · rintro ⟨op', h', hf⟩
    rw [h] at h'; cases h'
    rw [hp] at hf
    cases hf with
    | cons h1 h2 => cases h2; exact ⟨_, rfl, h1⟩
  · rintro ⟨T, rfl, hT⟩
    exact ⟨op, h, by rw [hp]; exact .cons hT .nil⟩

theorem suitable_add (Ts : List Ty) :
    Suitable execute "add".toList Ts ↔ ∃ T U : Ty, Ts = [T, U] ∧ T.IsNumber ∧ U.IsNumber := by
  constructor
  · rintro ⟨op', h', hf⟩
    rw [library_add] at h'; cases h'
    cases hf with
    | cons h1 h2 =>
      cases h2 with
      | cons h2 h3 => cases h3; exact ⟨_, _, rfl, (passable_numbers _).1 h1, (passable_numbers _).1 h2⟩
  · rintro ⟨T, U, rfl, hT, hU⟩
    exact ⟨_, library_add execute, .cons ((passable_numbers _).2 hT) (.cons ((passable_numbers _).2 hU) .nil)⟩

theorem suitable_write (Ts : List Ty) :
    Suitable execute "write".toList Ts ↔ ∃ T : Ty, Ts = [T, constantText, constantText] ∧ T.IsNumber := by
  constructor
  · rintro ⟨op', h', hf⟩
    rw [library_write] at h'; cases h'
    cases hf with
    | cons h1 h2 =>
      cases h2 with
      | cons h2 h3 =>
        cases h3 with
        | cons h3 h4 =>
          cases h4
          rw [(passable_text _).1 h2, (passable_text _).1 h3]
          exact ⟨_, rfl, (passable_numbers _).1 h1⟩
  · rintro ⟨T, rfl, hT⟩
    exact ⟨_, library_write execute, .cons ((passable_numbers _).2 hT)
      (.cons ((passable_text _).2 rfl) (.cons ((passable_text _).2 rfl) .nil))⟩

theorem operationType_of {n : Str} {op : Operation V} (h : library execute n = some op) (l : List ExpressionType)
    (hl : l.length = op.parameters.length) : operationType (library execute) n l = op.exprType l := by
  simp [operationType, h, hl]

theorem operationType_total (n : Str) (l : List ExpressionType) :
    ∃ k, operationType (library execute) n l = some k := by
  unfold operationType
  cases h : library execute n with
  | none => exact ⟨_, rfl⟩
  | some op =>
    by_cases hl : l.length = op.parameters.length
    · simp only [hl, if_true]
      exact Option.isSome_iff_exists.1 (rules_total execute n op h l hl)
    · simp [hl]

/-- What a call of an operation gives, for arguments that have types. -/
theorem call_types (n : Str) (Ts : List Ty) :
    ∃ k, operationType (library execute) n (Ts.map Ty.kept) = some k ∧
      ((∃ T, resultType n Ts = some T ∧ k = T.kept ∧ Suitable execute n Ts) ∨
       (resultType n Ts = none ∧
         (Suitable execute n Ts ↔ n = "write".toList ∧ ∃ t : Ty, Ts = [t, constantText, constantText] ∧ t.IsNumber) ∧
         (Suitable execute n Ts → k = .undefined))) := by
  obtain ⟨k, hk⟩ := operationType_total execute n (Ts.map Ty.kept)
  refine ⟨k, hk, ?_⟩
  have key : ∀ {P : Prop}, ¬ Suitable execute n Ts → n ≠ "write".toList →
      (Suitable execute n Ts ↔ n = "write".toList ∧ P) ∧ (Suitable execute n Ts → k = .undefined) :=
    fun h1 h2 => ⟨⟨fun h => absurd h h1, fun h => absurd h.1 h2⟩, fun h => absurd h h1⟩
  rcases library_cases execute n with rfl | rfl | rfl | rfl | rfl | hn
  · have hs := suitable_one execute (library_abs execute) rfl Ts
    by_cases h : Suitable execute "abs".toList Ts
    · obtain ⟨T, rfl, hT⟩ := hs.1 h
      rw [passable_numbers] at hT
      left
      refine ⟨T, by simp [resultType, hT], ?_, h⟩
      have : operationType (library execute) "abs".toList [T.kept] = some T.kept :=
        (operationType_of execute (library_abs execute) _ rfl).trans (rule_abs T)
      exact Option.some.inj (hk.symm.trans this)
    · right
      refine ⟨?_, key h (by decide)⟩
      simp only [resultType, if_true]
      split
      · rename_i T
        by_cases hT : T.IsNumber
        · exact absurd (hs.2 ⟨T, rfl, (passable_numbers T).2 hT⟩) h
        · simp [hT]
      · rfl
  · have hs := suitable_add execute Ts
    by_cases h : Suitable execute "add".toList Ts
    · obtain ⟨T, U, rfl, hT, hU⟩ := hs.1 h
      left
      refine ⟨.one (T.field || U.field) (sumValue T U), by simp [resultType, hT, hU], ?_, h⟩
      have : operationType (library execute) "add".toList [T.kept, U.kept] = _ :=
        (operationType_of execute (library_add execute) _ rfl).trans (rule_add T U hT hU)
      exact Option.some.inj (hk.symm.trans this)
    · right
      refine ⟨?_, key h (by decide)⟩
      simp only [resultType, if_true, if_neg (show "add".toList ≠ "abs".toList by decide),
        if_neg (show "add".toList ≠ "int32".toList by decide)]
      split
      · rename_i T U
        by_cases hT : T.IsNumber ∧ U.IsNumber
        · exact absurd (hs.2 ⟨T, U, rfl, hT.1, hT.2⟩) h
        · simp [hT]
      · rfl
  · have hs := suitable_one execute (library_int32 execute) rfl Ts
    by_cases h : Suitable execute "int32".toList Ts
    · obtain ⟨T, rfl, hT⟩ := hs.1 h
      rw [passable_numbers] at hT
      left
      refine ⟨.one T.field .int32, by simp [resultType, hT], ?_, h⟩
      have : operationType (library execute) "int32".toList [T.kept] = _ :=
        (operationType_of execute (library_int32 execute) _ rfl).trans (rule_int32 T)
      exact Option.some.inj (hk.symm.trans this)
    · right
      refine ⟨?_, key h (by decide)⟩
      simp only [resultType, if_true, if_neg (show "int32".toList ≠ "abs".toList by decide)]
      split
      · rename_i T
        by_cases hT : T.IsNumber
        · exact absurd (hs.2 ⟨T, rfl, (passable_numbers T).2 hT⟩) h
        · simp [hT]
      · rfl
  · have hs := suitable_one execute (library_read execute) rfl Ts
    by_cases h : Suitable execute "read".toList Ts
    · obtain ⟨T, rfl, hT⟩ := hs.1 h
      rw [passable_text] at hT
      subst hT
      left
      refine ⟨.numberField, by simp [resultType], ?_, h⟩
      have : operationType (library execute) "read".toList [constantText.kept] = some Ty.numberField.kept :=
        (operationType_of execute (library_read execute) _ rfl).trans rfl
      exact Option.some.inj (hk.symm.trans this)
    · right
      refine ⟨?_, key h (by decide)⟩
      have : Ts ≠ [constantText] := fun hT => h (hs.2 ⟨constantText, hT, (passable_text _).2 rfl⟩)
      simp [resultType, this]
  · have hs := suitable_write execute Ts
    right
    refine ⟨by simp [resultType], by rw [hs]; simp, fun h => ?_⟩
    obtain ⟨T, rfl, hT⟩ := hs.1 h
    have : operationType (library execute) "write".toList [T.kept, constantText.kept, constantText.kept] =
        some .undefined := (operationType_of execute (library_write execute) _ rfl).trans rfl
    exact Option.some.inj (hk.symm.trans this)
  · have h : ¬ Suitable execute n Ts := by rintro ⟨op, ho, _⟩; rw [hn] at ho; cases ho
    have hne : ∀ m op, library execute m = some op → n ≠ m := by
      rintro m op hm rfl; rw [hn] at hm; cases hm
    right
    refine ⟨?_, key h (hne _ _ (library_write execute))⟩
    unfold resultType
    rw [if_neg (hne _ _ (library_abs execute)), if_neg (hne _ _ (library_int32 execute)),
      if_neg (hne _ _ (library_add execute)), if_neg (hne _ _ (library_read execute))]

/-- The types of the names, as the interpreter keeps them. -/
abbrev keptEnv (env : Str → Option Ty) : Str → ExpressionType := fun n => keptType (env n)

/-- What is calculated for an expression agrees with the type system. -/
def Agree (env : Str → Option Ty) (e : Expr) : Prop :=
  ∃ k, typeExpr (library execute) (keptEnv env) e = some k ∧
    ((∃ T, tyOf env e = some T ∧ k = T.kept ∧ Fine (library execute) (keptEnv env) e) ∨
     (tyOf env e = none ∧ (Fine (library execute) (keptEnv env) e ↔ Writes env e) ∧
       (Fine (library execute) (keptEnv env) e → k = .undefined)))

/-- The same for the arguments of an operation. -/
def AgreeAll (env : Str → Option Ty) (es : List Expr) : Prop :=
  (∃ ks, typeExprs (library execute) (keptEnv env) es = some ks) ∧
    ((∃ Ts, tysOf env es = some Ts ∧ FineAll (library execute) (keptEnv env) es ∧
        List.Forall₂ (fun e (T : Ty) => e.isAttribute = false ∧
          typeExpr (library execute) (keptEnv env) e = some T.kept) es Ts) ∨
     (tysOf env es = none ∧ (FineAll (library execute) (keptEnv env) es →
       ∃ e ∈ es, typeExpr (library execute) (keptEnv env) e = some .undefined)))

theorem typeExpr_reversed (env : Str → ExpressionType) (e : Expr) :
    typeExpr (reversedRules (library execute)) env e = typeExpr (library execute) env e :=
  typeExpr_symmetric (rules_symmetric execute) env e

theorem plain_attribute {e : Expr} (h : Plain e) : e.isAttribute = false := by
  cases e <;> first | rfl | exact absurd h (by simp [Plain])

theorem suits_forall {env : Str → Option Ty} {es : List Expr} {Ts : List Ty}
    (h : List.Forall₂ (fun e (T : Ty) => e.isAttribute = false ∧
      typeExpr (library execute) (keptEnv env) e = some T.kept) es Ts) (ps : List ExpressionTypes) :
    List.Forall₂ (Suits (library execute) (keptEnv env)) ps es ↔
      List.Forall₂ (fun p (T : Ty) => Passable p T.kept) ps Ts := by
  induction h generalizing ps with
  | nil => cases ps <;> simp
  | @cons e T es Ts hd _ ih =>
    cases ps with
    | nil => simp
    | cons p ps =>
      rw [List.forall₂_cons, List.forall₂_cons, ih ps]
      refine and_congr_left fun _ => ?_
      unfold Suits
      rw [typeExpr_reversed, hd.2]
      constructor
      · rintro ⟨_, t, ht, hp⟩; cases ht; exact hp
      · exact fun hp => ⟨hd.1, _, rfl, hp⟩

theorem typeExprs_forall {env : Str → Option Ty} {es : List Expr} {Ts : List Ty}
    (h : List.Forall₂ (fun e (T : Ty) => e.isAttribute = false ∧
      typeExpr (library execute) (keptEnv env) e = some T.kept) es Ts) :
    typeExprs (library execute) (keptEnv env) es = some (Ts.map Ty.kept) := by
  induction h with
  | nil => rw [typeExprs]; rfl
  | cons hd _ ih => rw [typeExprs, hd.2, ih]; rfl

theorem suits_passable {ops : Operations V} {env : Str → ExpressionType} {ps : List ExpressionTypes} {es : List Expr}
    (h : List.Forall₂ (Suits ops env) ps es) : ∀ e ∈ es, ∃ p t, typeExpr (reversedRules ops) env e = some t ∧
      Passable p t := by
  induction h with
  | nil => simp
  | cons hd _ ih =>
    intro e he
    rcases List.mem_cons.1 he with rfl | he
    · obtain ⟨_, t, h1, h2⟩ := hd; exact ⟨_, t, h1, h2⟩
    · exact ih e he

theorem agree_operation (env : Str → Option Ty) (n : Str) (es : List Expr) (h : AgreeAll execute env es) :
    ∃ k, (typeExprs (library execute) (keptEnv env) es).bind (operationType (library execute) n) = some k ∧
    ((∃ T, (tysOf env es).bind (resultType n) = some T ∧ k = T.kept ∧
        (FineAll (library execute) (keptEnv env) es ∧ FineCall (library execute) (keptEnv env) n es)) ∨
     ((tysOf env es).bind (resultType n) = none ∧
       ((FineAll (library execute) (keptEnv env) es ∧ FineCall (library execute) (keptEnv env) n es) ↔
         n = "write".toList ∧ ∃ t, tysOf env es = some [t, constantText, constantText] ∧ t.IsNumber) ∧
       ((FineAll (library execute) (keptEnv env) es ∧ FineCall (library execute) (keptEnv env) n es) →
         k = .undefined))) := by
  obtain ⟨⟨ks, hks⟩, ⟨Ts, hT, hf, h2⟩ | ⟨hT, hf⟩⟩ := h
  · obtain ⟨k, hk, hc⟩ := call_types execute n Ts
    have hs : FineCall (library execute) (keptEnv env) n es ↔ Suitable execute n Ts := by
      unfold FineCall Suitable
      exact exists_congr fun op => and_congr_right fun _ => suits_forall execute h2 op.parameters
    refine ⟨k, by rw [typeExprs_forall execute h2]; exact hk, ?_⟩
    rw [hT, hs]
    rcases hc with ⟨T, h1, h2, h3⟩ | ⟨h1, h2, h3⟩
    · exact .inl ⟨T, h1, h2, hf, h3⟩
    · refine .inr ⟨h1, ?_, fun h => h3 h.2⟩
      rw [and_iff_right hf, h2]
      simp
  · obtain ⟨k, hk⟩ := operationType_total execute n ks
    have hn : ¬ (FineAll (library execute) (keptEnv env) es ∧ FineCall (library execute) (keptEnv env) n es) := by
      rintro ⟨h1, op, _, h2⟩
      obtain ⟨e, he, hu⟩ := hf h1
      obtain ⟨p, t, ht, hp⟩ := suits_passable h2 e he
      rw [typeExpr_reversed, hu] at ht
      cases ht
      exact not_passable_undefined p hp
    refine ⟨k, by rw [hks]; exact hk, .inr ⟨by rw [hT]; rfl, ⟨fun h => absurd h hn, ?_⟩, fun h => absurd h hn⟩⟩
    rintro ⟨_, t, ht, _⟩
    rw [hT] at ht; cases ht

mutual

theorem agree (env : Str → Option Ty) (e : Expr) (h : Plain e) : Agree execute env e := by
  cases e with
  | name v n =>
    refine ⟨keptEnv env n, by rw [typeExpr], ?_⟩
    rw [tyOf, Fine]
    cases hn : env n with
    | none =>
      have : keptEnv env n = .undefined := by simp [keptEnv, keptType, hn]
      rw [this]
      exact .inr ⟨rfl, ⟨fun h => absurd h undefined_not, fun h => absurd h (by simp [Writes])⟩, fun _ => rfl⟩
    | some T =>
      have : keptEnv env n = T.kept := by simp [keptEnv, keptType, hn]
      rw [this]
      exact .inl ⟨T, rfl, rfl, kept_defined T⟩
  | number v n => exact ⟨(Ty.one false n.valueType).kept, by rw [typeExpr]; rfl, .inl ⟨_, by rw [tyOf], rfl, by rw [Fine]; trivial⟩⟩
  | string v s => exact ⟨constantText.kept, by rw [typeExpr]; rfl, .inl ⟨_, by rw [tyOf], rfl, by rw [Fine]; trivial⟩⟩
  | call v n args =>
    have := agree_operation execute env n args (agreeAll env args (by rw [Plain] at h; exact h))
    unfold Agree
    rw [typeExpr, tyOf, Fine, Writes]
    exact this
  | operator v n args =>
    have := agree_operation execute env n args (agreeAll env args (by rw [Plain] at h; exact h))
    unfold Agree
    rw [typeExpr, tyOf, Fine, Writes]
    exact this
  | subscript v e i => exact absurd h (by simp [Plain])
  | «attribute» v e m => exact absurd h (by simp [Plain])

theorem agreeAll (env : Str → Option Ty) (es : List Expr) (h : PlainAll es) : AgreeAll execute env es := by
  cases es with
  | nil => exact ⟨⟨[], by rw [typeExprs]⟩, .inl ⟨[], by rw [tysOf], by rw [FineAll]; trivial, .nil⟩⟩
  | cons e es =>
    rw [PlainAll] at h
    obtain ⟨k, hk, h1⟩ := agree env e h.1
    obtain ⟨⟨ks, hks⟩, h2⟩ := agreeAll env es h.2
    refine ⟨⟨k :: ks, by rw [typeExprs, hk, hks]; rfl⟩, ?_⟩
    rw [tysOf, FineAll]
    rcases h1 with ⟨T, hT, rfl, hf⟩ | ⟨hT, _, hu⟩
    · rcases h2 with ⟨Ts, hTs, hfs, h2⟩ | ⟨hTs, hus⟩
      · exact .inl ⟨T :: Ts, by rw [hT, hTs]; rfl, ⟨hf, hfs⟩, .cons ⟨plain_attribute h.1, hk⟩ h2⟩
      · refine .inr ⟨by rw [hT, hTs]; rfl, fun hh => ?_⟩
        obtain ⟨x, hx, hxu⟩ := hus hh.2
        exact ⟨x, List.mem_cons_of_mem _ hx, hxu⟩
    · refine .inr ⟨by rw [hT]; rfl, fun hh => ⟨e, List.mem_cons_self, ?_⟩⟩
      rw [hk, hu hh.1]

end

/-! ### Statements -/

theorem bind_kept (env : Str → Option Ty) (n : Str) (T : Ty) :
    bindType (keptEnv env) n T.kept = keptEnv (fun m => if m = n then some T else env m) := by
  funext m
  unfold bindType keptEnv
  by_cases h : m = n <;> simp [h, keptType]

theorem fineStmts_iff (env : Str → Option Ty) (l : List Stmt) (h : PlainStmts l) :
    FineStmts (library execute) (keptEnv env) l ↔ Typed env l := by
  induction l generalizing env with
  | nil => simp [FineStmts, Typed]
  | cons s l ih =>
    cases s with
    | expr e =>
      rw [PlainStmts] at h
      rw [FineStmts, Typed, ih env h.2]
      refine and_congr_left fun _ => ?_
      obtain ⟨k, hk, ⟨T, hT, rfl, hf⟩ | ⟨hT, hw, _⟩⟩ := agree execute env e h.1
      · simp [hT, hf]
      · simp [hT, hw]
    | assign v w n e =>
      rw [PlainStmts] at h
      rw [FineStmts, Typed, typeExpr_reversed]
      obtain ⟨k, hk, ⟨T, hT, rfl, hf⟩ | ⟨hT, hw, hu⟩⟩ := agree execute env e h.1
      · rw [hk, hT]
        constructor
        · rintro ⟨_, t, ht, _, hs⟩
          cases ht
          rw [bind_kept] at hs
          exact ⟨T, rfl, (ih _ h.2).1 hs⟩
        · rintro ⟨t, ht, hs⟩
          cases ht
          exact ⟨hf, _, rfl, kept_defined T, by rw [bind_kept]; exact (ih _ h.2).2 hs⟩
      · rw [hk, hT]
        constructor
        · rintro ⟨hf, t, ht, hd, _⟩
          cases ht
          rw [hu hf] at hd
          exact absurd hd undefined_not
        · rintro ⟨t, ht, _⟩; cases ht
    | _ => exact absurd h (by simp [PlainStmts])

theorem typesAfter_kept (env : Str → Option Ty) (l : List Stmt) (h : PlainStmts l) (ht : Typed env l) :
    typesAfter (library execute) (keptEnv env) l = keptEnv (tysAfter env l) := by
  induction l generalizing env with
  | nil => rfl
  | cons s l ih =>
    cases s with
    | expr e =>
      rw [PlainStmts] at h
      rw [Typed] at ht
      exact ih env h.2 ht.2
    | assign v w n e =>
      rw [PlainStmts] at h
      rw [Typed] at ht
      obtain ⟨T, hT, ht⟩ := ht
      rw [typesAfter, tysAfter, typeExpr_reversed, hT]
      obtain ⟨k, hk, ⟨T', hT', rfl, _⟩ | ⟨hT', _⟩⟩ := agree execute env e h.1
      · rw [hT] at hT'; cases hT'
        rw [hk, Option.getD_some, bind_kept]
        exact ih _ h.2 ht
      · rw [hT] at hT'; cases hT'
    | _ => exact absurd h (by simp [PlainStmts])

mutual

theorem plain_noSubscript (e : Expr) (h : Plain e) : NoSubscript e := by
  cases e with
  | name v n => trivial
  | number v n => trivial
  | string v s => trivial
  | call v n args => rw [NoSubscript]; exact plainAll_noSubscripts args (by rw [Plain] at h; exact h)
  | operator v n args => rw [NoSubscript]; exact plainAll_noSubscripts args (by rw [Plain] at h; exact h)
  | subscript v e i => exact absurd h (by simp [Plain])
  | «attribute» v e m => exact absurd h (by simp [Plain])

theorem plainAll_noSubscripts (es : List Expr) (h : PlainAll es) : NoSubscripts es := by
  cases es with
  | nil => rw [NoSubscripts]; trivial
  | cons e es =>
    rw [PlainAll] at h
    rw [NoSubscripts]
    exact ⟨plain_noSubscript e h.1, plainAll_noSubscripts es h.2⟩

end

theorem plain_straightLine (l : List Stmt) (h : PlainStmts l) :
    StraightLine l ∧ ∀ t ∈ l, ¬ AssignsAttribute t := by
  induction l with
  | nil => exact ⟨trivial, by simp⟩
  | cons s l ih =>
    cases s with
    | expr e =>
      rw [PlainStmts] at h
      refine ⟨⟨plain_noSubscript e h.1, (ih h.2).1⟩, fun t ht => ?_⟩
      rcases List.mem_cons.1 ht with rfl | ht
      · simp [AssignsAttribute]
      · exact (ih h.2).2 t ht
    | assign v w n e =>
      rw [PlainStmts] at h
      refine ⟨⟨plain_noSubscript e h.1, (ih h.2).1⟩, fun t ht => ?_⟩
      rcases List.mem_cons.1 ht with rfl | ht
      · simp [AssignsAttribute, plain_attribute h.1]
      · exact (ih h.2).2 t ht
    | _ => exact absurd h (by simp [PlainStmts])

end

end Fern.Library
