import Verif.Lemmas.Types

/-!
# Flag collections, type names, expression types (C40, C41, C42, C43)
-/

namespace Fern

open Spec

/-! ### C40: flag collections -/

section Flags

variable {n : ℕ} (a b c : Flags n)

/-- A collection is a subset of another iff it is not empty and each of its flags is in the
other. -/
theorem C40_subset : a.isSubsetOf b = true ↔ (∃ i, a i = true) ∧ ∀ i, a i = true → b i = true :=
  Flags.isSubsetOf_iff

example : (Flags.single 1 : Flags 3).isSubsetOf (Flags.union (Flags.single 1) (Flags.single 2)) =
    true := by decide

theorem C40_transitive (h1 : a.isSubsetOf b = true) (h2 : b.isSubsetOf c = true) :
    a.isSubsetOf c = true := by
  rw [C40_subset] at *
  exact ⟨h1.1, fun i hi => h2.2 i (h1.2 i hi)⟩

theorem C40_antisymmetric (h1 : a.isSubsetOf b = true) (h2 : b.isSubsetOf a = true) :
    a.equal b = true ∧ a = b := by
  rw [C40_subset] at *
  have : a = b := funext fun i => by
    rw [Bool.eq_iff_iff]
    exact ⟨h1.2 i, h2.2 i⟩
  exact ⟨Flags.equal_iff.2 this, this⟩

/-- Adding flags to the larger collection keeps the relation, taking away the flags of the smaller
one that are not in a third keeps it as long as one is left. -/
theorem C40_monotone (h : a.isSubsetOf b = true) :
    a.isSubsetOf (b.union c) = true ∧
      ((a.inter c).any = true → (a.inter c).isSubsetOf b = true) := by
  rw [C40_subset] at *
  constructor
  · exact ⟨h.1, fun i hi => by rw [Flags.union, h.2 i hi]; rfl⟩
  · intro hany
    rw [C40_subset]
    refine ⟨Flags.any_iff.1 hany, fun i hi => h.2 i ?_⟩
    rw [Flags.inter, Bool.and_eq_true] at hi
    exact hi.1

/-- The empty collection is a subset of nothing, not even of itself; every other one is a subset of
itself. -/
theorem C40_empty : (Flags.unknown : Flags n).isSubsetOf a = false ∧
    (a.isSubsetOf a = true ↔ a.any = true) := by
  constructor
  · rw [Bool.eq_false_iff, ne_eq, C40_subset]
    rintro ⟨⟨i, hi⟩, -⟩
    exact absurd hi (by simp [Flags.unknown])
  · rw [C40_subset, Flags.any_iff]
    exact ⟨fun h => h.1, fun h => ⟨h, fun _ hi => hi⟩⟩

/-- The operators are the operations on sets; `any`, `none`, `fixed` and `==` mean non-empty, empty,
exactly one flag, and the same flags. -/
theorem C40_operators (i : Fin n) :
    ((a.inter b) i = true ↔ a i = true ∧ b i = true) ∧
    ((a.union b) i = true ↔ a i = true ∨ b i = true) ∧
    ((a.xor b) i = true ↔ (a i = true ↔ ¬ b i = true)) ∧
    (a.any = true ↔ ∃ i, a i = true) ∧ (a.isNone = true ↔ ∀ i, ¬ a i = true) ∧
    (a.fixed = true ↔ ∃! i, a i = true) ∧ (a.equal b = true ↔ ∀ i, a i = b i) := by
  refine ⟨?_, ?_, ?_, Flags.any_iff, ?_, ?_, ?_⟩
  · rw [Flags.inter, Bool.and_eq_true]
  · rw [Flags.union, Bool.or_eq_true]
  · rw [Flags.xor]; cases a i <;> cases b i <;> decide
  · rw [Flags.isNone, Bool.not_eq_true', Bool.eq_false_iff, ne_eq, Flags.any_iff, not_exists]
  · rw [Flags.fixed_iff]
    constructor
    · rintro ⟨j, rfl⟩
      exact ⟨j, by simp [Flags.single], fun k hk => by simpa [Flags.single] using hk⟩
    · rintro ⟨j, hj, hu⟩
      refine ⟨j, funext fun k => ?_⟩
      rw [Flags.single, Bool.eq_iff_iff, decide_eq_true_iff]
      exact ⟨fun hk => hu k hk, fun hk => hk ▸ hj⟩
  · rw [Flags.equal_iff, funext_iff]

end Flags

/-! ### C41: names of value types -/

/-- The name of a single type maps back to it; names of different types differ. -/
theorem C41_single (v w : ValueType) :
    ValueTypes.fromString v.flag.toString = some v.flag ∧
      (v.flag.toString = w.flag.toString → v = w) := by
  have hn : ∀ v : ValueType, v.flag.toString = v.name := by
    intro v; cases v <;> decide +kernel
  constructor
  · rw [hn]; cases v <;> rfl
  · rw [hn, hn]; exact ValueType.name_injective

/-- The printed name of a set consists of the names of exactly its members, separated by bars, in
the order of the enumeration; that of the empty set is a question mark. -/
theorem C41_printed (s : ValueTypes) :
    (s = Flags.unknown → s.toString = ['?']) ∧
    (s ≠ Flags.unknown → ∃ members : List ValueType,
      members.Pairwise (fun v w => v.index < w.index) ∧ (∀ v, v ∈ members ↔ s.test v = true) ∧
      s.toString = ['|'].intercalate (members.map ValueType.name)) := by
  constructor
  · rintro rfl; decide +kernel
  · intro h
    refine ⟨allValueTypes.filter s.test, ?_, fun v => ?_, ?_⟩
    · exact List.Pairwise.filter _ (by decide)
    · rw [List.mem_filter]
      exact ⟨fun h => h.2, fun h => ⟨mem_allValueTypes v, h⟩⟩
    · rw [ValueTypes.toString_eq, ValueTypes.tokens, if_neg h, join_eq_intercalate]

example : ValueTypes.toString (ValueType.int8.flag.union ValueType.bool.flag) = "Bool|Int8".toList := by
  decide +kernel

/-- Different sets have different printed names. -/
theorem C41_printed_injective (s t : ValueTypes) (h : s.toString = t.toString) : s = t := by
  have e : s.tokens = t.tokens := by
    rw [← ValueTypes.splitBy_toString, ← ValueTypes.splitBy_toString, h]
  apply ValueTypes.ext_test
  intro v
  rw [← ValueTypes.mem_tokens, ← ValueTypes.mem_tokens, e]

/-- A printed name can be read again exactly if it is the name of a single type. -/
theorem C41_round_trip (s : ValueTypes) :
    ValueTypes.fromString s.toString = some s ↔ s.fixed = true := by
  rw [Flags.fixed_iff]
  constructor
  · intro h
    obtain ⟨h1, h2⟩ := ValueTypes.byString_keys _ (mem_of_lookup h)
    simp only at h1 h2
    have hne : s ≠ Flags.unknown := by
      intro h0
      exact h2 ((C41_printed s).1 h0)
    rw [ValueTypes.toString_eq, ValueTypes.tokens, if_neg hne] at h1
    cases hf : allValueTypes.filter s.test with
    | nil => exact absurd (ValueTypes.filter_empty.1 hf) hne
    | cons v vs =>
      cases vs with
      | cons w ws =>
        rw [hf] at h1
        exact absurd (by simp [join]) h1
      | nil =>
        refine ⟨v.index, ?_⟩
        change s = v.flag
        apply ValueTypes.ext_test
        intro w
        rw [ValueType.test_flag, ← List.mem_singleton (a := w) (b := v), ← hf, List.mem_filter]
        exact ⟨fun h => ⟨mem_allValueTypes w, h⟩, fun h => h.2⟩
  · rintro ⟨i, rfl⟩
    obtain ⟨v, rfl⟩ := ValueType.index_surjective i
    exact (C41_single v v).1

/-- The aliases: `Size`, `Number` and `All` can be read but are never printed. -/
theorem C41_aliases : ValueTypes.fromString "Size".toList = some ValueType.uint64.flag ∧
    (∀ v, (∃ s, ValueTypes.fromString "Number".toList = some s ∧ s.test v = true) ↔
      ∃ t, numberType v = some t ∧ t ≠ .bool) ∧
    (∀ v, ∃ s, ValueTypes.fromString "All".toList = some s ∧ s.test v = true) ∧
    ∀ s : ValueTypes, s.toString ≠ "Size".toList ∧ s.toString ≠ "Number".toList ∧
      s.toString ≠ "All".toList := by
  have key : ∀ (s : ValueTypes) (k : Str) (t : ValueTypes), ValueTypes.fromString k = some t →
      s.toString = k → k = ['?'] ∨ ∃ v : ValueType, v.name = k := by
    intro s k t hk h
    have h1 := (ValueTypes.byString_keys _ (mem_of_lookup hk)).1
    simp only at h1
    subst h
    by_cases h0 : s = Flags.unknown
    · exact .inl ((C41_printed s).1 h0)
    · right
      rw [ValueTypes.toString_eq, ValueTypes.tokens, if_neg h0] at h1 ⊢
      cases hf : allValueTypes.filter s.test with
      | nil => exact absurd (ValueTypes.filter_empty.1 hf) h0
      | cons v vs =>
        cases vs with
        | nil => exact ⟨v, rfl⟩
        | cons w ws =>
          rw [hf] at h1
          exact absurd (by simp [join]) h1
  have hnames : ∀ v : ValueType, v.name ≠ "Size".toList ∧ v.name ≠ "Number".toList ∧
      v.name ≠ "All".toList := by
    intro v; cases v <;> decide
  refine ⟨rfl, fun v => ?_, fun v => ⟨ValueTypes.all, rfl, by cases v <;> decide⟩, fun s => ?_⟩
  · constructor
    · rintro ⟨s, hs, h⟩
      have e : s = ValueTypes.number := (Option.some.inj hs).symm
      subst e
      revert h
      cases v <;> first | (intro h; exact absurd h (by decide)) | (intro _; exact ⟨_, rfl, by simp⟩)
    · rintro ⟨t, ht, hb⟩
      refine ⟨ValueTypes.number, rfl, ?_⟩
      revert ht hb
      cases v <;> simp only [numberType] <;>
        first
        | (intro _ _; decide)
        | (intro h hb; exact absurd (Option.some.inj h).symm hb)
        | (intro h; exact absurd h (by simp))
  · refine ⟨fun h => ?_, fun h => ?_, fun h => ?_⟩
    · rcases key s _ _ rfl h with h | ⟨v, h⟩
      · exact absurd h (by decide)
      · exact (hnames v).1 h
    · rcases key s "Number".toList ValueTypes.number rfl h with h | ⟨v, h⟩
      · exact absurd h (by decide)
      · exact (hnames v).2.1 h
    · rcases key s "All".toList ValueTypes.all rfl h with h | ⟨v, h⟩
      · exact absurd h (by decide)
      · exact (hnames v).2.2 h

/-- The same for data types: names of single types can be read again, different sets print
differently. -/
theorem C41_data_types (s t : DataTypes) :
    (s.fixed = true → DataTypes.fromString s.toString = some s) ∧
      (s.toString = t.toString → s = t) := by
  have key : ∀ x y z w : Bool,
      ((Flags.fixed (n := 2) (fun i => if i = 0 then x else y)) = true →
        DataTypes.fromString (DataTypes.toString (fun i => if i = 0 then x else y)) =
          some (fun i => if i = 0 then x else y)) ∧
      (DataTypes.toString (fun i => if i = 0 then x else y) =
        DataTypes.toString (fun i => if i = 0 then z else w) → x = z ∧ y = w) := by
    decide +kernel
  have e : ∀ s : DataTypes, s = fun i => if i = 0 then s 0 else s 1 := by
    intro s
    funext i
    match i with
    | 0 => rfl
    | 1 => rfl
  have := key (s 0) (s 1) (t 0) (t 1)
  rw [← e s, ← e t] at this
  refine ⟨this.1, fun h => ?_⟩
  rw [e s, e t, (this.2 h).1, (this.2 h).2]

/-! ### C42: expression types -/

/-- A type is satisfied by another iff the data types and the value types of the other are not empty
and among its own. -/
theorem C42_satisfied (t u : ExpressionType) :
    t.isSatisfiedBy u = true ↔
      ((∃ i, u.data i = true) ∧ ∀ i, u.data i = true → t.data i = true) ∧
      ((∃ v, u.value.test v = true) ∧ ∀ v, u.value.test v = true → t.value.test v = true) := by
  rw [ExpressionType.isSatisfiedBy, Bool.and_eq_true, C40_subset, C40_subset]
  refine and_congr Iff.rfl (and_congr ?_ ?_)
  · constructor
    · rintro ⟨i, hi⟩
      obtain ⟨v, rfl⟩ := ValueType.index_surjective i
      exact ⟨v, hi⟩
    · rintro ⟨v, hv⟩; exact ⟨v.index, hv⟩
  · constructor
    · exact fun h v hv => h _ hv
    · intro h i hi
      obtain ⟨v, rfl⟩ := ValueType.index_surjective i
      exact h v hi

theorem C42_transitive (t u w : ExpressionType) (h1 : t.isSatisfiedBy u = true)
    (h2 : u.isSatisfiedBy w = true) : t.isSatisfiedBy w = true := by
  rw [ExpressionType.isSatisfiedBy, Bool.and_eq_true] at *
  exact ⟨C40_transitive _ _ _ h2.1 h1.1, C40_transitive _ _ _ h2.2 h1.2⟩

/-- Types satisfying each other are equal. -/
theorem C42_antisymmetric (t u : ExpressionType) (h1 : t.isSatisfiedBy u = true)
    (h2 : u.isSatisfiedBy t = true) : t.equal u = true ∧ t = u := by
  rw [ExpressionType.isSatisfiedBy, Bool.and_eq_true] at h1 h2
  have e1 := C40_antisymmetric _ _ h2.1 h1.1
  have e2 := C40_antisymmetric _ _ h2.2 h1.2
  refine ⟨by rw [ExpressionType.equal, e1.1, e2.1]; rfl, ?_⟩
  obtain ⟨d, v⟩ := t
  obtain ⟨d', v'⟩ := u
  rw [show d = d' from e1.2, show v = v' from e2.2]

/-- A type satisfies itself iff it is defined; an undefined type neither satisfies nor is
satisfied. -/
theorem C42_reflexive (t u : ExpressionType) :
    (t.isSatisfiedBy t = true ↔ t.defined = true) ∧
      (t.isSatisfiedBy u = true → t.defined = true ∧ u.defined = true) := by
  have hd : ∀ t : ExpressionType, t.defined = true ↔
      (∃ i, t.data i = true) ∧ ∃ i, t.value i = true := by
    intro t
    rw [ExpressionType.defined, Bool.and_eq_true, decide_eq_true_iff, decide_eq_true_iff, gt_iff_lt,
      gt_iff_lt, Flags.count_pos_iff, Flags.count_pos_iff]
  rw [hd, hd, ExpressionType.isSatisfiedBy, ExpressionType.isSatisfiedBy, Bool.and_eq_true,
    Bool.and_eq_true, C40_subset, C40_subset, C40_subset, C40_subset]
  constructor
  · exact ⟨fun h => ⟨h.1.1, h.2.1⟩, fun h => ⟨⟨h.1, fun _ x => x⟩, ⟨h.2, fun _ x => x⟩⟩⟩
  · rintro ⟨⟨⟨i, hi⟩, h1⟩, ⟨⟨j, hj⟩, h2⟩⟩
    exact ⟨⟨⟨i, h1 i hi⟩, ⟨j, h2 j hj⟩⟩, ⟨⟨i, hi⟩, ⟨j, hj⟩⟩⟩

example : ∃ t u : ExpressionType, t.isSatisfiedBy u = true ∧ u.isSatisfiedBy t = false :=
  ⟨⟨DataTypes.all, ValueTypes.number⟩, ⟨DataTypes.constant, ValueType.int16.flag⟩,
    by decide, by decide⟩

/-- Exactly one data type and one value type: the only types that satisfy a fixed type equal it. -/
theorem C42_fixed (t u : ExpressionType) (hf : t.fixed = true) (h : t.isSatisfiedBy u = true) :
    u = t := by
  rw [ExpressionType.fixed, Bool.and_eq_true, Flags.fixed_iff, Flags.fixed_iff] at hf
  rw [ExpressionType.isSatisfiedBy, Bool.and_eq_true, C40_subset, C40_subset] at h
  obtain ⟨⟨i, hi⟩, ⟨j, hj⟩⟩ := hf
  obtain ⟨⟨⟨k, hk⟩, h1⟩, ⟨⟨l, hl⟩, h2⟩⟩ := h
  obtain ⟨d, v⟩ := t
  obtain ⟨d', v'⟩ := u
  simp only at *
  subst hi
  subst hj
  have key : ∀ {n : ℕ} (s : Flags n) (i k : Fin n), s k = true →
      (∀ x, s x = true → Flags.single i x = true) → s = Flags.single i := by
    intro n s i k hk h
    funext x
    rw [Bool.eq_iff_iff]
    refine ⟨h x, fun hx => ?_⟩
    have e1 : k = i := by simpa [Flags.single] using h k hk
    have e2 : x = i := by simpa [Flags.single] using hx
    rw [e2, ← e1]
    exact hk
  rw [key d' i k hk h1, key v' j l hl h2]

theorem isSatisfiedByType_iff (types : ExpressionTypes) (u : ExpressionType) :
    ExpressionTypes.isSatisfiedByType types u = true ↔ ∃ t ∈ types, t.isSatisfiedBy u = true := by
  induction types with
  | nil => simp [ExpressionTypes.isSatisfiedByType]
  | cons t ts ih =>
    rw [ExpressionTypes.isSatisfiedByType]
    by_cases h : t.isSatisfiedBy u = true
    · rw [if_pos h]
      exact ⟨fun _ => ⟨t, by simp, h⟩, fun _ => rfl⟩
    · rw [if_neg h, ih]
      simp [h]

/-- The index found is that of the first type in the given list that satisfies one of the
alternatives; it is the size of the list iff there is none. -/
theorem C42_index (types others : ExpressionTypes) (i : ℕ) :
    ExpressionTypes.idOfSatisfyingType types others = i ↔
      (i ≤ others.length ∧
       (∀ j u, j < i → others[j]? = some u → ∀ t ∈ types, ¬ t.isSatisfiedBy u = true) ∧
       ∀ u, others[i]? = some u → ∃ t ∈ types, t.isSatisfiedBy u = true) := by
  have loop : ∀ (others : ExpressionTypes) (k : ℕ), ∃ m ≤ others.length,
      ExpressionTypes.idLoop types others k = k + m ∧
       (∀ j u, j < m → others[j]? = some u → ∀ t ∈ types, ¬ t.isSatisfiedBy u = true) ∧
       ∀ u, others[m]? = some u → ∃ t ∈ types, t.isSatisfiedBy u = true := by
    intro others
    induction others with
    | nil => intro k; exact ⟨0, le_rfl, rfl, by simp, by simp⟩
    | cons o os ih =>
      intro k
      by_cases h : ExpressionTypes.isSatisfiedByType types o = true
      · refine ⟨0, by simp, ?_, by simp, ?_⟩
        · rw [ExpressionTypes.idLoop, if_pos h]; rfl
        · intro u hu
          cases hu
          exact (isSatisfiedByType_iff _ _).1 h
      · obtain ⟨m, hm, e, h1, h2⟩ := ih (k + 1)
        refine ⟨m + 1, by simp [hm], ?_, ?_, ?_⟩
        · rw [ExpressionTypes.idLoop, if_neg h, e]; omega
        · intro j u hj hu t ht hs
          cases j with
          | zero =>
            cases hu
            exact h ((isSatisfiedByType_iff _ _).2 ⟨t, ht, hs⟩)
          | succ j => exact h1 j u (by omega) hu t ht hs
        · exact h2
  obtain ⟨m, hm, e, h1, h2⟩ := loop others 0
  rw [ExpressionTypes.idOfSatisfyingType, e, Nat.zero_add]
  constructor
  · rintro rfl; exact ⟨hm, h1, h2⟩
  · rintro ⟨hi, k1, k2⟩
    rcases lt_trichotomy m i with hlt | rfl | hlt
    · obtain ⟨t, ht, hs⟩ := h2 _ (List.getElem?_eq_getElem (by omega : m < others.length))
      exact absurd hs (k1 m _ hlt (List.getElem?_eq_getElem (by omega)) t ht)
    · rfl
    · obtain ⟨t, ht, hs⟩ := k2 _ (List.getElem?_eq_getElem (by omega : i < others.length))
      exact absurd hs (h1 i _ hlt (List.getElem?_eq_getElem (by omega)) t ht)

/-- Alternatives are satisfied by a list iff some type in the list satisfies one of them. -/
theorem C42_alternatives (types others : ExpressionTypes) :
    ExpressionTypes.isSatisfiedBy types others = true ↔
      ∃ u ∈ others, ∃ t ∈ types, t.isSatisfiedBy u = true := by
  obtain ⟨hi, h1, h2⟩ := (C42_index types others _).1 rfl
  rw [ExpressionTypes.isSatisfiedBy, decide_eq_true_iff]
  constructor
  · intro h
    obtain ⟨t, ht, hs⟩ := h2 _ (List.getElem?_eq_getElem h)
    exact ⟨_, List.getElem_mem h, t, ht, hs⟩
  · rintro ⟨u, hu, t, ht, hs⟩
    obtain ⟨j, hj, e⟩ := List.mem_iff_getElem.1 hu
    by_contra hge
    exact h1 j u (by omega) (by rw [← e]; exact List.getElem?_eq_getElem hj) t ht hs

example : ExpressionTypes.idOfSatisfyingType [⟨DataTypes.all, ValueTypes.number⟩]
    [⟨DataTypes.constant, ValueType.string.flag⟩, ⟨DataTypes.constant, ValueType.int8.flag⟩] = 1 := by
  decide +kernel

/-! ### C43: the standard calculation of the type of a result -/

/-- If the arguments have fixed types which the parameters support and one of the types, `d`,
represents all values of all of them, then the result has type `d` - unless `d` is the 16 bit signed
integer type and there are other types. -/
theorem C43_dominating (ps rs : List ExpressionType) (index : ℕ) (result : ExpressionType)
    (types : List ValueType) (d : ValueType) (hr : rs[index]? = some result)
    (hnf : result.value.fixed = false)
    (hs : List.Forall₂ (fun v p => p.value.test v = true) types ps) (hd : d ∈ types)
    (hdom : ∀ m ∈ types, Dominates d m) (h16 : d = .int16 → ∀ m ∈ types, m = .int16)
    (hres : result.value.test d = true) :
    resultValueType ⟨ps.map ([·]), rs⟩ index (types.map ValueType.flag) = some d.flag := by
  rw [resultValueType_fixed hr hnf hs hd]
  by_cases hall : ∀ m ∈ types, m = d
  · rw [if_pos hall]
  · rw [if_neg hall]
    have hc : d ∈ valueTypeChain := by
      obtain ⟨D, M, hD, -, -⟩ := hdom d hd
      cases d <;> first
        | decide
        | exact absurd (h16 rfl) hall
        | exact absurd (fun m hm => dominated_by_bool (hdom m hm)) hall
        | exact absurd hD (by simp [numberType])
    rw [chain_find hd hc hdom]
    simp only [hres, if_true]

/-- An operation on two numbers, with a number as result. -/
def numberOperation : OperationType :=
  ⟨[[⟨DataTypes.all, ValueTypes.number⟩], [⟨DataTypes.all, ValueTypes.number⟩]],
    [⟨DataTypes.all, ValueTypes.number⟩]⟩

/-- The hypotheses can be met. -/
example : resultValueType numberOperation 0 ([ValueType.int8, ValueType.int32].map ValueType.flag) =
    some ValueType.int32.flag := by
  refine C43_dominating [⟨DataTypes.all, ValueTypes.number⟩, ⟨DataTypes.all, ValueTypes.number⟩]
    [⟨DataTypes.all, ValueTypes.number⟩] 0 _ [.int8, .int32] .int32 rfl (by decide) ?_ (by decide) ?_
    (by decide) (by decide)
  · exact .cons (by decide) (.cons (by decide) .nil)
  · intro m hm
    simp only [List.mem_cons, List.not_mem_nil, or_false] at hm
    rcases hm with rfl | rfl
    · refine ⟨_, _, rfl, rfl, int_in_int fun v hv => ?_⟩
      simp only [Fits] at *
      omega
    · exact ⟨_, _, rfl, rfl, fun v hv => hv⟩

/-- The disagreement: if the dominating type is the 16 bit signed integer type and there is another
type, the result never has it. -/
theorem C43_int16 (ps rs : List ExpressionType) (index : ℕ) (result : ExpressionType)
    (types : List ValueType) (hr : rs[index]? = some result) (hnf : result.value.fixed = false)
    (hs : List.Forall₂ (fun v p => p.value.test v = true) types ps)
    (hd : ValueType.int16 ∈ types) (m : ValueType) (hm : m ∈ types) (hne : m ≠ .int16) :
    resultValueType ⟨ps.map ([·]), rs⟩ index (types.map ValueType.flag) ≠
      some ValueType.int16.flag := by
  rw [resultValueType_fixed hr hnf hs hd, if_neg (fun h => hne (h m hm))]
  cases hf : valueTypeChain.find? (fun v => decide (v ∈ types)) with
  | none => simp
  | some f =>
    have hmem := List.mem_of_find?_eq_some hf
    simp only
    split
    · rw [ne_eq, Option.some.injEq]
      intro e
      have := (ValueType.test_flag .int16 f).1 (by rw [← e]; exact (ValueType.test_flag f f).2 rfl)
      subst this
      exact absurd hmem (by decide)
    · simp

/-- 16 bit and 8 bit integers give 8 bit integers, which cannot represent the values. -/
theorem C43_int16_witness :
    resultValueType numberOperation 0 [ValueType.int16.flag, ValueType.int8.flag] =
      some ValueType.int8.flag ∧
    resultValueType numberOperation 0 [ValueType.int16.flag, ValueType.uint8.flag] =
      some ValueType.uint8.flag ∧
    ¬ Dominates .int8 .int16 ∧ ¬ Dominates .uint8 .int16 := by
  have key : ∀ (r : Option ValueTypes) (v : ValueType),
      (r.any fun s => s.equal v.flag) = true → r = some v.flag := by
    intro r v h
    cases r with
    | none => simp at h
    | some s => rw [Option.any_some, Flags.equal_iff] at h; rw [h]
  refine ⟨key _ _ (by decide +kernel), key _ _ (by decide +kernel), ?_, ?_⟩
  · rw [dominates_iff rfl rfl]
    exact not_int_in 32767 (by decide) (by decide)
  · rw [dominates_iff rfl rfl]
    exact not_int_in 32767 (by decide) (by decide)

/-- Whatever the supported fixed argument types, a calculated type is the type of one of the
arguments, and one that the operation's result may have if there is more than one type. -/
theorem C43_argument_type (ps rs : List ExpressionType) (index : ℕ) (result : ExpressionType)
    (types : List ValueType) (hr : rs[index]? = some result) (hnf : result.value.fixed = false)
    (hs : List.Forall₂ (fun v p => p.value.test v = true) types ps) (hne : types ≠ [])
    (s : ValueTypes)
    (h : resultValueType ⟨ps.map ([·]), rs⟩ index (types.map ValueType.flag) = some s) :
    ∃ v ∈ types, s = v.flag ∧ ((∃ w ∈ types, w ≠ v) → result.value.test v = true) := by
  obtain ⟨d, hd⟩ := List.exists_mem_of_ne_nil _ hne
  rw [resultValueType_fixed hr hnf hs hd] at h
  by_cases hall : ∀ m ∈ types, m = d
  · rw [if_pos hall] at h
    cases h
    refine ⟨d, hd, rfl, ?_⟩
    rintro ⟨w, hw, hne⟩
    exact absurd (hall w hw) hne
  · rw [if_neg hall] at h
    cases hf : valueTypeChain.find? (fun v => decide (v ∈ types)) with
    | none => rw [hf] at h; simp at h
    | some f =>
      rw [hf] at h
      simp only at h
      split at h
      · rename_i ht
        cases h
        exact ⟨f, by simpa using List.find?_some hf, rfl, fun _ => ht⟩
      · simp at h

/-- A fixed result type is returned whatever the arguments are. -/
theorem C43_fixed_result (op : OperationType) (index : ℕ) (result : ExpressionType)
    (args : List ValueTypes) (hr : op.results[index]? = some result)
    (hf : result.value.fixed = true) (hl : args.length = op.parameters.length) :
    resultValueType op index args = some result.value := by
  rw [resultValueType, hr]
  simp only [Option.bind_eq_bind, Option.bind_some, hl, ne_eq, not_true, if_false, hf, if_true]

/-- For unary operations the types of the argument are passed on unchecked: an argument type that
the parameter does not support becomes the type of the result. -/
theorem C43_unary_unchecked :
    resultValueType ⟨[[⟨DataTypes.all, ValueTypes.number⟩]], [⟨DataTypes.all, ValueTypes.number⟩]⟩ 0
      [ValueType.string.flag] = some ValueType.string.flag ∧
    ValueType.string.flag.isSubsetOf ValueTypes.number = false := by
  constructor
  · rw [resultValueType]
    have h1 : ValueTypes.number.fixed = false := by decide
    have h2 : ValueType.string.flag.any = true := by decide
    simp [h1, h2]
  · decide

theorem zipWith_data {args : List DataTypes} {ps : List ExpressionType}
    (h : List.Forall₂ (fun a p => a.isSubsetOf p.data = true) args ps) :
    List.zipWith Flags.inter args (ps.map (·.data)) = args := by
  induction h with
  | nil => rfl
  | @cons a p as ps ha _ ih =>
    simp only [List.map_cons, List.zipWith_cons_cons, ih]
    congr 1
    funext i
    rw [Flags.isSubsetOf_iff] at ha
    rw [Flags.inter, Bool.eq_iff_iff, Bool.and_eq_true]
    exact ⟨fun h => h.1, fun h => ⟨h, ha.2 i h⟩⟩

/-- The data type: a field if one of the arguments may be a field, else a constant. -/
theorem C43_data_type (ps rs : List ExpressionType) (index : ℕ) (result : ExpressionType)
    (args : List DataTypes) (hr : rs[index]? = some result)
    (hs : List.Forall₂ (fun a p => a.isSubsetOf p.data = true) args ps) (hne : args ≠ [])
    (hres : result.data = DataTypes.all) :
    resultDataType ⟨ps.map ([·]), rs⟩ index args =
      if ∃ a ∈ args, a 1 = true then some DataTypes.staticField else some DataTypes.constant := by
  have hlen := hs.length_eq
  have h0 : (∃ a ∈ args, a 1 = true) ∨ ∃ a ∈ args, a 0 = true := by
    cases hs with
    | nil => exact absurd rfl hne
    | @cons a p as ps ha _ =>
      rw [Flags.isSubsetOf_iff] at ha
      obtain ⟨⟨i, hi⟩, -⟩ := ha
      match i with
      | 0 => exact .inr ⟨a, by simp, hi⟩
      | 1 => exact .inl ⟨a, by simp, hi⟩
  rw [resultDataType, hr]
  simp only [Option.bind_eq_bind, Option.bind_some, List.length_map, hlen, ne_eq, not_true,
    if_false, Bool.false_eq_true, parameterTypes_singletons, zipWith_data hs,
    Flags.merge_iff, hres]
  have hall : Flags.fixed DataTypes.all = false := by decide
  have hsub1 : DataTypes.staticField.isSubsetOf DataTypes.all = true := by decide
  have hsub0 : DataTypes.constant.isSubsetOf DataTypes.all = true := by decide
  by_cases h1 : ∃ a ∈ args, a 1 = true
  · simp only [if_pos h1, Option.bind_some, hsub1, if_true, hall, Bool.false_eq_true, if_false]
  · have h2 := h0.resolve_left h1
    simp only [if_neg h1, if_pos h2, Option.bind_some, hsub0, if_true, hall, Bool.false_eq_true, if_false]

/-- The data type of a result is the one that the operation fixes, or one that it supports. -/
theorem C43_data_supported (op : OperationType) (index : ℕ) (result : ExpressionType)
    (args : List DataTypes) (s : DataTypes) (hr : op.results[index]? = some result)
    (h : resultDataType op index args = some s) :
    (result.data.fixed = true → s = result.data) ∧
      (result.data.fixed = false → s.isSubsetOf result.data = true) := by
  rw [resultDataType, hr] at h
  simp only [Option.bind_eq_bind, Option.bind_some] at h
  split at h
  · cases h
  · split at h
    · rename_i hf
      cases h
      exact ⟨fun _ => rfl, fun h => by rw [hf] at h; cases h⟩
    · rename_i hf
      refine ⟨fun h => absurd h hf, fun _ => ?_⟩
      obtain ⟨_, _, h⟩ := Option.bind_eq_some_iff.1 h
      simp only [Option.bind_none] at h
      split_ifs at h <;> (cases h; assumption)

/-- The result of an operation that supports no data type. -/
example : resultDataType ⟨[[⟨DataTypes.all, ValueTypes.number⟩]], [⟨Flags.unknown, ValueTypes.number⟩]⟩ 0
    [DataTypes.staticField] = none := by
  have h : Flags.fixed (Flags.unknown : DataTypes) = false := by decide
  cases hc : resultDataType ⟨[[⟨DataTypes.all, ValueTypes.number⟩]], [⟨Flags.unknown, ValueTypes.number⟩]⟩ 0
    [DataTypes.staticField] with
  | none => rfl
  | some s =>
    have h1 := (C43_data_supported _ 0 _ _ s rfl hc).2 h
    rw [Flags.isSubsetOf_iff] at h1
    obtain ⟨⟨i, hi⟩, h2⟩ := h1
    have := h2 i hi
    cases this

/-- A parameter with a choice of types, or without one: unless the operation fixes the type of its result,
or the type of a single argument is passed on, no type is calculated. -/
theorem C43_one_type (op : OperationType) (index : ℕ) (result : ExpressionType)
    (hr : op.results[index]? = some result) (types : ExpressionTypes) (hm : types ∈ op.parameters)
    (h1 : types.length ≠ 1) :
    (∀ args, result.data.fixed = false → resultDataType op index args = none) ∧
    (∀ args, result.value.fixed = false → (∀ a, args = [a] → a.any = false) →
      resultValueType op index args = none) := by
  have hp : op.parameterTypes = none := by
    obtain ⟨ps, rs⟩ := op
    rw [OperationType.parameterTypes]
    simp only at hm ⊢
    clear hr
    induction ps with
    | nil => cases hm
    | cons q qs ih =>
      rw [List.mapM_cons]
      rcases List.mem_cons.1 hm with rfl | hm
      · match types, h1 with
        | [], _ => rfl
        | [_], h1 => exact absurd rfl h1
        | _ :: _ :: _, _ => rfl
      · rw [ih hm]
        cases q with
        | nil => rfl
        | cons a l => cases l <;> rfl
  constructor
  · intro args hf
    rw [resultDataType, hr]
    simp only [Option.bind_eq_bind, Option.bind_some, hf, hp, Option.bind_none, Bool.false_eq_true, if_false,
      ite_self]
  · intro args hf ha
    rw [resultValueType, hr]
    simp only [Option.bind_eq_bind, Option.bind_some, hf, Bool.false_eq_true, if_false]
    split
    · rfl
    · split
      · rw [ha _ rfl]
        simp only [Bool.false_eq_true, if_false, resultValueType.general, hp, Option.bind_eq_bind,
          Option.bind_none]
      · simp only [resultValueType.general, hp, Option.bind_eq_bind, Option.bind_none]

/-- An operation on two numbers of which the second may be given in two ways. -/
example : resultValueType ⟨[[⟨DataTypes.all, ValueTypes.number⟩],
      [⟨DataTypes.all, ValueTypes.number⟩, ⟨DataTypes.all, ValueType.string.flag⟩]],
      [⟨DataTypes.all, ValueTypes.number⟩]⟩ 0 [ValueType.int32.flag, ValueType.int32.flag] = none :=
  (C43_one_type _ 0 _ rfl [⟨DataTypes.all, ValueTypes.number⟩, ⟨DataTypes.all, ValueType.string.flag⟩]
    (by simp) (by simp)).2 _ (by decide) (by intro a h; cases h)

/-- The whole type: fixed arguments of a dominating type that are supported give a fixed type that
the operation's result may have. -/
theorem C43_standard (ps rs : List ExpressionType) (index : ℕ) (result : ExpressionType)
    (args : List (DataTypes × ValueType)) (d : ValueType) (hr : rs[index]? = some result)
    (hnf : result.value.fixed = false) (hres : result.data = DataTypes.all)
    (hs : List.Forall₂ (fun a p => a.1.isSubsetOf p.data = true ∧ p.value.test a.2 = true) args ps)
    (hd : d ∈ args.map (·.2)) (hdom : ∀ a ∈ args, Dominates d a.2)
    (h16 : d = .int16 → ∀ a ∈ args, a.2 = .int16) (hresd : result.value.test d = true) :
    standardExpressionType ⟨ps.map ([·]), rs⟩ index (args.map fun a => ⟨a.1, a.2.flag⟩) =
      some ⟨if ∃ a ∈ args, a.1 1 = true then DataTypes.staticField else DataTypes.constant,
        d.flag⟩ := by
  have e1 : (args.map fun a => (⟨a.1, a.2.flag⟩ : ExpressionType)).map (·.data) =
      args.map (·.1) := by rw [List.map_map]; rfl
  have e2 : (args.map fun a => (⟨a.1, a.2.flag⟩ : ExpressionType)).map (·.value) =
      (args.map (·.2)).map ValueType.flag := by rw [List.map_map, List.map_map]; rfl
  have hne : args.map (·.1) ≠ [] := by
    intro h0
    rw [List.map_eq_nil_iff] at h0
    rw [h0] at hd
    simp at hd
  have h1 := C43_data_type ps rs index result (args.map (·.1)) hr
    (List.forall₂_map_left_iff.2 (hs.imp fun _ _ h => h.1)) hne hres
  have h2 := C43_dominating ps rs index result (args.map (·.2)) d hr hnf
    (List.forall₂_map_left_iff.2 (hs.imp fun _ _ h => h.2)) hd
    (fun m hm => by obtain ⟨a, ha, rfl⟩ := List.mem_map.1 hm; exact hdom a ha)
    (fun hd m hm => by obtain ⟨a, ha, rfl⟩ := List.mem_map.1 hm; exact h16 hd a ha) hresd
  rw [standardExpressionType, e1, e2, h1, h2]
  have hv : d.flag.equal Flags.unknown = false := by cases d <;> decide
  have hf : DataTypes.staticField.equal Flags.unknown = false := by decide
  have hc : DataTypes.constant.equal Flags.unknown = false := by decide
  by_cases h : ∃ a ∈ args, a.1 1 = true
  · have h' : ∃ a ∈ args.map (·.1), a 1 = true := by
      obtain ⟨a, ha, h⟩ := h
      exact ⟨a.1, List.mem_map_of_mem ha, h⟩
    rw [if_pos h, if_pos h']
    simp [ExpressionType.make, hv, hf]
  · have h' : ¬ ∃ a ∈ args.map (·.1), a 1 = true := by
      rintro ⟨a, ha, h1⟩
      obtain ⟨b, hb, rfl⟩ := List.mem_map.1 ha
      exact h ⟨b, hb, h1⟩
    rw [if_neg h, if_neg h']
    simp [ExpressionType.make, hv, hc]

end Fern
