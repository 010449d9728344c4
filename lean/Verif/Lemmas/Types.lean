import Verif.Lemmas.Strings
import Verif.Spec.Types
import Verif.Props.ResultValue
import Mathlib.Data.List.FinRange
import Mathlib.Data.List.Forall2
import Mathlib.Data.Fintype.Basic

/-!
# Lemmas about flags and types
-/

namespace Fern

namespace Flags

variable {n : ℕ} {a b c : Flags n}

theorem any_iff : a.any = true ↔ ∃ i, a i = true := by
  simp [any]

theorem equal_iff : a.equal b = true ↔ a = b := by
  rw [equal, List.all_eq_true, funext_iff]
  simp

theorem isSubsetOf_iff :
    a.isSubsetOf b = true ↔ (∃ i, a i = true) ∧ ∀ i, a i = true → b i = true := by
  rw [isSubsetOf, Bool.and_eq_true, any_iff, beq_iff_eq, count, count]
  have e : (List.finRange n).filter (a.inter b) = ((List.finRange n).filter a).filter b := by
    rw [List.filter_filter]
    congr 1
    funext i
    exact Bool.and_comm _ _
  rw [e, List.length_filter_eq_length_iff]
  simp

theorem fixed_iff : a.fixed = true ↔ ∃ i, a = single i := by
  rw [fixed, beq_iff_eq, count]
  constructor
  · intro h
    obtain ⟨x, hx⟩ := List.length_eq_one_iff.1 h
    refine ⟨x, funext fun i => ?_⟩
    have : i ∈ (List.finRange n).filter a ↔ i = x := by rw [hx, List.mem_singleton]
    rw [List.mem_filter] at this
    simp only [List.mem_finRange, true_and] at this
    rw [single, Bool.eq_iff_iff, this, decide_eq_true_iff]
  · rintro ⟨i, rfl⟩
    have h : (List.finRange n).filter (single i) = [i] := by
      have h1 : (List.finRange n).filter (single i) = (List.finRange n).filter (· == i) := rfl
      rw [h1, List.filter_beq, List.count_eq_one_of_mem (List.nodup_finRange n)
        (List.mem_finRange i)]
      rfl
    rw [h]
    rfl

theorem count_pos_iff : 0 < a.count ↔ ∃ i, a i = true := by
  rw [count, List.length_pos_iff_exists_mem]
  simp

theorem merge_iff (l : List (Flags n)) (i : Fin n) :
    mergeFlags l i = true ↔ ∃ s ∈ l, s i = true := by
  have key : ∀ (l : List (Flags n)) (z : Flags n),
      l.foldl union z i = true ↔ z i = true ∨ ∃ s ∈ l, s i = true := by
    intro l
    induction l with
    | nil => intro z; simp
    | cons x xs ih =>
      intro z
      rw [List.foldl_cons, ih, union, Bool.or_eq_true]
      simp only [List.mem_cons, exists_eq_or_imp]
      tauto
  rw [mergeFlags, key]
  simp [unknown]

end Flags

theorem ValueType.index_injective {v w : ValueType} (h : v.index = w.index) : v = w := by
  cases v <;> cases w <;> first | rfl | exact absurd h (by decide)

theorem ValueType.index_surjective (i : Fin 13) : ∃ v : ValueType, v.index = i := by
  have : ∀ i : Fin 13, ∃ v ∈ allValueTypes, v.index = i := by decide
  obtain ⟨v, -, h⟩ := this i
  exact ⟨v, h⟩

theorem mem_allValueTypes (v : ValueType) : v ∈ allValueTypes := by
  cases v <;> decide

theorem ValueType.test_flag (v w : ValueType) : v.flag.test w = true ↔ w = v := by
  rw [ValueTypes.test, ValueType.flag, Flags.single, decide_eq_true_iff]
  exact ⟨fun h => ValueType.index_injective h, fun h => by rw [h]⟩

theorem ValueTypes.ext_test {a b : ValueTypes}
    (h : ∀ v : ValueType, a.test v = true ↔ b.test v = true) : a = b := by
  funext i
  obtain ⟨v, rfl⟩ := ValueType.index_surjective i
  rw [Bool.eq_iff_iff]
  exact h v

theorem ValueType.name_injective {v w : ValueType} (h : v.name = w.name) : v = w := by
  cases v <;> cases w <;> first | rfl | exact absurd h (by decide)

theorem ValueType.name_plain (v : ValueType) : v.name ≠ [] ∧ '|' ∉ v.name ∧ v.name ≠ ['?'] := by
  cases v <;> decide

/-! ### Names of sets -/

/-- Being the separator of names, as a test. -/
def isBar (c : Char) : Bool := c == '|'

/-- The tokens of the printed set. -/
def ValueTypes.tokens (s : ValueTypes) : List Str :=
  if s = Flags.unknown then [['?']] else (allValueTypes.filter s.test).map ValueType.name

theorem ValueTypes.filter_empty {s : ValueTypes} :
    allValueTypes.filter s.test = [] ↔ s = Flags.unknown := by
  rw [List.filter_eq_nil_iff]
  constructor
  · intro h
    apply ValueTypes.ext_test
    intro v
    constructor
    · intro hv; exact absurd hv (h v (mem_allValueTypes v))
    · intro hv; exact absurd hv (by simp [ValueTypes.test, Flags.unknown])
  · rintro rfl v _ hv
    exact absurd hv (by simp [ValueTypes.test, Flags.unknown])

theorem ValueTypes.toString_eq (s : ValueTypes) : s.toString = join s.tokens ['|'] := by
  rw [ValueTypes.toString, ValueTypes.tokens]
  by_cases h : s = Flags.unknown
  · rw [if_pos h, filter_empty.2 h]
    rfl
  · rw [if_neg h]
    have : ((allValueTypes.filter s.test).map ValueType.name).isEmpty = false := by
      rw [List.isEmpty_eq_false_iff, ne_eq, List.map_eq_nil_iff, filter_empty]
      exact h
    simp only [this, Bool.false_eq_true, if_false]

theorem ValueTypes.tokens_plain (s : ValueTypes) :
    ∀ t ∈ s.tokens, t ≠ [] ∧ ∀ c ∈ t, isBar c = false := by
  intro t ht
  rw [ValueTypes.tokens] at ht
  split at ht
  · rw [List.mem_singleton] at ht
    subst ht
    exact ⟨by simp, by decide⟩
  · obtain ⟨v, -, rfl⟩ := List.mem_map.1 ht
    refine ⟨(ValueType.name_plain v).1, fun c hc => ?_⟩
    rw [isBar, beq_eq_false_iff_ne]
    rintro rfl
    exact (ValueType.name_plain v).2.1 hc

theorem ValueTypes.splitBy_toString (s : ValueTypes) : splitBy isBar s.toString = s.tokens := by
  rw [toString_eq]
  exact splitBy_join (by simp) (by decide) (tokens_plain s)

theorem ValueTypes.mem_tokens {s : ValueTypes} {v : ValueType} :
    v.name ∈ s.tokens ↔ s.test v = true := by
  rw [ValueTypes.tokens]
  split
  · rename_i h
    subst h
    rw [List.mem_singleton]
    constructor
    · intro h; exact absurd h (ValueType.name_plain v).2.2
    · intro h; exact absurd h (by simp [ValueTypes.test, Flags.unknown])
  · rw [List.mem_map]
    constructor
    · rintro ⟨w, hw, e⟩
      rw [← ValueType.name_injective e]
      exact (List.mem_filter.1 hw).2
    · intro h
      exact ⟨v, List.mem_filter.2 ⟨mem_allValueTypes v, h⟩, rfl⟩

theorem ValueTypes.byString_keys :
    ∀ p ∈ ValueTypes.byString, '|' ∉ p.1 ∧ p.1 ≠ ['?'] := by decide

theorem mem_of_lookup {α β : Type} [BEq α] [LawfulBEq α] {l : List (α × β)} {k : α} {v : β}
    (h : l.lookup k = some v) : (k, v) ∈ l := by
  induction l with
  | nil => simp at h
  | cons p l ih =>
    obtain ⟨k', v'⟩ := p
    rw [List.lookup_cons] at h
    by_cases hk : k = k'
    · subst hk
      simp only [BEq.rfl] at h
      cases h
      simp
    · have : (k == k') = false := by rwa [beq_eq_false_iff_ne]
      rw [this] at h
      exact List.mem_cons_of_mem _ (ih h)

/-! ### Domination -/

open Spec

/-- The largest value of each integer type in the chain. -/
theorem not_int_in {s t : IntTy} (i : Int) (h1 : Fits s i) (h2 : ¬ Fits t i) :
    ¬ RepresentsAll (.int t) (.int s) := by
  intro h
  obtain ⟨j, hj, hf⟩ := h i ⟨i, rfl, h1⟩
  have : i = j := by exact_mod_cast hj
  subst this
  exact h2 hf

theorem half_float (p : ℕ) (lo hi : Int) (hp : 0 < p) (hlo : lo ≤ -1) (hhi : -1 ≤ hi) :
    FloatValue p lo hi (1 / 2) := by
  refine ⟨1, -1, ?_, ?_, hlo, hhi, 1, .inr ⟨rfl, by norm_num⟩⟩
  · have : (0 : Int) < 2 ^ p := Int.pow_pos (by decide)
    omega
  · have : (2 : Int) ^ 1 ≤ 2 ^ p := pow_le_pow_right₀ (by decide) hp
    omega

theorem not_half_int (t : IntTy) : ¬ Represents (.int t) (1 / 2) := by
  rintro ⟨i, h, -⟩
  have h2 : (1 : Rat) = ((2 * i : Int) : Rat) := by
    push_cast
    rw [← h]
    norm_num
  have : (1 : Int) = 2 * i := by exact_mod_cast h2
  omega

theorem not_float_in_int {t : IntTy} : ¬ RepresentsAll (.int t) .f32 ∧ ¬ RepresentsAll (.int t) .f64 :=
  ⟨fun h => not_half_int t (h _ (half_float 24 _ _ (by decide) (by decide) (by decide))),
    fun h => not_half_int t (h _ (half_float 53 _ _ (by decide) (by decide) (by decide)))⟩

theorem not_f64_in_f32 : ¬ RepresentsAll .f32 .f64 := by
  intro h
  exact not_floatValue (p := 24) (n := 16777217) (by decide) (by decide)
    (h _ (floatValue_int (by decide) (by decide) (by decide) (by decide)))

theorem dominates_iff {d m : ValueType} {D M : NumTy} (hd : numberType d = some D)
    (hm : numberType m = some M) : Dominates d m ↔ RepresentsAll D M := by
  constructor
  · rintro ⟨D', M', h1, h2, h⟩
    rw [hd] at h1
    rw [hm] at h2
    cases h1
    cases h2
    exact h
  · exact fun h => ⟨D, M, hd, hm, h⟩

/-- No type in the chain is dominated by a later one. -/
theorem chain_pairwise : valueTypeChain.Pairwise (fun f d => ¬ Dominates d f) := by
  have nd : ∀ {d f : ValueType} {D F : NumTy}, numberType d = some D → numberType f = some F →
      ¬ RepresentsAll D F → ¬ Dominates d f := fun hd hf h => by rwa [dominates_iff hd hf]
  simp only [valueTypeChain, List.pairwise_cons, List.mem_cons, List.not_mem_nil, or_false,
    forall_eq_or_imp, forall_eq, List.Pairwise.nil, and_true, false_imp_iff, implies_true]
  refine ⟨⟨?_, ?_, ?_, ?_, ?_, ?_, ?_, ?_⟩, ⟨?_, ?_, ?_, ?_, ?_, ?_, ?_⟩, ⟨?_, ?_, ?_, ?_, ?_, ?_⟩,
    ⟨?_, ?_, ?_, ?_, ?_⟩, ⟨?_, ?_, ?_, ?_⟩, ⟨?_, ?_, ?_⟩, ⟨?_, ?_⟩, ?_⟩ <;>
  refine nd rfl rfl ?_ <;>
  first
  | exact not_f64_in_f32
  | exact not_float_in_int.1
  | exact not_float_in_int.2
  | exact not_int_in 18446744073709551615 (by decide) (by decide)
  | exact not_int_in 9223372036854775807 (by decide) (by decide)
  | exact not_int_in 4294967295 (by decide) (by decide)
  | exact not_int_in 2147483647 (by decide) (by decide)
  | exact not_int_in 65535 (by decide) (by decide)
  | exact not_int_in 255 (by decide) (by decide)

theorem dominated_by_bool {m : ValueType} (h : Dominates .bool m) : m = .bool := by
  obtain ⟨D, M, hd, hm, h⟩ := h
  cases hd
  have two : ¬ Represents .bool ((2 : Int) : Rat) := by
    rintro (h | h)
    · have : (2 : Int) = 0 := by exact_mod_cast h
      omega
    · have : (2 : Int) = 1 := by exact_mod_cast h
      omega
  cases m <;> simp only [numberType, Option.some.injEq, reduceCtorEq] at hm <;>
    first
    | rfl
    | (subst hm
       exact absurd (h _ ⟨2, rfl, by decide⟩) two)
    | (subst hm
       exact absurd (h _ (floatValue_int (by decide) (by decide) (by decide) (by decide))) two)

/-! ### The calculation -/

theorem parameterTypes_singletons (ps : List ExpressionType) (rs : List ExpressionType) :
    OperationType.parameterTypes ⟨ps.map ([·]), rs⟩ = some ps := by
  rw [OperationType.parameterTypes]
  induction ps with
  | nil => rfl
  | cons p ps ih =>
    simp only at ih
    simp only [List.map_cons, List.mapM_cons, ih]
    rfl

theorem zipWith_supported {types : List ValueType} {ps : List ExpressionType}
    (h : List.Forall₂ (fun v p => p.value.test v = true) types ps) :
    List.zipWith Flags.inter (types.map ValueType.flag) (ps.map (·.value)) =
      types.map ValueType.flag := by
  induction h with
  | nil => rfl
  | @cons v p vs ps hv _ ih =>
    simp only [List.map_cons, List.zipWith_cons_cons, ih]
    congr 1
    apply ValueTypes.ext_test
    intro w
    rw [ValueTypes.test, Flags.inter, Bool.and_eq_true, ValueType.test_flag]
    change v.flag.test w = true ∧ p.value.test w = true ↔ w = v
    rw [ValueType.test_flag]
    constructor
    · exact fun h => h.1
    · rintro rfl; exact ⟨rfl, hv⟩

theorem test_merge (types : List ValueType) (v : ValueType) :
    ValueTypes.test (mergeFlags (types.map ValueType.flag)) v = true ↔ v ∈ types := by
  rw [ValueTypes.test, Flags.merge_iff]
  constructor
  · rintro ⟨s, hs, h⟩
    obtain ⟨w, hw, rfl⟩ := List.mem_map.1 hs
    rwa [(ValueType.test_flag w v).1 h]
  · intro h
    exact ⟨v.flag, List.mem_map_of_mem h, (ValueType.test_flag v v).2 rfl⟩

theorem merge_fixed {types : List ValueType} {d : ValueType} (hd : d ∈ types) :
    (mergeFlags (types.map ValueType.flag)).fixed = true ↔ ∀ m ∈ types, m = d := by
  rw [Flags.fixed_iff]
  constructor
  · rintro ⟨i, h⟩ m hm
    obtain ⟨v, rfl⟩ := ValueType.index_surjective i
    have key : ∀ x ∈ types, x = v := by
      intro x hx
      have := (test_merge types x).2 hx
      rw [h] at this
      exact (ValueType.test_flag v x).1 this
    rw [key m hm, key d hd]
  · intro h
    refine ⟨d.index, ?_⟩
    apply ValueTypes.ext_test
    intro v
    rw [test_merge]
    refine Iff.trans ?_ (ValueType.test_flag d v).symm
    exact ⟨fun hv => h v hv, fun hv => hv ▸ hd⟩

theorem merge_eq_flag {types : List ValueType} {d : ValueType} (hd : d ∈ types)
    (h : ∀ m ∈ types, m = d) : mergeFlags (types.map ValueType.flag) = d.flag := by
  apply ValueTypes.ext_test
  intro v
  rw [test_merge, ValueType.test_flag]
  exact ⟨fun hv => h v hv, fun hv => hv ▸ hd⟩

/-- The calculation for arguments of fixed, supported types. -/
theorem resultValueType_fixed {ps rs : List ExpressionType} {index : ℕ} {result : ExpressionType}
    {types : List ValueType} {d : ValueType} (hr : rs[index]? = some result)
    (hnf : result.value.fixed = false)
    (hs : List.Forall₂ (fun v p => p.value.test v = true) types ps) (hd : d ∈ types) :
    resultValueType ⟨ps.map ([·]), rs⟩ index (types.map ValueType.flag) =
      if ∀ m ∈ types, m = d then some d.flag
      else match valueTypeChain.find? (fun v => decide (v ∈ types)) with
        | some f => if result.value.test f then some f.flag else none
        | none => none := by
  have hlen := hs.length_eq
  have hgen : resultValueType.general ⟨ps.map ([·]), rs⟩ result (types.map ValueType.flag) =
      if ∀ m ∈ types, m = d then some d.flag
      else match valueTypeChain.find? (fun v => decide (v ∈ types)) with
        | some f => if result.value.test f then some f.flag else none
        | none => none := by
    rw [resultValueType.general, parameterTypes_singletons]
    simp only [Option.bind_eq_bind, Option.bind_some, zipWith_supported hs]
    by_cases hall : ∀ m ∈ types, m = d
    · rw [if_pos hall, if_pos ((merge_fixed hd).2 hall), merge_eq_flag hd hall]
    · rw [if_neg hall, if_neg (by rw [merge_fixed hd]; exact hall)]
      have e : (ValueTypes.test (mergeFlags (types.map ValueType.flag))) =
          (fun v => decide (v ∈ types)) := by
        funext v
        rw [Bool.eq_iff_iff, test_merge, decide_eq_true_iff]
      rw [e]
      cases hf : valueTypeChain.find? (fun v => decide (v ∈ types)) with
      | some f =>
        simp only [Option.bind_some]
        have : f.flag.isSubsetOf result.value = result.value.test f := by
          rw [Bool.eq_iff_iff, Flags.isSubsetOf_iff]
          constructor
          · rintro ⟨-, h⟩
            exact h f.index ((ValueType.test_flag f f).2 rfl)
          · intro h
            refine ⟨⟨f.index, (ValueType.test_flag f f).2 rfl⟩, fun i hi => ?_⟩
            rw [ValueType.flag, Flags.single, decide_eq_true_iff] at hi
            rw [hi]
            exact h
        rw [this]
      | none =>
        have : (mergeFlags (types.map ValueType.flag)).equal Flags.unknown = false := by
          rw [Bool.eq_false_iff, ne_eq, Flags.equal_iff]
          intro h0
          have := (test_merge types d).2 hd
          rw [h0] at this
          exact absurd this (by simp [ValueTypes.test, Flags.unknown])
        simp [this]
  rw [resultValueType, hr]
  simp only [Option.bind_eq_bind, Option.bind_some, List.length_map, hlen, ne_eq, not_true,
    if_false, hnf, Bool.false_eq_true]
  split
  · rename_i a ha
    have : ∃ v, types = [v] := by
      cases types with
      | nil => simp at hd
      | cons x xs =>
        cases xs with
        | nil => exact ⟨x, rfl⟩
        | cons y ys => simp at ha
    obtain ⟨v, rfl⟩ := this
    rw [List.mem_singleton] at hd
    subst hd
    simp only [List.map_cons, List.map_nil, List.cons.injEq, and_true] at ha
    subst ha
    have : d.flag.any = true := Flags.any_iff.2 ⟨d.index, (ValueType.test_flag d d).2 rfl⟩
    rw [if_pos this, if_pos (by simp)]
  · exact hgen

theorem chain_find {types : List ValueType} {d : ValueType} (hd : d ∈ types)
    (hc : d ∈ valueTypeChain) (hdom : ∀ m ∈ types, Dominates d m) :
    valueTypeChain.find? (fun v => decide (v ∈ types)) = some d := by
  rw [List.find?_eq_some_iff_append]
  refine ⟨by simpa using hd, ?_⟩
  obtain ⟨as, bs, e⟩ := List.append_of_mem hc
  refine ⟨as, bs, e, fun a ha => ?_⟩
  have hp := chain_pairwise
  rw [e, List.pairwise_append] at hp
  have := hp.2.2 a ha d (by simp)
  simp only [Bool.not_eq_true', decide_eq_false_iff_not]
  exact fun hm => this (hdom a hm)

end Fern
