import Verif.Spec.Descriptions
import Verif.Lemmas.Types
import Mathlib.Tactic.FinCases

/-!
# Lemmas: descriptions in XML
-/

namespace Fern.Descriptions

open _root_.Fern.Descriptions.Spec

theorem toList_of_ofList {n : Str} {s : String} (h : String.ofList n = s) : n = s.toList := by
  rw [← h]; simp

/-! ### Names -/

theorem dataMembers_eq_nil {n : Str} (h : DataTypes.fromString n = none) : dataMembers (String.ofList n) = [] := by
  unfold dataMembers
  split
  all_goals first
    | rfl
    | (rename_i e; rw [toList_of_ofList e] at h; revert h; decide)

theorem mem_dataMembers {n : Str} {d : DataTypes} (h : DataTypes.fromString n = some d) (t : DataType) :
    d t.index = true ↔ t ∈ dataMembers (String.ofList n) := by
  have hm := mem_of_lookup h
  simp only [List.mem_cons, List.not_mem_nil, or_false, Prod.mk.injEq] at hm
  rcases hm with ⟨rfl, rfl⟩ | ⟨rfl, rfl⟩ | ⟨rfl, rfl⟩ <;> cases t <;> decide

theorem dataMembers_ne_nil {n : Str} {d : DataTypes} (h : DataTypes.fromString n = some d) :
    dataMembers (String.ofList n) ≠ [] := by
  have hm := mem_of_lookup h
  simp only [List.mem_cons, List.not_mem_nil, or_false, Prod.mk.injEq] at hm
  rcases hm with ⟨rfl, rfl⟩ | ⟨rfl, rfl⟩ | ⟨rfl, rfl⟩ <;> decide

theorem valueMembers_eq_nil {n : Str} (h : ValueTypes.fromString n = none) : valueMembers (String.ofList n) = [] := by
  unfold valueMembers
  split
  all_goals first
    | rfl
    | (rename_i e; rw [toList_of_ofList e] at h; revert h; decide)

theorem mem_valueMembers {n : Str} {d : ValueTypes} (h : ValueTypes.fromString n = some d) :
    (∀ v, d.test v = true ↔ v ∈ valueMembers (String.ofList n)) ∧ valueMembers (String.ofList n) ≠ [] := by
  have hm := mem_of_lookup h
  simp only [ValueTypes.byString, List.mem_cons, List.not_mem_nil, or_false, Prod.mk.injEq] at hm
  rcases hm with ⟨rfl, rfl⟩ | ⟨rfl, rfl⟩ | ⟨rfl, rfl⟩ | ⟨rfl, rfl⟩ | ⟨rfl, rfl⟩ | ⟨rfl, rfl⟩ | ⟨rfl, rfl⟩ |
    ⟨rfl, rfl⟩ | ⟨rfl, rfl⟩ | ⟨rfl, rfl⟩ | ⟨rfl, rfl⟩ | ⟨rfl, rfl⟩ | ⟨rfl, rfl⟩ | ⟨rfl, rfl⟩ | ⟨rfl, rfl⟩ |
    ⟨rfl, rfl⟩ <;> refine ⟨fun v => ?_, by decide⟩ <;> cases v <;> decide

/-! ### Unions of named sets -/

/-- The union of the sets named, starting with a set. -/
def unite {k : ℕ} (from' : Str → Option (Flags k)) (names : List Str) (acc : Flags k) : Option (Flags k) :=
  names.foldlM (fun acc n => (from' n).map (Flags.union acc)) acc

theorem unite_some {k : ℕ} {from' : Str → Option (Flags k)} {names : List Str} {acc s : Flags k}
    (h : unite from' names acc = some s) :
    (∀ n ∈ names, (from' n).isSome) ∧
      ∀ i, s i = true ↔ acc i = true ∨ ∃ n ∈ names, ∃ d, from' n = some d ∧ d i = true := by
  induction names generalizing acc with
  | nil =>
    simp only [unite, List.foldlM_nil] at h
    cases h
    simp
  | cons n names ih =>
    unfold unite at h
    rw [List.foldlM_cons] at h
    cases hn : from' n with
    | none => rw [hn] at h; simp at h
    | some d =>
      rw [hn] at h
      obtain ⟨h1, h2⟩ := ih (acc := acc.union d) h
      refine ⟨?_, fun i => ?_⟩
      · intro m hm
        rcases List.mem_cons.mp hm with rfl | hm
        · rw [hn]; rfl
        · exact h1 m hm
      · rw [h2]
        simp only [Flags.union, Bool.or_eq_true, List.mem_cons, exists_eq_or_imp, hn, Option.some.injEq, exists_eq_left']
        tauto

theorem unite_isSome {k : ℕ} {from' : Str → Option (Flags k)} {names : List Str} (acc : Flags k)
    (h : ∀ n ∈ names, (from' n).isSome) : ∃ s, unite from' names acc = some s := by
  induction names generalizing acc with
  | nil => exact ⟨acc, rfl⟩
  | cons n names ih =>
    obtain ⟨d, hd⟩ := Option.isSome_iff_exists.mp (h n List.mem_cons_self)
    obtain ⟨s, hs⟩ := ih (acc.union d) (fun m hm => h m (List.mem_cons_of_mem _ hm))
    refine ⟨s, ?_⟩
    unfold unite
    rw [List.foldlM_cons, hd]
    exact hs

theorem dataTypesElement_eq (names : List Str) (h : Handlers) :
    dataTypesElement names h =
      (unite DataTypes.fromString names Flags.unknown).map fun d => ({ h with dataTypes := d }, d) := by
  unfold dataTypesElement
  have key : ∀ (names : List Str) (h : Handlers),
      names.foldlM (fun (h : Handlers) n => (DataTypes.fromString n).map fun d =>
        { h with dataTypes := Flags.union h.dataTypes d }) h =
      (unite DataTypes.fromString names h.dataTypes).map fun d => { h with dataTypes := d } := by
    intro names
    induction names with
    | nil => intro h; rfl
    | cons n names ih =>
      intro h
      unfold unite
      rw [List.foldlM_cons, List.foldlM_cons]
      cases DataTypes.fromString n with
      | none => rfl
      | some d => exact ih _
  rw [key]
  cases unite DataTypes.fromString names Flags.unknown <;> rfl

theorem valueTypesElement_eq (names : List Str) (h : Handlers) :
    valueTypesElement names h =
      (unite ValueTypes.fromString names Flags.unknown).map fun d => ({ h with valueTypes := d }, d) := by
  unfold valueTypesElement
  have key : ∀ (names : List Str) (h : Handlers),
      names.foldlM (fun (h : Handlers) n => (ValueTypes.fromString n).map fun d =>
        { h with valueTypes := Flags.union h.valueTypes d }) h =
      (unite ValueTypes.fromString names h.valueTypes).map fun d => { h with valueTypes := d } := by
    intro names
    induction names with
    | nil => intro h; rfl
    | cons n names ih =>
      intro h
      unfold unite
      rw [List.foldlM_cons, List.foldlM_cons]
      cases ValueTypes.fromString n with
      | none => rfl
      | some d => exact ih _
  rw [key]
  cases unite ValueTypes.fromString names Flags.unknown <;> rfl

theorem namedData {names : List Str} {s : DataTypes} (h : unite DataTypes.fromString names Flags.unknown = some s) :
    NamedData names s := by
  intro d
  rw [(unite_some h).2]
  have hk := (unite_some h).1
  simp only [Flags.unknown, Bool.false_eq_true, false_or]
  constructor
  · rintro ⟨n, hn, e, he, hd⟩
    exact ⟨n, hn, (mem_dataMembers he d).mp hd⟩
  · rintro ⟨n, hn, hd⟩
    obtain ⟨e, he⟩ := Option.isSome_iff_exists.mp (hk n hn)
    exact ⟨n, hn, e, he, (mem_dataMembers he d).mpr hd⟩

theorem namedValues {names : List Str} {s : ValueTypes}
    (h : unite ValueTypes.fromString names Flags.unknown = some s) : NamedValues names s := by
  intro v
  unfold ValueTypes.test
  rw [(unite_some h).2]
  have hk := (unite_some h).1
  simp only [Flags.unknown, Bool.false_eq_true, false_or]
  constructor
  · rintro ⟨n, hn, e, he, hd⟩
    exact ⟨n, hn, ((mem_valueMembers he).1 v).mp hd⟩
  · rintro ⟨n, hn, hd⟩
    obtain ⟨e, he⟩ := Option.isSome_iff_exists.mp (hk n hn)
    exact ⟨n, hn, e, he, ((mem_valueMembers he).1 v).mpr hd⟩

theorem known_data {n : Str} : (DataTypes.fromString n).isSome ↔ dataMembers (String.ofList n) ≠ [] := by
  cases h : DataTypes.fromString n with
  | none => simp [dataMembers_eq_nil h]
  | some d => simp [dataMembers_ne_nil h]

theorem known_value {n : Str} : (ValueTypes.fromString n).isSome ↔ valueMembers (String.ofList n) ≠ [] := by
  cases h : ValueTypes.fromString n with
  | none => simp [valueMembers_eq_nil h]
  | some d => simp [(mem_valueMembers h).2]

theorem equal_unknown {k : ℕ} (s : Flags k) : s.equal Flags.unknown = true ↔ ∀ i, s i = false := by
  simp [Flags.equal, Flags.unknown, List.all_eq_true]

theorem data_unknown {names : List Str} {s : DataTypes} (h : NamedData names s)
    (hk : ∀ n ∈ names, dataMembers (String.ofList n) ≠ []) : s.equal Flags.unknown = true ↔ names = [] := by
  rw [equal_unknown]
  constructor
  · intro hs
    cases names with
    | nil => rfl
    | cons n names =>
      obtain ⟨d, hd⟩ := List.exists_mem_of_ne_nil _ (hk n List.mem_cons_self)
      have := (h d).mpr ⟨n, List.mem_cons_self, hd⟩
      rw [hs] at this; cases this
  · rintro rfl i
    have := h (if i = 0 then .constant else .staticField)
    simp only [List.not_mem_nil, false_and, exists_false, iff_false, Bool.not_eq_true] at this
    fin_cases i <;> simpa [DataType.index] using this

theorem value_unknown {names : List Str} {s : ValueTypes} (h : NamedValues names s)
    (hk : ∀ n ∈ names, valueMembers (String.ofList n) ≠ []) : s.equal Flags.unknown = true ↔ names = [] := by
  rw [equal_unknown]
  constructor
  · intro hs
    cases names with
    | nil => rfl
    | cons n names =>
      obtain ⟨d, hd⟩ := List.exists_mem_of_ne_nil _ (hk n List.mem_cons_self)
      have := (h d).mpr ⟨n, List.mem_cons_self, hd⟩
      rw [ValueTypes.test, hs] at this; cases this
  · rintro rfl i
    have hf : ∀ v : ValueType, s v.index = false := by
      intro v
      have := h v
      simpa [ValueTypes.test] using this
    fin_cases i
    · exact hf .bool
    · exact hf .char
    · exact hf .uint8
    · exact hf .int8
    · exact hf .uint16
    · exact hf .int16
    · exact hf .uint32
    · exact hf .int32
    · exact hf .uint64
    · exact hf .int64
    · exact hf .float32
    · exact hf .float64
    · exact hf .string

/-! ### Parameters -/

theorem parameterElement_eq (e : ParameterElement) (h : Handlers) (hr : h.parameterStack = []) :
    parameterElement e h = (unite DataTypes.fromString e.dataTypes Flags.unknown).bind fun d =>
      (unite ValueTypes.fromString e.valueTypes Flags.unknown).bind fun v =>
        (Parameter.make e.name e.description d v).map fun p =>
          ({ h with parameterStack := [], dataTypes := d, valueTypes := v }, p) := by
  simp only [parameterElement, hr, List.isEmpty_nil, if_true, changeTop, dataTypesElement_eq, valueTypesElement_eq]
  cases unite DataTypes.fromString e.dataTypes Flags.unknown with
  | none => rfl
  | some d =>
    cases unite ValueTypes.fromString e.valueTypes Flags.unknown with
    | none => rfl
    | some v =>
      cases hp : Parameter.make e.name e.description d v with
      | none => simp [hp]
      | some p => simp [hp]

/-- The state of the handlers after an element of a parameter: nothing that later elements use. -/
def Same (h h' : Handlers) : Prop :=
  h'.operationStack = h.operationStack ∧ h'.parameters = h.parameters ∧ h'.parameterStack = h.parameterStack ∧
    h'.results = h.results ∧ h'.resultStack = h.resultStack

theorem parameterElement_some {e : ParameterElement} {h h' : Handlers} {p : Parameter} (hr : h.parameterStack = [])
    (hp : parameterElement e h = some (h', p)) : Readable e ∧ Describes e p ∧ Same h h' := by
  rw [parameterElement_eq e h hr] at hp
  cases hd : unite DataTypes.fromString e.dataTypes Flags.unknown with
  | none => rw [hd] at hp; cases hp
  | some d =>
    cases hv : unite ValueTypes.fromString e.valueTypes Flags.unknown with
    | none => rw [hd, hv] at hp; cases hp
    | some v =>
      rw [hd, hv] at hp
      simp only [Option.bind_some, Option.map_eq_some_iff, Prod.mk.injEq] at hp
      obtain ⟨q, hq, rfl, rfl⟩ := hp
      have hdk := fun n hn => known_data.mp ((unite_some hd).1 n hn)
      have hvk := fun n hn => known_value.mp ((unite_some hv).1 n hn)
      simp only [Parameter.make, ExpressionType.make] at hq
      split at hq
      · cases hq
      · rename_i hu
        simp only [Bool.or_eq_true, not_or] at hu
        simp only [Option.bind_some] at hq
        split at hq
        · cases hq
        · rename_i hn
          simp only [Bool.or_eq_true, not_or, List.isEmpty_iff] at hn
          cases hq
          refine ⟨⟨hn.1.1, hn.1.2, ?_, ?_, hdk, hvk⟩, ⟨rfl, rfl, _, rfl, namedData hd, namedValues hv⟩,
            ⟨rfl, rfl, hr.symm, rfl, rfl⟩⟩
          · exact fun e0 => hu.1 ((data_unknown (namedData hd) hdk).mpr e0)
          · exact fun e0 => hu.2 ((value_unknown (namedValues hv) hvk).mpr e0)

theorem parameterElement_readable {e : ParameterElement} {h : Handlers} (hr : h.parameterStack = [])
    (he : Readable e) : ∃ h' p, parameterElement e h = some (h', p) := by
  obtain ⟨d, hd⟩ := unite_isSome (from' := DataTypes.fromString) Flags.unknown
    (fun n hn => known_data.mpr (he.dataKnown n hn))
  obtain ⟨v, hv⟩ := unite_isSome (from' := ValueTypes.fromString) Flags.unknown
    (fun n hn => known_value.mpr (he.valueKnown n hn))
  have h1 : ¬ d.equal Flags.unknown = true := fun e0 => he.data ((data_unknown (namedData hd) he.dataKnown).mp e0)
  have h2 : ¬ v.equal Flags.unknown = true := fun e0 => he.value ((value_unknown (namedValues hv) he.valueKnown).mp e0)
  rw [parameterElement_eq e h hr, hd, hv]
  simp [Parameter.make, ExpressionType.make, h1, h2, he.name, he.description]

/-! ### Lists of elements -/

theorem parametersElement_some {es : List ParameterElement} {h h' : Handlers} {ps : List Parameter}
    (hr : h.parameterStack = []) (hp : parametersElement es h = some (h', ps)) :
    (∀ e ∈ es, Readable e) ∧ List.Forall₂ Describes es ps ∧ h'.operationStack = h.operationStack ∧
      h'.parameterStack = [] ∧ h'.results = h.results ∧ h'.resultStack = h.resultStack := by
  have key : ∀ (es : List ParameterElement) (h h' : Handlers), h.parameterStack = [] →
      es.foldlM (fun (h : Handlers) e => (parameterElement e h).map fun r =>
        { r.1 with parameters := r.1.parameters ++ [r.2] }) h = some h' →
      (∀ e ∈ es, Readable e) ∧ (∃ ps, h'.parameters = h.parameters ++ ps ∧ List.Forall₂ Describes es ps) ∧
      h'.operationStack = h.operationStack ∧ h'.parameterStack = [] ∧ h'.results = h.results ∧
        h'.resultStack = h.resultStack := by
    intro es
    induction es with
    | nil =>
      intro h h' hr hf
      simp only [List.foldlM_nil] at hf
      cases hf
      exact ⟨nofun, ⟨[], (List.append_nil _).symm, .nil⟩, rfl, hr, rfl, rfl⟩
    | cons e es ih =>
      intro h h' hr hf
      rw [List.foldlM_cons] at hf
      cases hp : parameterElement e h with
      | none => rw [hp] at hf; cases hf
      | some r =>
        obtain ⟨h1, p⟩ := r
        rw [hp] at hf
        obtain ⟨hre, hde, hs1, hs2, hs3, hs4, hs5⟩ := parameterElement_some hr hp
        obtain ⟨ha, ⟨ps, hps, hd⟩, hb, hc, hd', he⟩ := ih _ h' (by exact hs3.trans hr) hf
        refine ⟨?_, ⟨p :: ps, ?_, .cons hde hd⟩, hb.trans hs1, hc, hd'.trans hs4, he.trans hs5⟩
        · intro x hx
          rcases List.mem_cons.mp hx with rfl | hx
          · exact hre
          · exact ha x hx
        · rw [hps]
          simp [hs2]
  unfold parametersElement at hp
  rw [Option.map_eq_some_iff] at hp
  obtain ⟨h2, hf, he⟩ := hp
  obtain ⟨ha, ⟨ps', hps, hd⟩, hb⟩ := key es _ h2 (by exact hr) hf
  cases he
  simp only [List.nil_append] at hps
  exact ⟨ha, hps ▸ hd, hb⟩

theorem parametersElement_readable {es : List ParameterElement} {h : Handlers}
    (hr : h.parameterStack = []) (he : ∀ e ∈ es, Readable e) : ∃ h' ps, parametersElement es h = some (h', ps) := by
  have key : ∀ (es : List ParameterElement) (h : Handlers), h.parameterStack = [] → (∀ e ∈ es, Readable e) →
      ∃ h', es.foldlM (fun (h : Handlers) e => (parameterElement e h).map fun r =>
        { r.1 with parameters := r.1.parameters ++ [r.2] }) h = some h' := by
    intro es
    induction es with
    | nil => intro h _ _; exact ⟨h, rfl⟩
    | cons e es ih =>
      intro h hr he
      obtain ⟨h1, p, hp⟩ := parameterElement_readable hr (he e List.mem_cons_self)
      rw [List.foldlM_cons, hp]
      exact ih _ ((parameterElement_some hr hp).2.2.2.2.1.trans hr) (fun x hx => he x (List.mem_cons_of_mem _ hx))
  obtain ⟨h', hf⟩ := key es { h with parameters := [] } hr he
  refine ⟨h', h'.parameters, ?_⟩
  unfold parametersElement
  rw [hf]; rfl

/-! ### Results -/

theorem resultElement_eq (e : ResultElement) (h : Handlers) (hr : h.resultStack = []) :
    resultElement e h = (DataTypes.fromString e.dataType).bind fun d =>
      (ValueTypes.fromString e.valueType).bind fun v => (ExpressionType.make d v).bind fun t =>
        (Result.make e.name e.description t).map fun r => ({ h with resultStack := [] }, r) := by
  simp only [resultElement, hr, List.isEmpty_nil, if_true, changeTop]
  cases DataTypes.fromString e.dataType with
  | none => rfl
  | some d =>
    cases ValueTypes.fromString e.valueType with
    | none => rfl
    | some v =>
      cases ht : ExpressionType.make d v with
      | none => simp [ht]
      | some t =>
        cases hp : Result.make e.name e.description t with
        | none => simp [ht, hp]
        | some p => simp [ht, hp]

theorem unite_single {k : ℕ} {from' : Str → Option (Flags k)} {n : Str} {d : Flags k} (h : from' n = some d) :
    unite from' [n] Flags.unknown = some d := by
  unfold unite
  rw [List.foldlM_cons, h]
  simp only [Option.map_some]
  show some _ = some d
  congr 1

theorem resultElement_some {e : ResultElement} {h h' : Handlers} {r : Result} (hr : h.resultStack = [])
    (hp : resultElement e h = some (h', r)) : ReadableResult e ∧ DescribesResult e r ∧ h' = h := by
  rw [resultElement_eq e h hr] at hp
  cases hd : DataTypes.fromString e.dataType with
  | none => rw [hd] at hp; cases hp
  | some d =>
    cases hv : ValueTypes.fromString e.valueType with
    | none => rw [hd, hv] at hp; cases hp
    | some v =>
      rw [hd, hv] at hp
      simp only [Option.bind_some, Option.bind_eq_some_iff, Option.map_eq_some_iff, Prod.mk.injEq] at hp
      obtain ⟨t, ht, q, hq, rfl, rfl⟩ := hp
      simp only [ExpressionType.make] at ht
      split at ht
      · cases ht
      · cases ht
        unfold Result.make at hq
        split at hq
        · cases hq
        · rename_i hn
          simp only [Bool.or_eq_true, not_or, List.isEmpty_iff] at hn
          cases hq
          refine ⟨⟨hn.1, hn.2, dataMembers_ne_nil hd, (mem_valueMembers hv).2⟩, ⟨rfl, rfl, ?_, ?_⟩, ?_⟩
          · exact namedData (unite_single hd)
          · exact namedValues (unite_single hv)
          · cases h; cases hr; rfl

theorem resultElement_readable {e : ResultElement} {h : Handlers} (hr : h.resultStack = [])
    (he : ReadableResult e) : ∃ r, resultElement e h = some (h, r) := by
  obtain ⟨d, hd⟩ := Option.isSome_iff_exists.mp (known_data.mpr he.data)
  obtain ⟨v, hv⟩ := Option.isSome_iff_exists.mp (known_value.mpr he.value)
  have h1 : ¬ d.equal Flags.unknown = true := fun e0 => by
    have := (data_unknown (namedData (unite_single hd)) (by simpa using he.data)).mp e0
    cases this
  have h2 : ¬ v.equal Flags.unknown = true := fun e0 => by
    have := (value_unknown (namedValues (unite_single hv)) (by simpa using he.value)).mp e0
    cases this
  rw [resultElement_eq e h hr, hd, hv]
  have hh : { h with resultStack := [] } = h := by cases h; cases hr; rfl
  simp [Result.make, ExpressionType.make, h1, h2, he.name, he.description, hh]

theorem resultsElement_some {es : List ResultElement} {h h' : Handlers} {rs : List Result}
    (hr : h.resultStack = []) (hp : resultsElement es h = some (h', rs)) :
    (∀ e ∈ es, ReadableResult e) ∧ List.Forall₂ DescribesResult es rs ∧ h'.operationStack = h.operationStack ∧
      h'.parameterStack = h.parameterStack ∧ h'.resultStack = [] := by
  have key : ∀ (es : List ResultElement) (h h' : Handlers), h.resultStack = [] →
      es.foldlM (fun (h : Handlers) e => (resultElement e h).map fun r =>
        { r.1 with results := r.1.results ++ [r.2] }) h = some h' →
      (∀ e ∈ es, ReadableResult e) ∧ (∃ rs, h'.results = h.results ++ rs ∧ List.Forall₂ DescribesResult es rs) ∧
      h'.operationStack = h.operationStack ∧ h'.parameterStack = h.parameterStack ∧ h'.resultStack = [] := by
    intro es
    induction es with
    | nil =>
      intro h h' hr hf
      simp only [List.foldlM_nil] at hf
      cases hf
      exact ⟨nofun, ⟨[], (List.append_nil _).symm, .nil⟩, rfl, rfl, hr⟩
    | cons e es ih =>
      intro h h' hr hf
      rw [List.foldlM_cons] at hf
      cases hp : resultElement e h with
      | none => rw [hp] at hf; cases hf
      | some r =>
        obtain ⟨h1, p⟩ := r
        rw [hp] at hf
        obtain ⟨hre, hde, rfl⟩ := resultElement_some hr hp
        obtain ⟨ha, ⟨ps, hps, hd⟩, hb, hc, hd'⟩ := ih _ h' (by exact hr) hf
        refine ⟨?_, ⟨p :: ps, ?_, .cons hde hd⟩, hb, hc, hd'⟩
        · intro x hx
          rcases List.mem_cons.mp hx with rfl | hx
          · exact hre
          · exact ha x hx
        · rw [hps]
          simp
  unfold resultsElement at hp
  rw [Option.map_eq_some_iff] at hp
  obtain ⟨h2, hf, he⟩ := hp
  obtain ⟨ha, ⟨ps', hps, hd⟩, hb⟩ := key es _ h2 (by exact hr) hf
  cases he
  simp only [List.nil_append] at hps
  exact ⟨ha, hps ▸ hd, hb⟩

theorem resultsElement_readable {es : List ResultElement} {h : Handlers}
    (hr : h.resultStack = []) (he : ∀ e ∈ es, ReadableResult e) : ∃ h' rs, resultsElement es h = some (h', rs) := by
  have key : ∀ (es : List ResultElement) (h : Handlers), h.resultStack = [] → (∀ e ∈ es, ReadableResult e) →
      ∃ h', es.foldlM (fun (h : Handlers) e => (resultElement e h).map fun r =>
        { r.1 with results := r.1.results ++ [r.2] }) h = some h' := by
    intro es
    induction es with
    | nil => intro h _ _; exact ⟨h, rfl⟩
    | cons e es ih =>
      intro h hr he
      obtain ⟨r, hp⟩ := resultElement_readable hr (he e List.mem_cons_self)
      rw [List.foldlM_cons, hp]
      exact ih _ hr (fun x hx => he x (List.mem_cons_of_mem _ hx))
  obtain ⟨h', hf⟩ := key es { h with results := [] } hr he
  refine ⟨h', h'.results, ?_⟩
  unfold resultsElement
  rw [hf]; rfl

/-! ### Operations -/

theorem operationData_some {e : OperationElement} {h h' : Handlers} {d : OperationData} (hr : Rest h)
    (ho : operationData e h = some (h', d)) :
    (∀ p ∈ e.parameters, Readable p) ∧ (∀ r ∈ e.results, ReadableResult r) ∧ d.name = e.name ∧
      d.description = e.description ∧ List.Forall₂ Describes e.parameters d.parameters ∧
      List.Forall₂ DescribesResult e.results d.results ∧ Rest h' := by
  simp only [operationData, hr.1, List.isEmpty_nil, if_true, changeTop, Option.bind_eq_bind, Option.bind_some] at ho
  rw [Option.bind_eq_some_iff] at ho
  obtain ⟨⟨h1, ps⟩, hps, ho⟩ := ho
  obtain ⟨hp1, hp2, hp3, hp4, hp5, hp6⟩ := parametersElement_some (by exact hr.2.1) hps
  simp only at hp3 ho
  rw [hp3] at ho
  simp only [Option.bind_some, Option.bind_eq_some_iff] at ho
  obtain ⟨⟨h2, rs⟩, hrs, ho⟩ := ho
  obtain ⟨hq1, hq2, hq3, hq4, hq5⟩ := resultsElement_some (by exact hp6.trans hr.2.2) hrs
  simp only at hq3 ho
  rw [hq3] at ho
  simp only [Option.some.injEq, exists_eq_left', Prod.mk.injEq] at ho
  obtain ⟨rfl, rfl⟩ := ho
  exact ⟨hp1, hq1, rfl, rfl, hp2, hq2, rfl, hq4.trans hp4, hq5⟩

theorem operationData_readable {e : OperationElement} {h : Handlers} (hr : Rest h)
    (hp : ∀ p ∈ e.parameters, Readable p) (hq : ∀ r ∈ e.results, ReadableResult r) :
    ∃ h' d, operationData e h = some (h', d) := by
  simp only [operationData, hr.1, List.isEmpty_nil, if_true, changeTop, Option.bind_eq_bind, Option.bind_some]
  obtain ⟨h1, ps, hps⟩ := parametersElement_readable
    (h := { h with operationStack := [⟨e.name, e.description, [], []⟩] }) hr.2.1 hp
  rw [hps]
  obtain ⟨_, _, hp3, hp4, hp5, hp6⟩ := parametersElement_some (by exact hr.2.1) hps
  simp only at hp3
  simp only [Option.bind_some, hp3]
  obtain ⟨h2, rs, hrs⟩ := resultsElement_readable
    (h := { h1 with operationStack := [⟨e.name, e.description, ps, []⟩] }) (hp6.trans hr.2.2) hq
  rw [hrs]
  obtain ⟨_, _, hq3, _, _⟩ := resultsElement_some (by exact hp6.trans hr.2.2) hrs
  simp only at hq3
  simp [hq3]

end Fern.Descriptions
