import Verif.Lemmas.Descriptions

/-!
# C115: descriptions of operations and of uncertainty in XML
-/

namespace Fern.Descriptions

open _root_.Fern.Descriptions.Spec
open Fern.Domains (Flt)

/-- Whatever elements have been read before: an element of a parameter is read iff it has a name, a description, and one or
more known names of data types and of value types. The parameter then has that name and description, and exactly the types
that are named, nothing of earlier elements. -/
theorem C115_parameter (e : ParameterElement) (h : Handlers) (hr : Rest h) :
    ((∃ h' p, parameterElement e h = some (h', p)) ↔ Readable e) ∧
    ∀ h' p, parameterElement e h = some (h', p) → Describes e p ∧ Rest h' := by
  refine ⟨⟨?_, parameterElement_readable hr.2.1⟩, ?_⟩
  · rintro ⟨h', p, hp⟩
    exact (parameterElement_some hr.2.1 hp).1
  · intro h' p hp
    obtain ⟨_, hd, h1, _, h3, _, h5⟩ := parameterElement_some hr.2.1 hp
    exact ⟨hd, h1.trans hr.1, h3.trans hr.2.1, h5.trans hr.2.2⟩

/-- The description of the value printed by `print`, of which the value types are given twice in different ways. -/
def printed : ParameterElement :=
  ⟨"value".toList, "Value to print.".toList, ["All".toList],
    ["Number".toList, "String".toList, "Int32".toList]⟩

example : Readable printed where
  name := by decide
  description := by decide
  data := by decide
  value := by decide
  dataKnown := by decide
  valueKnown := by decide

example : Rest Handlers.initial := ⟨rfl, rfl, rfl⟩

/-- A parameter of which the value types aren't relevant (none is given), which the schema and the documentation of
`Parameter` allow, can't be read: an assertion fails. -/
theorem C115_not_relevant (e : ParameterElement) (h : Handlers) (hr : Rest h) (he : e.valueTypes = []) :
    parameterElement e h = none := by
  cases hp : parameterElement e h with
  | none => rfl
  | some r => exact absurd he (parameterElement_some hr.2.1 hp).1.value

example : ({ printed with valueTypes := [] } : ParameterElement).valueTypes = [] := rfl

/-- The same for results, which have one name of a data type and one of a value type. -/
theorem C115_result (e : ResultElement) (h : Handlers) (hr : Rest h) :
    ((∃ h' r, resultElement e h = some (h', r)) ↔ ReadableResult e) ∧
    ∀ h' r, resultElement e h = some (h', r) → DescribesResult e r ∧ h' = h := by
  refine ⟨⟨?_, fun he => ?_⟩, ?_⟩
  · rintro ⟨h', p, hp⟩
    exact (resultElement_some hr.2.2 hp).1
  · obtain ⟨r, hq⟩ := resultElement_readable hr.2.2 he
    exact ⟨h, r, hq⟩
  · intro h' r hp
    exact (resultElement_some hr.2.2 hp).2

example : ReadableResult ⟨"sum".toList, "The sum.".toList, "StaticField".toList, "Float64".toList⟩ :=
  ⟨by decide, by decide, by decide, by decide⟩

/-- What has been collected of an operation, whatever operations have been read before: its name and description, and
its parameters and results in order. It is collected iff all of them can be read. -/
theorem C115_collected (e : OperationElement) (h : Handlers) (hr : Rest h) :
    ((∃ h' d, operationData e h = some (h', d)) ↔
      (∀ p ∈ e.parameters, Readable p) ∧ ∀ r ∈ e.results, ReadableResult r) ∧
    ∀ h' d, operationData e h = some (h', d) →
      d.name = e.name ∧ d.description = e.description ∧ List.Forall₂ Describes e.parameters d.parameters ∧
      List.Forall₂ DescribesResult e.results d.results ∧ Rest h' := by
  refine ⟨⟨?_, fun he => operationData_readable hr he.1 he.2⟩, ?_⟩
  · rintro ⟨h', d, hd⟩
    obtain ⟨h1, h2, _⟩ := operationData_some hr hd
    exact ⟨h1, h2⟩
  · intro h' d hd
    exact (operationData_some hr hd).2.2

/-- Yet a document is read iff no operation is described in it. With an operation an assertion fails. -/
theorem C115_parse (doc : List OperationElement) (ops : List OperationData) :
    parse doc = some ops ↔ doc = [] ∧ ops = [] := by
  cases doc with
  | nil =>
    have h : parse [] = some [] := rfl
    rw [h]
    simp [eq_comm]
  | cons e doc =>
    have h : parse (e :: doc) = none := by
      unfold parse
      rw [List.foldlM_cons]
      have : operationElement e Handlers.initial = none := by
        unfold operationElement
        cases operationData e Handlers.initial <;> rfl
      simp [this]
    rw [h]
    simp

/-- In particular the description of `print` in the test, that is commented out there, can't be read although all of it
can be collected. -/
theorem C115_print : parse [⟨"print".toList, "Print the argument value.".toList, [printed], []⟩] = none ∧
    (operationData ⟨"print".toList, "Print the argument value.".toList, [printed], []⟩ Handlers.initial).isSome := by
  constructor
  · cases h : parse [⟨"print".toList, "Print the argument value.".toList, [printed], []⟩] with
    | none => rfl
    | some ops => exact absurd ((C115_parse _ _).mp h).1 (by simp)
  · decide +kernel

/-- Of the eighteen names that the schema lists for value types, these eight aren't known to the parser: they are
written in another way or don't exist. -/
theorem C115_schema_names : schemaValueNames.filter (fun n => (ValueTypes.fromString n.toList).isNone) =
    ["UInt8", "UInt16", "UInt32", "UInt64", "UnsignedInteger", "SignedInteger", "Integer", "FloatingPoint"] := by
  decide +kernel

/-! ### Uncertainty -/

theorem continuousValues_eq (items values : List Flt) : continuousValues items values = values ++ items := by
  unfold continuousValues
  induction items generalizing values with
  | nil => simp
  | cons v items ih => rw [List.foldl_cons, ih]; simp

theorem positiveRealValues_eq (items values : List Flt) :
    positiveRealValues items values =
      if ∀ v ∈ items, Flt.lt (.fin 0) v = true then some (values ++ items) else none := by
  unfold positiveRealValues
  induction items generalizing values with
  | nil => simp
  | cons v items ih =>
    rw [List.foldlM_cons]
    by_cases hv : Flt.lt (.fin 0) v = true
    · rw [if_pos hv]
      show List.foldlM _ (values ++ [v]) items = _
      rw [ih]
      simp [hv]
    · rw [if_neg hv]
      simp [hv]

/-- A document gives a normal distribution iff it conforms to the schema and has one mean, whatever its value, and one
variance, that is a positive number or infinite. The mean is the one in the document, the standard deviation the square
root of the variance. -/
theorem C115_normal (sqrt : Flt → Flt) (doc : UncertaintyDoc) (d : NormalDistribution) :
    parseUncertainty sqrt doc = .distribution d ↔
      doc.problem = none ∧ doc.mean = [d.mean] ∧
        ∃ v, doc.variance = [v] ∧ (v = .inf ∨ ∃ x : Rat, 0 < x ∧ v = .fin x) ∧ d.standardDeviation = sqrt v := by
  have hpos : ∀ v : Flt, Flt.lt (.fin 0) v = true ↔ (v = .inf ∨ ∃ x : Rat, 0 < x ∧ v = .fin x) := by
    intro v; cases v <;> simp [Flt.lt]
  have hle : ∀ v : Flt, Flt.lt (.fin 0) v = true → Flt.le (.fin 0) v = true := by
    intro v; cases v <;> simp [Flt.lt, Flt.le]; exact fun h => le_of_lt h
  unfold parseUncertainty
  rw [continuousValues_eq, positiveRealValues_eq]
  simp only [List.nil_append]
  by_cases hv : ∀ v ∈ doc.variance, Flt.lt (.fin 0) v = true
  · rw [if_pos hv]
    cases hp : doc.problem with
    | some q => simp
    | none =>
      cases hm : doc.mean with
      | nil => simp [postNormalDistribution]
      | cons m ms =>
        cases ms with
        | cons _ _ => simp [postNormalDistribution]
        | nil =>
          cases hw : doc.variance with
          | nil => simp [postNormalDistribution]
          | cons v vs =>
            cases vs with
            | cons _ _ => simp [postNormalDistribution]
            | nil =>
              have h1 := hv v (by rw [hw]; exact List.mem_cons_self)
              simp only [postNormalDistribution, hle v h1, if_true, Parsed.distribution.injEq, true_and,
                List.cons.injEq, and_true, exists_eq_left']
              constructor
              · rintro rfl
                exact ⟨rfl, (hpos v).mp h1, rfl⟩
              · rintro ⟨rfl, _, h3⟩
                rw [← h3]
  · rw [if_neg hv]
    simp only [reduceCtorEq, false_iff]
    rintro ⟨_, _, v, hw, hx, _⟩
    apply hv
    rw [hw]
    intro w hm
    rw [List.mem_singleton.mp hm]
    exact (hpos v).mpr hx

example : parseUncertainty (fun _ => .fin 2) ⟨[.fin 3], [.fin 4], none⟩ = .distribution ⟨.fin 3, .fin 2⟩ := by
  decide +kernel

/-- A document that doesn't conform to the schema gives a parse error with the place and message of the first problem,
unless a value before it that is read as a variance isn't positive. -/
theorem C115_problem (sqrt : Flt → Flt) (doc : UncertaintyDoc) (q : Diagnostic) (hq : doc.problem = some q)
    (hv : ∀ v ∈ doc.variance, Flt.lt (.fin 0) v = true) :
    parseUncertainty sqrt doc = .parseError "<string>".toList q := by
  unfold parseUncertainty
  rw [positiveRealValues_eq, if_pos hv, hq]

example : parseUncertainty (fun v => v) ⟨[], [], some ⟨1, 1, "invalid document structure".toList⟩⟩ =
    .parseError "<string>".toList ⟨1, 1, "invalid document structure".toList⟩ :=
  C115_problem _ _ _ rfl nofun

/-- All other documents, though they conform to the schema, make an assertion fail: those with no mean or several, with no
variance or several (the schema has lists for them), or with a variance that isn't positive or isn't a number. -/
theorem C115_asserts (sqrt : Flt → Flt) (doc : UncertaintyDoc) (hq : doc.problem = none) :
    parseUncertainty sqrt doc = .asserts ↔
      doc.mean.length ≠ 1 ∨ doc.variance.length ≠ 1 ∨ ∃ v ∈ doc.variance, Flt.lt (.fin 0) v = false := by
  have key : parseUncertainty sqrt doc = .asserts ↔ ∀ d, parseUncertainty sqrt doc ≠ .distribution d := by
    unfold parseUncertainty
    rw [hq]
    cases positiveRealValues doc.variance [] with
    | none => simp
    | some vs =>
      cases hn : postNormalDistribution sqrt (continuousValues doc.mean []) vs with
      | none => simp [hn]
      | some d => simp [hn]
  have hpos : ∀ v : Flt, Flt.lt (.fin 0) v = true ↔ (v = .inf ∨ ∃ x : Rat, 0 < x ∧ v = .fin x) := by
    intro v; cases v <;> simp [Flt.lt]
  rw [key]
  simp only [ne_eq, C115_normal, hq, true_and]
  constructor
  · intro h
    by_cases hm : doc.mean.length = 1
    · by_cases hw : doc.variance.length = 1
      · obtain ⟨m, hm⟩ := List.length_eq_one_iff.mp hm
        obtain ⟨v, hw⟩ := List.length_eq_one_iff.mp hw
        refine Or.inr (Or.inr ⟨v, by rw [hw]; exact List.mem_cons_self, ?_⟩)
        by_contra hc
        simp only [Bool.not_eq_false] at hc
        exact h ⟨m, sqrt v⟩ ⟨hm, v, hw, (hpos v).mp hc, rfl⟩
      · exact Or.inr (Or.inl hw)
    · exact Or.inl hm
  · rintro h d ⟨hm, v, hw, hx, _⟩
    rcases h with h | h | ⟨w, hm', h⟩
    · exact h (by rw [hm]; rfl)
    · exact h (by rw [hw]; rfl)
    · rw [hw] at hm'
      rw [List.mem_singleton.mp hm', (hpos v).mpr hx] at h
      cases h

example : parseUncertainty (fun v => v) ⟨[.fin 1, .fin 2], [.fin 1], none⟩ = .asserts ∧
    parseUncertainty (fun v => v) ⟨[.fin 1], [.fin 0], none⟩ = .asserts ∧
    parseUncertainty (fun v => v) ⟨[.fin 1], [.nan], none⟩ = .asserts := by decide +kernel

end Fern.Descriptions
