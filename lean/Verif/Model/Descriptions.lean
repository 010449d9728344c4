import Verif.Model.Types
import Verif.Model.Domains

/-!
# Descriptions of operations and of uncertainty in XML

Model of `language/operation/xml/operation_xml_parser.cc`, `language/operation/core/{parameter,result}.cc`,
`language/operation/core/operations.h:64-86`, `language/io/uncertml2/uncertml2_parser.cc` and
`language/uncertainty/normal_distribution.cc`.

The classes in the code are handlers. The code that calls them is generated from the schemas `operation.xsd` and
`uncertml2.xsd`: for an element it calls `pre`, then per nested element the handler of the nested element and the callback
with its result, and at last `post_...`. One handler object is used for all elements of a kind, so what it stores is still
there when the next element starts. `none`: an assertion fails.

Documents are those that conform to the schema: a record per kind of element with what is in it.
-/

namespace Fern.Descriptions

open Fern.Domains (Flt)

/-! ### Descriptions of operations -/

/-- `Parameter` in the schema (`operation.xsd:58-74`). -/
structure ParameterElement where
  name : Str
  description : Str
  /-- `DataTypes`: one or more (`operation.xsd:99-109`). -/
  dataTypes : List Str
  /-- `ValueTypes`: zero or more (`operation.xsd:140-152`). -/
  valueTypes : List Str

/-- `Result` in the schema (`operation.xsd:76-97`). -/
structure ResultElement where
  name : Str
  description : Str
  dataType : Str
  valueType : Str

/-- `Operation` in the schema (`operation.xsd:19-34`). -/
structure OperationElement where
  name : Str
  description : Str
  parameters : List ParameterElement
  results : List ResultElement

/-- `Parameter` (`language/operation/core/parameter.h:54-60`). -/
structure Parameter where
  name : Str
  description : Str
  types : List ExpressionType

/-- The constructor of `Parameter` (`language/operation/core/parameter.cc:31-54`). -/
def Parameter.make (name description : Str) (data : DataTypes) (value : ValueTypes) : Option Parameter :=
  (ExpressionType.make data value).bind fun t =>
    if name.isEmpty || description.isEmpty || t.data.equal Flags.unknown then none
    else some ⟨name, description, [t]⟩

/-- `Result` (`language/operation/core/result.h`). -/
structure Result where
  name : Str
  description : Str
  type : ExpressionType

/-- The constructor of `Result` (`language/operation/core/result.cc:16-28`). -/
def Result.make (name description : Str) (type : ExpressionType) : Option Result :=
  if name.isEmpty || description.isEmpty then none else some ⟨name, description, type⟩

/-- `ParameterData` (`operation_xml_parser.cc:159-165`). -/
structure ParameterData where
  name : Str
  description : Str
  data : DataTypes
  value : ValueTypes

/-- `ResultData` (`operation_xml_parser.cc:255-261`). -/
structure ResultData where
  name : Str
  description : Str
  data : DataTypes
  value : ValueTypes

/-- `OperationData` (`operation_xml_parser.cc:63-69`). -/
structure OperationData where
  name : Str
  description : Str
  parameters : List Parameter
  results : List Result

/-- What the handlers of `OperationXmlParser::parse` store (`operation_xml_parser.cc:460-487`). -/
structure Handlers where
  /-- `_data_stack` of `Operation_pimpl`; the top is the first. -/
  operationStack : List OperationData
  /-- `_parameters` (`operation_xml_parser.cc:131`) -/
  parameters : List Parameter
  /-- `_data_stack` of `Parameter_pimpl` -/
  parameterStack : List ParameterData
  /-- `_results` (`operation_xml_parser.cc:227`) -/
  results : List Result
  /-- `_data_stack` of `Result_pimpl` -/
  resultStack : List ResultData
  /-- `_data_types` (`operation_xml_parser.cc:322`) -/
  dataTypes : DataTypes
  /-- `_value_types` (`operation_xml_parser.cc:389`) -/
  valueTypes : ValueTypes

/-- The handlers when they have been constructed. -/
def Handlers.initial : Handlers := ⟨[], [], [], [], [], Flags.unknown, Flags.unknown⟩

/-- The top of a stack, changed; the callbacks assert that there is one (`operation_xml_parser.cc:84-85` and so on). -/
def changeTop (f : α → α) : List α → Option (List α)
  | [] => none
  | d :: r => some (f d :: r)

/-- `DataTypes_pimpl` (`operation_xml_parser.cc:317-350`): `pre`, `DataType` for each name, `post_DataTypes`. -/
def dataTypesElement (names : List Str) (h : Handlers) : Option (Handlers × DataTypes) :=
  (names.foldlM (fun h n => (DataTypes.fromString n).map fun d =>
    { h with dataTypes := Flags.union h.dataTypes d }) { h with dataTypes := Flags.unknown }).map
    fun h => (h, h.dataTypes)

/-- `ValueTypes_pimpl` (`operation_xml_parser.cc:384-423`). -/
def valueTypesElement (names : List Str) (h : Handlers) : Option (Handlers × ValueTypes) :=
  (names.foldlM (fun h n => (ValueTypes.fromString n).map fun d =>
    { h with valueTypes := Flags.union h.valueTypes d }) { h with valueTypes := Flags.unknown }).map
    fun h => (h, h.valueTypes)

/-- `Parameter_pimpl` (`operation_xml_parser.cc:154-217`): `pre`, the four callbacks, `post_Parameter`. -/
def parameterElement (e : ParameterElement) (h : Handlers) : Option (Handlers × Parameter) := do
  let h ← if h.parameterStack.isEmpty then
    some { h with parameterStack := [⟨[], [], Flags.unknown, Flags.unknown⟩] } else none
  let h := { h with parameterStack := ← changeTop (fun d => { d with name := e.name }) h.parameterStack }
  let h := { h with
    parameterStack := ← changeTop (fun d => { d with description := e.description }) h.parameterStack }
  let (h, data) ← dataTypesElement e.dataTypes h
  let h := { h with parameterStack := ← changeTop (fun d => { d with data := data }) h.parameterStack }
  let (h, value) ← valueTypesElement e.valueTypes h
  let h := { h with parameterStack := ← changeTop (fun d => { d with value := value }) h.parameterStack }
  match h.parameterStack with
  | [d] => do
    let p ← Parameter.make d.name d.description d.data d.value
    some ({ h with parameterStack := [] }, p)
  | _ => none

/-- `Parameters_pimpl` (`operation_xml_parser.cc:125-151`). -/
def parametersElement (es : List ParameterElement) (h : Handlers) : Option (Handlers × List Parameter) :=
  (es.foldlM (fun h e => (parameterElement e h).map fun r =>
    { r.1 with parameters := r.1.parameters ++ [r.2] }) { h with parameters := [] }).map
    fun h => (h, h.parameters)

/-- `Result_pimpl` (`operation_xml_parser.cc:250-314`). -/
def resultElement (e : ResultElement) (h : Handlers) : Option (Handlers × Result) := do
  let h ← if h.resultStack.isEmpty then
    some { h with resultStack := [⟨[], [], Flags.unknown, Flags.unknown⟩] } else none
  let h := { h with resultStack := ← changeTop (fun d => { d with name := e.name }) h.resultStack }
  let h := { h with resultStack := ← changeTop (fun d => { d with description := e.description }) h.resultStack }
  let data ← DataTypes.fromString e.dataType
  let h := { h with resultStack := ← changeTop (fun d => { d with data := data }) h.resultStack }
  let value ← ValueTypes.fromString e.valueType
  let h := { h with resultStack := ← changeTop (fun d => { d with value := value }) h.resultStack }
  match h.resultStack with
  | [d] => do
    let t ← ExpressionType.make d.data d.value
    let r ← Result.make d.name d.description t
    some ({ h with resultStack := [] }, r)
  | _ => none

/-- `Results_pimpl` (`operation_xml_parser.cc:221-247`). -/
def resultsElement (es : List ResultElement) (h : Handlers) : Option (Handlers × List Result) :=
  (es.foldlM (fun h e => (resultElement e h).map fun r =>
    { r.1 with results := r.1.results ++ [r.2] }) { h with results := [] }).map
    fun h => (h, h.results)

/-- `Operation_pimpl` up to and including the first statements of `post_Operation` (`operation_xml_parser.cc:57-112`): what
has been collected when `assert(false)` is reached (`operation_xml_parser.cc:113`). -/
def operationData (e : OperationElement) (h : Handlers) : Option (Handlers × OperationData) := do
  let h ← if h.operationStack.isEmpty then some { h with operationStack := [⟨[], [], [], []⟩] } else none
  let h := { h with operationStack := ← changeTop (fun d => { d with name := e.name }) h.operationStack }
  let h := { h with
    operationStack := ← changeTop (fun d => { d with description := e.description }) h.operationStack }
  let (h, ps) ← parametersElement e.parameters h
  let h := { h with operationStack := ← changeTop (fun d => { d with parameters := ps }) h.operationStack }
  let (h, rs) ← resultsElement e.results h
  let h := { h with operationStack := ← changeTop (fun d => { d with results := rs }) h.operationStack }
  match h.operationStack with
  | [d] => some ({ h with operationStack := [] }, d)
  | _ => none

/-- `Operation_pimpl` (`operation_xml_parser.cc:57-119`): the statement after the data have been collected is
`assert(false)`. -/
def operationElement (e : OperationElement) (h : Handlers) : Option (Handlers × OperationData) :=
  (operationData e h).bind fun _ => none

/-- `Operations_pimpl` and `OperationXmlParser::parse` (`operation_xml_parser.cc:25-54`, `454-491`). The result is the
operations by name: the constructor of `Operations` refuses two with the same name (`operations.h:68-86`). -/
def parse (doc : List OperationElement) : Option (List OperationData) := do
  let (_, ops) ← doc.foldlM (fun (acc : Handlers × List OperationData) e =>
    (operationElement e acc.1).map fun r => (r.1, acc.2 ++ [r.2])) (Handlers.initial, [])
  if (ops.map OperationData.name).Nodup then some ops else none

/-! ### Descriptions of uncertainty -/

/-- What a parser of XML reports about a document (`uncertml2_parser.cc:205-217`). -/
structure Diagnostic where
  line : Nat
  column : Nat
  message : Str
  deriving DecidableEq

/-- What there is in a document up to its end, or up to the place where it stops conforming to the schema. -/
structure UncertaintyDoc where
  /-- The items of `mean`. -/
  mean : List Flt
  /-- The items of `variance`. -/
  variance : List Flt
  /-- The first problem, if the document isn't a normal distribution. -/
  problem : Option Diagnostic

/-- `NormalDistribution<double>` (`normal_distribution.h`): mean and standard deviation. -/
structure NormalDistribution where
  mean : Flt
  standardDeviation : Flt
  deriving DecidableEq

/-- How reading a document ends. -/
inductive Parsed
  | distribution (d : NormalDistribution)
  /-- `fern::detail::ParseError` with source name `<string>` (`uncertml2_parser.cc:212-217`). -/
  | parseError (source : Str) (d : Diagnostic)
  /-- An assertion fails. -/
  | asserts
  deriving DecidableEq

/-- `ContinuousValuesType_pimpl` (`uncertml2_parser.cc:57-82`). -/
def continuousValues (items : List Flt) (values : List Flt) : List Flt :=
  items.foldl (fun vs v => vs ++ [v]) values

/-- `PositiveRealValuesType_pimpl` (`uncertml2_parser.cc:85-121`): `item` asserts that the value is positive. -/
def positiveRealValues (items : List Flt) (values : List Flt) : Option (List Flt) :=
  items.foldlM (fun vs v => if Flt.lt (.fin 0) v then some (vs ++ [v]) else none) values

/-- `NormalDistribution_pimpl::post_NormalDistribution` (`uncertml2_parser.cc:41-49`); `sqrt`: `std::sqrt`. -/
def postNormalDistribution (sqrt : Flt → Flt) (means variances : List Flt) : Option NormalDistribution :=
  match means, variances with
  | [m], [v] => if Flt.le (.fin 0) v then some ⟨m, sqrt v⟩ else none
  | _, _ => none

/-- `UncertML2Parser::parse` of a string (`uncertml2_parser.cc:152-221`). The handlers are objects of the call. -/
def parseUncertainty (sqrt : Flt → Flt) (doc : UncertaintyDoc) : Parsed :=
  let means := continuousValues doc.mean []
  match positiveRealValues doc.variance [] with
  | none => .asserts
  | some variances =>
    match doc.problem with
    | some d => .parseError "<string>".toList d
    | none =>
      match postNormalDistribution sqrt means variances with
      | some d => .distribution d
      | none => .asserts

end Fern.Descriptions
