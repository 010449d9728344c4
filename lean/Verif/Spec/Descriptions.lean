import Verif.Model.Descriptions

/-!
# What descriptions in XML mean

Names of types stand for sets of types; a list of names for all types of all its names.
-/

namespace Fern.Descriptions.Spec

/-- The value types that a name in a description stands for. -/
def valueMembers (name : String) : List ValueType :=
  match name with
  | "Bool" => [.bool]
  | "Char" => [.char]
  | "Uint8" => [.uint8]
  | "Int8" => [.int8]
  | "Uint16" => [.uint16]
  | "Int16" => [.int16]
  | "Uint32" => [.uint32]
  | "Int32" => [.int32]
  | "Uint64" => [.uint64]
  | "Int64" => [.int64]
  | "Size" => [.uint64]
  | "Float32" => [.float32]
  | "Float64" => [.float64]
  | "String" => [.string]
  | "Number" => [.uint8, .int8, .uint16, .int16, .uint32, .int32, .uint64, .int64, .float32, .float64]
  | "All" => [.bool, .char, .uint8, .int8, .uint16, .int16, .uint32, .int32, .uint64, .int64, .float32, .float64,
      .string]
  | _ => []

/-- The data types: a constant or a static field. -/
inductive DataType | constant | staticField
  deriving DecidableEq

/-- The position of the flag of a data type (`core/data_type.h`). -/
def DataType.index : DataType → Fin 2
  | .constant => 0
  | .staticField => 1

/-- The data types that a name in a description stands for. -/
def dataMembers (name : String) : List DataType :=
  match name with
  | "Constant" => [.constant]
  | "StaticField" => [.staticField]
  | "All" => [.constant, .staticField]
  | _ => []

/-- A set of flags is that of the value types named. -/
def NamedValues (names : List Str) (s : ValueTypes) : Prop :=
  ∀ v, s.test v = true ↔ ∃ n ∈ names, v ∈ valueMembers (String.ofList n)

/-- A set of flags is that of the data types named. -/
def NamedData (names : List Str) (s : DataTypes) : Prop :=
  ∀ d : DataType, s d.index = true ↔ ∃ n ∈ names, d ∈ dataMembers (String.ofList n)

/-- A description of a parameter that can be read: it has a name and a description, and one or more known names of data
types and of value types. -/
structure Readable (e : ParameterElement) : Prop where
  name : e.name ≠ []
  description : e.description ≠ []
  data : e.dataTypes ≠ []
  value : e.valueTypes ≠ []
  dataKnown : ∀ n ∈ e.dataTypes, dataMembers (String.ofList n) ≠ []
  valueKnown : ∀ n ∈ e.valueTypes, valueMembers (String.ofList n) ≠ []

/-- The parameter that is described. -/
def Describes (e : ParameterElement) (p : Parameter) : Prop :=
  p.name = e.name ∧ p.description = e.description ∧
    ∃ t, p.types = [t] ∧ NamedData e.dataTypes t.data ∧ NamedValues e.valueTypes t.value

/-- The same for results, which have one name of a type. -/
structure ReadableResult (e : ResultElement) : Prop where
  name : e.name ≠ []
  description : e.description ≠ []
  data : dataMembers (String.ofList e.dataType) ≠ []
  value : valueMembers (String.ofList e.valueType) ≠ []

/-- The result that is described. -/
def DescribesResult (e : ResultElement) (r : Result) : Prop :=
  r.name = e.name ∧ r.description = e.description ∧ NamedData [e.dataType] r.type.data ∧
    NamedValues [e.valueType] r.type.value

/-- Whether the handlers are between elements: nothing is left on a stack. -/
def Rest (h : Handlers) : Prop := h.operationStack = [] ∧ h.parameterStack = [] ∧ h.resultStack = []

/-- The names that the schema lists for value types (`operation.xsd:163-180`), in that order. -/
def schemaValueNames : List String :=
  ["UInt8", "Int8", "UInt16", "Int16", "UInt32", "Int32", "UInt64", "Int64", "Float32", "Float64", "String",
   "UnsignedInteger", "SignedInteger", "Integer", "Size", "FloatingPoint", "Number", "All"]

end Fern.Descriptions.Spec
