import Verif.Model.Strings

/-!
# Flag collections, value types, data types and expression types

Model of `core/flag_collection.h`, `core/value_types.cc`, `core/data_types.cc`,
`core/type_traits.cc:17-43`, `core/expression_type.cc`,
`language/operation/core/expression_types.cc` and
`language/operation/core/expression_type_calculation.cc`.
-/

namespace Fern

/-- A collection of `n` flags: the base class `std::bitset<n>` (`core/flag_collection.h:25-30`). -/
abbrev Flags (n : ℕ) := Fin n → Bool

namespace Flags

variable {n : ℕ}

/-- No flag is set: the default constructor (`core/flag_collection.h:37`). -/
def unknown : Flags n := fun _ => false

/-- `1 << flag` (`core/type_traits.cc:18-30`, `core/data_types.cc:19-20`). -/
def single (i : Fin n) : Flags n := fun j => decide (j = i)

/-- `operator&`, `operator&=` (`core/flag_collection.h:98-120`). -/
def inter (a b : Flags n) : Flags n := fun i => a i && b i

/-- `operator|=`, `operator|` (`core/flag_collection.h:123-132`, `core/value_types.cc:121-128`). -/
def union (a b : Flags n) : Flags n := fun i => a i || b i

/-- `operator^=` (`core/flag_collection.h:135-144`). -/
def xor (a b : Flags n) : Flags n := fun i => a i != b i

/-- `count` (`core/flag_collection.h:147-154`). -/
def count (a : Flags n) : ℕ := ((List.finRange n).filter a).length

/-- `any` (`core/flag_collection.h:178-185`). -/
def any (a : Flags n) : Bool := (List.finRange n).any a

/-- `none` (`core/flag_collection.h:168-175`). -/
def isNone (a : Flags n) : Bool := !a.any

/-- `fixed` (`core/flag_collection.h:197-204`). -/
def fixed (a : Flags n) : Bool := a.count == 1

/-- `is_subset_of` (`core/flag_collection.h:207-215`). -/
def isSubsetOf (a b : Flags n) : Bool := a.any && (a.inter b).count == a.count

/-- `operator==` (`core/flag_collection.h:218-226`). -/
def equal (a b : Flags n) : Bool := (List.finRange n).all fun i => a i == b i

end Flags

/-! ### Value types -/

/-- `enum ValueType` (`core/value_type.h:14-43`). -/
inductive ValueType
  | bool | char | uint8 | int8 | uint16 | int16 | uint32 | int32 | uint64 | int64
  | float32 | float64 | string
  deriving DecidableEq, Repr

/-- The value of the enumerator: its position (`core/value_type.h:14`). -/
def ValueType.index : ValueType → Fin 13
  | .bool => 0 | .char => 1 | .uint8 => 2 | .int8 => 3 | .uint16 => 4 | .int16 => 5
  | .uint32 => 6 | .int32 => 7 | .uint64 => 8 | .int64 => 9 | .float32 => 10 | .float64 => 11
  | .string => 12

/-- `ValueTypes` (`core/value_types.h:26-28`). -/
abbrev ValueTypes := Flags 13

/-- `test` (`core/flag_collection.h:157-165`). -/
def ValueTypes.test (s : ValueTypes) (v : ValueType) : Bool := s v.index

/-- `ValueTypes::BOOL` and so on (`core/type_traits.cc:18-30`). -/
def ValueType.flag (v : ValueType) : ValueTypes := Flags.single v.index

/-- `string_by_value_type` (`core/value_types.cc:42-56`). -/
def ValueType.name : ValueType → Str
  | .bool => "Bool".toList | .char => "Char".toList | .uint8 => "Uint8".toList
  | .int8 => "Int8".toList | .uint16 => "Uint16".toList | .int16 => "Int16".toList
  | .uint32 => "Uint32".toList | .int32 => "Int32".toList | .uint64 => "Uint64".toList
  | .int64 => "Int64".toList | .float32 => "Float32".toList | .float64 => "Float64".toList
  | .string => "String".toList

/-- `ValueTypes::VALUE_TYPES` (`core/value_types.cc:67-81`). -/
def allValueTypes : List ValueType :=
  [.bool, .char, .uint8, .int8, .uint16, .int16, .uint32, .int32, .uint64, .int64, .float32,
    .float64, .string]

namespace ValueTypes

/-- `UNSIGNED_INTEGER` (`core/type_traits.cc:31-32`). -/
def unsignedInteger : ValueTypes :=
  (((ValueType.uint8.flag.union ValueType.uint16.flag).union ValueType.uint32.flag).union
    ValueType.uint64.flag)

/-- `SIGNED_INTEGER` (`core/type_traits.cc:33-34`). -/
def signedInteger : ValueTypes :=
  (((ValueType.int8.flag.union ValueType.int16.flag).union ValueType.int32.flag).union
    ValueType.int64.flag)

/-- `INTEGER` (`core/type_traits.cc:35-36`). -/
def integer : ValueTypes := Flags.union unsignedInteger signedInteger

/-- `FLOATING_POINT` (`core/type_traits.cc:38-39`). -/
def floatingPoint : ValueTypes := ValueType.float32.flag.union ValueType.float64.flag

/-- `NUMBER` (`core/type_traits.cc:40-41`). -/
def number : ValueTypes := Flags.union integer floatingPoint

/-- `ALL` (`core/type_traits.cc:42-43`). -/
def all : ValueTypes :=
  ((ValueType.bool.flag.union ValueType.char.flag).union number).union ValueType.string.flag

/-- `value_type_by_string` (`core/value_types.cc:22-39`). `SIZE` is `UINT64`
(`core/type_traits.cc:37`). -/
def byString : List (Str × ValueTypes) :=
  [("Bool".toList, ValueType.bool.flag), ("Char".toList, ValueType.char.flag),
   ("Uint8".toList, ValueType.uint8.flag), ("Int8".toList, ValueType.int8.flag),
   ("Uint16".toList, ValueType.uint16.flag), ("Int16".toList, ValueType.int16.flag),
   ("Uint32".toList, ValueType.uint32.flag), ("Int32".toList, ValueType.int32.flag),
   ("Uint64".toList, ValueType.uint64.flag), ("Int64".toList, ValueType.int64.flag),
   ("Size".toList, ValueType.uint64.flag), ("Float32".toList, ValueType.float32.flag),
   ("Float64".toList, ValueType.float64.flag), ("String".toList, ValueType.string.flag),
   ("Number".toList, number), ("All".toList, all)]

/-- `ValueTypes::from_string` (`core/value_types.cc:84-90`). `none`: an assertion fails. -/
def fromString (s : Str) : Option ValueTypes := byString.lookup s

/-- `ValueTypes::to_string` (`core/value_types.cc:102-118`). -/
def toString (s : ValueTypes) : Str :=
  let strings := (allValueTypes.filter s.test).map ValueType.name
  join (if strings.isEmpty then [['?']] else strings) ['|']

end ValueTypes

/-! ### Data types -/

/-- `DataTypes` (`core/data_types.h:31-32`): `DT_CONSTANT` is 0, `DT_STATIC_FIELD` is 1
(`core/data_type.h`). -/
abbrev DataTypes := Flags 2

namespace DataTypes

/-- `DataTypes::CONSTANT` (`core/data_types.cc:19`). -/
def constant : DataTypes := Flags.single 0

/-- `DataTypes::STATIC_FIELD` (`core/data_types.cc:20`). -/
def staticField : DataTypes := Flags.single 1

/-- `DataTypes::ALL` (`core/data_types.cc:26`). -/
def all : DataTypes := Flags.union constant staticField

/-- `DataTypes::from_string` (`core/data_types.cc:30-38`, `58-64`). -/
def fromString (s : Str) : Option DataTypes :=
  [("Constant".toList, constant), ("StaticField".toList, staticField), ("All".toList, all)].lookup s

/-- `DataTypes::to_string` (`core/data_types.cc:84-100`). -/
def toString (s : DataTypes) : Str :=
  let strings := ((List.finRange 2).filter s).map
    fun i => if i = 0 then "Constant".toList else "StaticField".toList
  join (if strings.isEmpty then [['?']] else strings) ['|']

end DataTypes

/-! ### Expression types -/

/-- `ExpressionType` (`core/expression_type.h`): possible data types and value types. The default
constructor leaves both empty. -/
structure ExpressionType where
  data : DataTypes
  value : ValueTypes

namespace ExpressionType

/-- The default constructor. -/
def undefined : ExpressionType := ⟨Flags.unknown, Flags.unknown⟩

/-- The constructor with arguments (`core/expression_type.cc:23-33`). `none`: an assertion
fails. -/
def make (data : DataTypes) (value : ValueTypes) : Option ExpressionType :=
  if data.equal Flags.unknown || value.equal Flags.unknown then none else some ⟨data, value⟩

/-- `defined` (`core/expression_type.cc:64-67`). -/
def defined (t : ExpressionType) : Bool := decide (t.data.count > 0) && decide (t.value.count > 0)

/-- `fixed` (`core/expression_type.cc:76-79`). -/
def fixed (t : ExpressionType) : Bool := t.data.fixed && t.value.fixed

/-- `is_satisfied_by` (`core/expression_type.cc:87-93`). -/
def isSatisfiedBy (t other : ExpressionType) : Bool :=
  other.data.isSubsetOf t.data && other.value.isSubsetOf t.value

/-- `operator==` (`core/expression_type.cc:96-102`). -/
def equal (a b : ExpressionType) : Bool := a.data.equal b.data && a.value.equal b.value

/-- `operator<<` (`core/expression_type.cc:113-120`). -/
def toString (t : ExpressionType) : Str := t.data.toString ++ '/' :: t.value.toString

end ExpressionType

/-- `ExpressionTypes` (`language/operation/core/expression_types.h`). -/
abbrev ExpressionTypes := List ExpressionType

namespace ExpressionTypes

/-- `is_satisfied_by` a type (`language/operation/core/expression_types.cc:35-48`). -/
def isSatisfiedByType : ExpressionTypes → ExpressionType → Bool
  | [], _ => false
  | t :: ts, other => if t.isSatisfiedBy other then true else isSatisfiedByType ts other

/-- The loop of `id_of_satisfying_type` (`language/operation/core/expression_types.cc:51`); `i` counts. -/
def idLoop (types : ExpressionTypes) : ExpressionTypes → ℕ → ℕ
  | [], i => i
  | t :: ts, i => if isSatisfiedByType types t then i else idLoop types ts (i + 1)

/-- `id_of_satisfying_type` (`language/operation/core/expression_types.cc:51-64`). Without a
satisfying type the result is the size of the list, which is where the loop ends. -/
def idOfSatisfyingType (types others : ExpressionTypes) : ℕ := idLoop types others 0

/-- `is_satisfied_by` types (`language/operation/core/expression_types.cc:79-83`). -/
def isSatisfiedBy (types others : ExpressionTypes) : Bool :=
  decide (idOfSatisfyingType types others < others.length)

/-- `fixed` (`language/operation/core/expression_types.cc:86-98`). -/
def fixed (types : ExpressionTypes) : Bool := !types.isEmpty && types.all ExpressionType.fixed

end ExpressionTypes

/-! ### The standard calculation of the type of a result -/

/-- What the calculation uses of an `Operation` (`language/operation/core/operation.h:30-85`): the
expression types of its parameters and results. -/
structure OperationType where
  parameters : List ExpressionTypes
  results : List ExpressionType

/-- The parameters' expression types, provided that each has exactly one (the assertions
`expression_type_calculation.cc:43`, `51`, `119`, `141`; the constructors of `Parameter` establish
it). -/
def OperationType.parameterTypes (op : OperationType) : Option (List ExpressionType) :=
  op.parameters.mapM fun types => match types with
    | [t] => some t
    | _ => none

/-- `merged |= ...` in a loop, from the default. -/
def mergeFlags {n : ℕ} (l : List (Flags n)) : Flags n := l.foldl Flags.union Flags.unknown

/-- `result_data_type` (`language/operation/core/expression_type_calculation.cc:17-82`). -/
def resultDataType (op : OperationType) (index : ℕ) (arguments : List DataTypes) :
    Option DataTypes := do
  let result ← op.results[index]?
  if arguments.length ≠ op.parameters.length then none
  else if result.data.fixed then some result.data
  else do
    let parameters ← op.parameterTypes
    let mergedParameters := mergeFlags (parameters.map (·.data))
    let merged := mergeFlags (List.zipWith Flags.inter arguments (parameters.map (·.data)))
    let type ←
      if merged 1 then some DataTypes.staticField
      else if merged 0 then some DataTypes.constant
      else if merged.equal Flags.unknown then some mergedParameters
      else none
    if type.isSubsetOf result.data then some type else none

/-- The chain of tests `expression_type_calculation.cc:150-176`, in order. 16 bit signed integers
are not in it. -/
def valueTypeChain : List ValueType :=
  [.float64, .float32, .uint64, .int64, .uint32, .int32, .uint16, .uint8, .int8]

/-- `result_value_type` (`language/operation/core/expression_type_calculation.cc:85-189`). -/
def resultValueType (op : OperationType) (index : ℕ) (arguments : List ValueTypes) :
    Option ValueTypes := do
  let result ← op.results[index]?
  if arguments.length ≠ op.parameters.length then none
  else if result.value.fixed then some result.value
  else match arguments with
    | [argument] =>
      if argument.any then some argument else general op result arguments
    | _ => general op result arguments
where
  /-- Lines 115-188. -/
  general (op : OperationType) (result : ExpressionType) (arguments : List ValueTypes) :
      Option ValueTypes := do
    let parameters ← op.parameterTypes
    let merged := mergeFlags (List.zipWith Flags.inter arguments (parameters.map (·.value)))
    if merged.fixed then some merged
    else do
      let mergedParameters := mergeFlags (parameters.map (·.value))
      let type ← match valueTypeChain.find? (ValueTypes.test merged) with
        | some v => some v.flag
        | none => if merged.equal Flags.unknown then some mergedParameters else none
      if type.isSubsetOf result.value then some type else none

/-- `standard_expression_type` (`language/operation/core/expression_type_calculation.cc:201-216`). -/
def standardExpressionType (op : OperationType) (index : ℕ) (arguments : List ExpressionType) :
    Option ExpressionType := do
  let data ← resultDataType op index (arguments.map (·.data))
  let value ← resultValueType op index (arguments.map (·.value))
  ExpressionType.make data value

end Fern
