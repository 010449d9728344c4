import Verif.Model.FernDataset
import Verif.Model.Annotate

/-!
# Types of numbers in files in Fern format

Model of `FernDataset::value_type`, `expression_type`, `read_attribute` and the last part of `write_attribute`
(`language/io/fern/fern_dataset.cc`) with `language/io/fern/hdf5_type_traits.{h,cc}` and `hdf5_dataset.h`. A dataset of
an HDF5 file is its type, its space and its value. What the library does on reading and writing is trusted to be what
its documentation says: nothing if the types are the same (apart from the order of bytes), and otherwise integers that
do not fit become the nearest number that does. Floating point numbers are rationals; `narrow` is what is stored of a
`double` in a dataset of `float`.
-/

namespace Fern.FileTypes

/-- `H5T_class_t`. -/
inductive TypeClass
  | integer | float | time | string | noClass | bitfield | opaque | compound | reference | enum | vlen | array
  | nClasses
  deriving DecidableEq

/-- `H5T_sign_t`. `other`: an error, or the number of signs. -/
inductive Sign
  | none | twos | other
  deriving DecidableEq

/-- What can be asked of a type: its class, its sign, the number of bytes. `bigEndian`: the order of the bytes, which the
code never asks for. -/
structure FileType where
  cls : TypeClass
  sign : Sign
  size : Nat
  bigEndian : Bool
  deriving DecidableEq

/-- `H5S_class_t`. -/
inductive Space
  | scalar | simple | null | noClass
  deriving DecidableEq

/-- A value in a file. -/
inductive Raw
  | int (v : Int)
  | float (v : Rat)
  deriving DecidableEq

/-- A dataset of a file. -/
structure Stored where
  type : FileType
  space : Space
  value : Raw
  deriving DecidableEq

/-- `HDF5TypeTraits<T>::data_type` (`language/io/fern/hdf5_type_traits.cc:15-24`): the type of a computer, whose bytes have
one of two orders. There are no such types for the other value types. -/
def nativeType (big : Bool) : ValueType → Option FileType
  | .uint8 => some ⟨.integer, .none, 1, big⟩
  | .uint16 => some ⟨.integer, .none, 2, big⟩
  | .uint32 => some ⟨.integer, .none, 4, big⟩
  | .uint64 => some ⟨.integer, .none, 8, big⟩
  | .int8 => some ⟨.integer, .twos, 1, big⟩
  | .int16 => some ⟨.integer, .twos, 2, big⟩
  | .int32 => some ⟨.integer, .twos, 4, big⟩
  | .int64 => some ⟨.integer, .twos, 8, big⟩
  | .float32 => some ⟨.float, .other, 4, big⟩
  | .float64 => some ⟨.float, .other, 8, big⟩
  | .bool => none
  | .char => none
  | .string => none

/-- `FernDataset::value_type` (`language/io/fern/fern_dataset.cc:80-158`). `none`: an assertion fails. -/
def valueType (t : FileType) : Option ValueType :=
  match t.cls with
  | .integer =>
    if t.sign = .none ∨ t.sign = .twos then
      if t.sign = .none then
        if t.size = 1 then some .uint8
        else if t.size = 2 then some .uint16
        else if t.size = 4 then some .uint32
        else if t.size = 8 then some .uint64
        else none
      else
        if t.size = 1 then some .int8
        else if t.size = 2 then some .int16
        else if t.size = 4 then some .int32
        else if t.size = 8 then some .int64
        else none
    else none
  | .float =>
    if t.size = 4 then some .float32
    else if t.size = 8 then some .float64
    else none
  | _ => none

/-- `expression_type_numeric_attribute<T>` (`language/io/fern/fern_dataset.cc:271-301`). -/
def expressionTypeNumeric (v : ValueType) (d : Stored) : Option ExpressionType :=
  match d.space with
  | .scalar => ExpressionType.make DataTypes.constant v.flag
  | _ => none

/-- `FernDataset::expression_type` (`language/io/fern/fern_dataset.cc:318-404`) for a dataset that exists. -/
def expressionType (d : Stored) : Option ExpressionType :=
  match d.type.cls with
  | .integer =>
    if d.type.sign = .none ∨ d.type.sign = .twos then
      if d.type.sign = .none then
        if d.type.size = 1 then expressionTypeNumeric .uint8 d
        else if d.type.size = 2 then expressionTypeNumeric .uint16 d
        else if d.type.size = 4 then expressionTypeNumeric .uint32 d
        else if d.type.size = 8 then expressionTypeNumeric .uint64 d
        else none
      else
        if d.type.size = 1 then expressionTypeNumeric .int8 d
        else if d.type.size = 2 then expressionTypeNumeric .int16 d
        else if d.type.size = 4 then expressionTypeNumeric .int32 d
        else if d.type.size = 8 then expressionTypeNumeric .int64 d
        else none
    else none
  | .float =>
    if d.type.size = 4 then expressionTypeNumeric .float32 d
    else if d.type.size = 8 then expressionTypeNumeric .float64 d
    else none
  | _ => none

/-- The least number of a type of integers. -/
def leastOf (t : FileType) : Int := if t.sign = .twos then -2 ^ (8 * t.size - 1) else 0

/-- The greatest number of a type of integers. -/
def greatestOf (t : FileType) : Int := if t.sign = .twos then 2 ^ (8 * t.size - 1) - 1 else 2 ^ (8 * t.size) - 1

/-- The conversion of `H5Dread` and `H5Dwrite` (trusted): nothing if the types are the same, apart from the order of the
bytes. Integers that do not fit become the nearest number that does. -/
def convertRaw (narrow : Rat → Rat) (source target : FileType) : Raw → Raw
  | .int v =>
    if source.sign = target.sign ∧ source.size = target.size then .int v
    else if v < leastOf target then .int (leastOf target)
    else if greatestOf target < v then .int (greatestOf target)
    else .int v
  | .float v => if target.size < source.size then .float (narrow v) else .float v

/-- The value of a number. -/
def raw : Number → Raw
  | .int _ v => .int v
  | .float32 v => .float v
  | .float64 v => .float v

/-- `HDF5Group::create_dataset<T>` (`language/io/fern/hdf5_group.h:65-86`): a scalar of the type of the number. The value
is not written yet. -/
def createDataset (big : Bool) (n : Number) : Option Stored :=
  (nativeType big n.valueType).map fun t =>
    ⟨t, .scalar, match n with | .int _ _ => .int 0 | .float32 _ => .float 0 | .float64 _ => .float 0⟩

/-- `HDF5TypeTraits<T>::type_class` (`language/io/fern/hdf5_type_traits.h:26-103`). -/
def numberClass : Number → TypeClass
  | .int _ _ => .integer
  | .float32 _ => .float
  | .float64 _ => .float

/-- `HDF5Dataset::write` (`language/io/fern/hdf5_dataset.h:77-86`). -/
def writeValue (narrow : Rat → Rat) (big : Bool) (n : Number) (d : Stored) : Option Stored :=
  (nativeType big n.valueType).map fun t => { d with value := convertRaw narrow t d.type (raw n) }

/-- The last part of `write_attribute<T>` (`language/io/fern/fern_dataset.cc:662-699`), given what there is:
a new dataset is created, or that what is there has to be a scalar of the same class. -/
def writeDataset (narrow : Rat → Rat) (big : Bool) (n : Number) (old : Option Stored) : Option Stored :=
  match old with
  | none => (createDataset big n).bind (writeValue narrow big n)
  | some d =>
    if d.space = .scalar then
      if d.type.cls = numberClass n then writeValue narrow big n d else none
    else none

/-- `read_constant_attribute<T>` (`language/io/fern/fern_dataset.cc:518-526`) with `HDF5Dataset::read`
(`language/io/fern/hdf5_dataset.h:64-73`), for `T` the type of the value type. -/
def readConstant (narrow : Rat → Rat) (big : Bool) (v : ValueType) (d : Stored) : Option Number :=
  (nativeType big v).bind fun t =>
    match v, convertRaw narrow d.type t d.value with
    | .uint8, .int x => some (.int .u8 x)
    | .uint16, .int x => some (.int .u16 x)
    | .uint32, .int x => some (.int .u32 x)
    | .uint64, .int x => some (.int .u64 x)
    | .int8, .int x => some (.int .i8 x)
    | .int16, .int x => some (.int .i16 x)
    | .int32, .int x => some (.int .i32 x)
    | .int64, .int x => some (.int .i64 x)
    | .float32, .float x => some (.float32 x)
    | .float64, .float x => some (.float64 x)
    | _, _ => none

/-- `read_attribute` (`language/io/fern/fern_dataset.cc:532-602`) for a dataset that exists. -/
def readDataset (narrow : Rat → Rat) (big : Bool) (d : Stored) : Option Number :=
  (valueType d.type).bind fun v =>
    match d.space with
    | .scalar => readConstant narrow big v d
    | _ => none

end Fern.FileTypes
