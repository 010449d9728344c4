import Verif.Model.DataName
import Verif.Model.Types

/-!
# Datasets of netCDF

Model of `io/netcdf/core/{attribute,variable,dataset}.cc` and `io/netcdf/coards/{dataset.cc,detail/read.h}`.
The netCDF library is trusted to find attributes and variables by their name. Attributes are the global ones.
Simplified: names with a null character (names reach the library as C strings).
-/

namespace Fern.Netcdf

/-- The types of netCDF (`netcdf.h`). `other`: a type defined in the file. `NC_LONG` is another name of
`NC_INT`. -/
inductive NcType
  | nat | byte | char | short | int | float | double | ubyte | ushort | uint | int64 | uint64 | string | other
  deriving DecidableEq

/-- `value_type_map` and `value_type_id` (`io/netcdf/core/variable.cc:86-119`). `none`: the assertion fails. -/
def valueType : NcType → Option ValueType
  | .char => some .char
  | .ubyte => some .uint8
  | .byte => some .int8
  | .ushort => some .uint16
  | .short => some .int16
  | .uint => some .uint32
  | .int => some .int32
  | .uint64 => some .uint64
  | .int64 => some .int64
  | .float => some .float32
  | .double => some .float64
  | .string => some .string
  | .nat | .other => none

/-- An attribute: characters, or values of another type. -/
inductive Attr
  | text (s : Str)
  | other
  deriving DecidableEq

/-- A variable. The value is what `nc_get_var_double` reads if there are no dimensions. -/
structure Var (α : Type) where
  type : NcType
  dimensions : Nat
  value : α

/-- The contents of a dataset. -/
structure Dataset (α : Type) where
  attr : Str → Option Attr
  var : Str → Option (Var α)

/-- `has_attribute` (`io/netcdf/core/attribute.cc:51-61`). -/
def hasAttribute {α : Type} (d : Dataset α) (name : Str) : Bool := (d.attr name).isSome

/-- `attribute<std::string>` (`io/netcdf/core/attribute.cc:19-40`). `nc_get_att_text` refuses attributes that are
no text; the text must not end with a null character. `none`: an assertion fails. -/
def attributeText {α : Type} (d : Dataset α) (name : Str) : Option Str :=
  match d.attr name with
  | some (.text s) => if s.getLast? = some '\x00' then none else some s
  | _ => none

/-- `conventions` (`io/netcdf/core/attribute.cc:81-109`). -/
def conventions {α : Type} (d : Dataset α) : Option (List Str) :=
  if hasAttribute d "Conventions".toList then
    (attributeText d "Conventions".toList).bind fun value =>
      if ',' ∈ value then (split value [',']).map fun values => values.map fun v => strip v []
      else split value []
  else some []

/-- `conforms_to_coards` (`io/netcdf/coards/dataset.cc:25-32`). -/
def conformsToCoards {α : Type} (d : Dataset α) : Option Bool :=
  (conventions d).map fun l => l.contains "COARDS".toList

/-- What there is under the name of a file. -/
inductive File (α : Type)
  | missing
  /-- `nc_open` fails: no permission, or not a netCDF file. -/
  | unreadable
  | dataset (d : Dataset α)

/-- The messages of the `IOError`s. -/
inductive Problem
  | doesNotExist
  | cannotBeRead
  | doesNotConform
  | noVariable (name : Str)
  | notScalar (name : Str)
  deriving DecidableEq

/-- How reading ends: `destination` has the value, an `IOError` about a file is thrown, or an assertion fails. -/
inductive Outcome (α : Type)
  | ok (value : α)
  | error (pathname : Str) (problem : Problem)
  | fails
  deriving DecidableEq

/-- `read_coards` into a scalar of type `double` (`io/netcdf/coards/detail/read.h:43-98`), the only type for which
there is a `read_0d` (`io/netcdf/core/detail/variable.h:26-32`). The policy for no-data is handed on and never
used. -/
def readCoards {α : Type} (fs : Str → File α) (name : Str) : Outcome α :=
  match dataName name with
  | none => .fails
  | some (pathname, path) =>
    match fs pathname with
    | .missing => .error pathname .doesNotExist
    | .unreadable => .error pathname .cannotBeRead
    | .dataset d =>
      match conformsToCoards d with
      | none => .fails
      | some false => .error pathname .doesNotConform
      | some true =>
        match pathNames path with
        | some [n] =>
          match d.var n with
          | none => .error pathname (.noVariable n)
          | some v =>
            if v.dimensions ≠ 0 then .error pathname (.notScalar n)
            else if valueType v.type = some .float64 then .ok v.value
            else .fails
        | _ => .fails

end Fern.Netcdf
