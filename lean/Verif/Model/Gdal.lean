import Verif.Model.Arrays
import Verif.Model.Domains
import Verif.Model.Drivers
import Verif.Model.Features
import Mathlib.Algebra.Order.Field.Rat
import Mathlib.Algebra.Order.Group.Unbundled.Abs

/-!
# Rasters in GDAL datasets

Model of `language/io/gdal/gdal_dataset.cc` (reading and writing of field attributes by the language) and of
`python/io/gdal.cc`, `io/gdal/detail/read.h`, `io/gdal/dataset.cc` (reading and writing of masked rasters by the Python
extension). What the GDAL library does is described at the definitions of the first part; this is trusted.
Coordinates are exact numbers; arrays have at least one row and one column. Values of all types are members of `Flt`.
-/

namespace Fern.Gdal

open Fern Fern.Domains Fern.Features

/-! ### The GDAL library -/

/-- `GDALDataType`; `other`: the complex types, `GDT_Unknown` and `GDT_TypeCount`. -/
inductive GType
  | byte | uint16 | int16 | uint32 | int32 | float32 | float64 | other
  deriving DecidableEq

/-- The affine transformation from columns and rows to coordinates, with GDAL's indices. -/
structure Transform where
  t0 : Rat
  t1 : Rat
  t2 : Rat
  t3 : Rat
  t4 : Rat
  t5 : Rat
  deriving DecidableEq

/-- The transformation of datasets without transformation. -/
def Transform.default : Transform := ⟨0, 1, 0, 0, 0, 1⟩

/-- The mask of a band: none, or bytes; `alpha`: it is an alpha channel. -/
inductive Mask
  | allValid
  | bytes (alpha : Bool) (l : List Int)

/-- A raster dataset, as far as it is used: the first band of `bands`. `noData`: the no-data value, a `double`.
`mask`: a mask that is stored. -/
structure Image where
  rows : Nat
  cols : Nat
  bands : Nat
  type : GType
  values : List Flt
  noData : Option Flt
  transform : Option Transform
  mask : Mask

/-- A file. -/
inductive File
  | image (i : Image)
  | other

/-- The files. -/
abbrev Disk := Str → Option File

/-- Store or delete a file. -/
def Disk.set (d : Disk) (name : Str) (f : Option File) : Disk := fun n => if n = name then f else d n

/-- A driver. `absent`: what `GetNoDataValue` returns if there is no no-data value. -/
structure Format where
  /-- It can create datasets with bands of this type. -/
  creates : GType → Bool
  /-- It can open datasets for update. -/
  updates : Bool
  /-- It can store transformations. -/
  transforms : Bool
  /-- It can store no-data values. -/
  noDataValues : Bool
  /-- It can add masks to datasets without mask. -/
  masks : Bool
  /-- It can add masks to datasets with a mask. -/
  remasks : Bool
  /-- Conversion of values in `RasterIO`. -/
  convert : GType → GType → Flt → Flt
  absent : Flt

/-- `GetMaskFlags`, `GetMaskBand`: the mask stored, or else the cells that have the no-data value. -/
def Image.effectiveMask (i : Image) : Mask :=
  match i.mask with
  | .bytes a l => .bytes a l
  | .allValid =>
    match i.noData with
    | none => .allValid
    | some nd => .bytes false (i.values.map fun v => if v = nd then 0 else 255)

/-- `RasterIO(GF_Write, 0, 0, cols, rows, ...)` within a band that has `imageCols` columns. -/
def window {α : Type} (imageCols rows cols : Nat) (new old : List α) : List α :=
  old.mapIdx fun k v =>
    if k / imageCols < rows ∧ k % imageCols < cols then new.getD (k / imageCols * cols + k % imageCols) v else v

/-! ### Outcomes -/

/-- The messages of `IOError`. -/
inductive Msg
  | doesNotExist | cannotBeRead | cannotBeWritten | cannotBeCreated
  | doesNotContainFeature | doesNotContainAttribute | unsupportedValueType
  deriving DecidableEq

/-- What a function does. -/
inductive Out (α : Type)
  | ok (a : α)
  | error (m : Msg)
  | assertion
  | undefined

/-! ### Datasets of the language -/

/-- `Path::stem` (`core/path.cc:33-36`): the last name up to its last dot, if that is not its first character. -/
def stem (name : Str) : Str :=
  let f := (Path.ofString name).filename
  let beforeDot := (f.reverse.dropWhile (· != '.')).drop 1
  if f = ['.', '.'] ∨ beforeDot.isEmpty then f else beforeDot.reverse

/-- `GDALDataset` (`language/io/gdal/gdal_dataset.h`): `isOpen`: `_dataset` is not null. -/
structure Dataset where
  name : Str
  mode : OpenMode
  isOpen : Bool

/-- `GDALDataset::GDALDataset`, `gdal_open` (`language/io/gdal/gdal_dataset.cc:25-98`, `199-226`). `QuietDelete`
deletes only files it recognizes. -/
def openDataset (fmt : Format) (d : Disk) (name : Str) (mode : OpenMode) : Disk × Out Dataset :=
  match mode with
  | .read =>
    match d name with
    | some (.image _) => (d, .ok ⟨name, mode, true⟩)
    | some .other => (d, .error .cannotBeRead)
    | none => (d, .error .doesNotExist)
  | .update =>
    match d name with
    | some (.image _) => if fmt.updates then (d, .ok ⟨name, mode, true⟩) else (d, .error .cannotBeWritten)
    | some .other => (d, .error .cannotBeWritten)
    | none => (d, .error .doesNotExist)
  | .overwrite =>
    match d name with
    | some (.image _) => (d.set name none, .ok ⟨name, mode, false⟩)
    | _ => (d, .ok ⟨name, mode, false⟩)

/-- `GDALDataset::contains_feature` (`language/io/gdal/gdal_dataset.cc:264-270`). -/
def containsFeature (ds : Dataset) (path : Path) : Bool :=
  decide (path = Path.ofString ('/' :: stem ds.name))

/-- `GDALDataset::contains_attribute` (`language/io/gdal/gdal_dataset.cc:273-282`). -/
def containsAttribute (ds : Dataset) (path : Path) : Bool :=
  decide (Path.ofString ('/' :: stem ds.name ++ '/' :: stem ds.name) = path)

/-- `TypeTraits<GDALDataTypeTraits<data_type>::type>::value_type` (`language/io/gdal/gdal_data_type_traits.h`). -/
def valueType : GType → Option NumTy
  | .byte => some (.int .u8)
  | .uint16 => some (.int .u16)
  | .int16 => some (.int .i16)
  | .uint32 => some (.int .u32)
  | .int32 => some (.int .i32)
  | .float32 => some .f32
  | .float64 => some .f64
  | .other => none

/-- `GDALTypeTraits<T>::data_type` (`language/io/gdal/gdal_type_traits.h`), for the types that can be written
(`language/io/gdal/gdal_dataset.cc:677-696`). -/
def gdalType : NumTy → Option GType
  | .int .u8 => some .byte
  | .int .u16 => some .uint16
  | .int .i16 => some .int16
  | .int .u32 => some .uint32
  | .int .i32 => some .int32
  | .f32 => some .float32
  | .f64 => some .float64
  | _ => none

/-- `d2::Box` -/
structure Box where
  west : Rat
  south : Rat
  east : Rat
  north : Rat
  deriving DecidableEq

/-- `FieldValue<T>` -/
structure FieldArray where
  rows : Nat
  cols : Nat
  array : MaskedArray Flt

/-- `Attribute`: a constant, whose value plays no role here, or a field: boxes with arrays
(`language/feature/core/spatial_attribute.h`, `spatial_domain.h`). -/
inductive Attribute
  | constant
  | field (type : NumTy) (entries : List (Box × FieldArray))

/-- `GDALDataset::band` (`language/io/gdal/gdal_dataset.cc:463-482`). -/
def band (d : Disk) (ds : Dataset) (path : Path) : Out Image :=
  if !ds.isOpen then .assertion
  else if !containsAttribute ds path then .error .doesNotContainAttribute
  else match d ds.name with
    | some (.image i) => if i.bands ≠ 1 then .assertion else .ok i
    | _ => .undefined

/-- `GDALDataset::read_attribute<T>` (`language/io/gdal/gdal_dataset.cc:389-460`). -/
def readField (i : Image) (t : NumTy) : Out Attribute :=
  let tr := i.transform.getD Transform.default
  if tr.t1 ≠ abs tr.t5 then .assertion
  else
    let box : Box := ⟨tr.t0, tr.t3 - i.rows * tr.t1, tr.t0 + i.cols * tr.t1, tr.t3⟩
    let array := MaskedArray.ofValues i.values
    match i.effectiveMask with
    | .allValid => .ok (.field t [(box, ⟨i.rows, i.cols, array⟩)])
    | .bytes true _ => .assertion
    | .bytes false l =>
      match array.setMask .u8 l with
      | none => .assertion
      | some array => .ok (.field t [(box, ⟨i.rows, i.cols, array⟩)])

/-- `GDALDataset::read_attribute` (`language/io/gdal/gdal_dataset.cc:501-565`). -/
def readAttribute (d : Disk) (ds : Dataset) (path : Path) : Out Attribute :=
  match band d ds path with
  | .ok i =>
    match valueType i.type with
    | none => .error .unsupportedValueType
    | some t => readField i t
  | .error m => .error m
  | .assertion => .assertion
  | .undefined => .undefined

/-- `GDALDataset::expression_type` (`language/io/gdal/gdal_dataset.cc:285-306`): the value type of a field. -/
def expressionType (d : Disk) (ds : Dataset) (path : Path) : Out NumTy :=
  if !ds.isOpen then .assertion
  else if !containsAttribute ds path then .error .doesNotContainFeature
  else match d ds.name with
    | some (.image i) =>
      if i.bands ≠ 1 then .assertion
      else match valueType i.type with
        | none => .assertion
        | some t => .ok t
    | _ => .undefined

/-- `create_gdal_dataset` (`language/io/gdal/gdal_dataset.cc:101-123`). GDAL refuses rasters without cells; the values
of a new raster are zero. -/
def createDataset (fmt : Format) (type : GType) (rows cols : Nat) : Option Image :=
  if fmt.creates type && rows != 0 && cols != 0 then
    some ⟨rows, cols, 1, type, List.replicate (rows * cols) (.fin 0), none, none, .allValid⟩
  else none

/-- `assert(contains_feature(path.parent_path())); assert(contains_attribute(path));` -/
def writablePath (ds : Dataset) (path : Path) : Bool :=
  containsFeature ds path.parentPath && containsAttribute ds path

/-- The part of `write_attribute<T>` which writes to the dataset (`language/io/gdal/gdal_dataset.cc:594-653`): the image
after it, and how it ends. -/
def writeImage (fmt : Format) (i : Image) (type : GType) (box : Box) (a : FieldArray) : Image × Out Unit :=
  let t1 := (box.east - box.west) / a.cols
  let t5 := (box.north - box.south) / a.rows
  if ¬ 0 < t1 then (i, .assertion)
  else if t1 ≠ t5 then (i, .assertion)
  else if !fmt.transforms then (i, .error .cannotBeWritten)
  else
    let i := { i with transform := some ⟨box.west, t1, 0, box.north, 0, t5⟩ }
    if i.rows < a.rows ∨ i.cols < a.cols then (i, .error .cannotBeWritten)
    else
      let values := window i.cols a.rows a.cols (a.array.values.map (fmt.convert type i.type)) i.values
      let i := { i with values := values }
      if !a.array.hasMaskedValues then (i, .ok ())
      else
        match a.array.writeMask .u8 (List.replicate (a.rows * a.cols) 0) with
        | none => (i, .assertion)
        | some bytes =>
          match i.mask with
          | .allValid =>
            if !fmt.masks then (i, .error .cannotBeWritten)
            else
              let bytes := window i.cols a.rows a.cols bytes (List.replicate (i.rows * i.cols) 0)
              ({ i with mask := .bytes false bytes }, .ok ())
          | .bytes _ old =>
            if !fmt.remasks then (i, .error .cannotBeWritten)
            else ({ i with mask := .bytes false (window i.cols a.rows a.cols bytes old) }, .ok ())

/-- `GDALDataset::write_attribute<T>` (`language/io/gdal/gdal_dataset.cc:568-653`). -/
def writeField (fmt : Format) (d : Disk) (ds : Dataset) (type : GType) (entries : List (Box × FieldArray))
    (path : Path) : Disk × Out Dataset :=
  if !((ds.isOpen && ds.mode == .update) || (!ds.isOpen && ds.mode == .overwrite)) then (d, .assertion)
  else
    match entries with
    | [(box, a)] =>
      let created : Option (Disk × Image) :=
        if ds.isOpen then
          match d ds.name with
          | some (.image i) => some (d, i)
          | _ => none
        else (createDataset fmt type a.rows a.cols).map fun i => (d.set ds.name (some (.image i)), i)
      match created with
      | none => (d, if ds.isOpen then .undefined else .error .cannotBeCreated)
      | some (d, i) =>
        if !writablePath ds path then (d, .assertion)
        else if i.bands ≠ 1 then (d, .assertion)
        else
          let r := writeImage fmt i type box a
          (d.set ds.name (some (.image r.1)),
            match r.2 with
            | .ok () => .ok { ds with isOpen := true }
            | .error m => .error m
            | .assertion => .assertion
            | .undefined => .undefined)
    | _ => (d, .assertion)

/-- `GDALDataset::write_attribute` (`language/io/gdal/gdal_dataset.cc:665-698`). -/
def writeAttribute (fmt : Format) (d : Disk) (ds : Dataset) (a : Attribute) (path : Path) :
    Disk × Out Dataset :=
  match a with
  | .constant => (d, .assertion)
  | .field t entries =>
    match gdalType t with
    | none => (d, .assertion)
    | some type => writeField fmt d ds type entries path

/-! ### Rasters of the Python extension -/

/-- `python::detail::MaskedRaster<T>` (`python/feature/detail/masked_raster.h`). -/
structure PyRaster where
  type : NumTy
  rows : Nat
  cols : Nat
  origin : Rat × Rat
  cellSizes : Rat × Rat
  values : List Flt

/-- `static_cast<T>` of a `double`; `none`: undefined behaviour. `round32`: rounding to `float`. -/
def castTo (round32 : Flt → Flt) : NumTy → Flt → Option Flt
  | .int t, x => (toInteger t x).map fun (z : Int) => .fin (z : Rat)
  | .f32, x => some (round32 x)
  | .f64, x => some x
  | .bool, _ => none

/-- The values after the loop of `io::gdal::detail::read` (`io/gdal/detail/read.h:83-100`). -/
def markValues (t : NumTy) (nd : Flt) (values : List Flt) : List Flt :=
  values.map fun v => if v.eq nd then (match noDataValue t with | some x => .fin x | none => v) else v

/-- `read_raster` (`python/io/gdal.cc:95-117`) with `open_dataset` and `raster_band` (`io/gdal/dataset.cc:24-88`) and
`io::gdal::detail::read` (`io/gdal/detail/read.h:35-101`). -/
def pyRead (fmt : Format) (round32 : Flt → Flt) (d : Disk) (name : Str) : Out PyRaster :=
  match d name with
  | none => .error .doesNotExist
  | some .other => .error .cannotBeRead
  | some (.image i) =>
    if i.bands < 1 then .assertion
    else match valueType i.type with
      | none => .assertion
      | some t =>
        let tr := i.transform.getD Transform.default
        match castTo round32 t (i.noData.getD fmt.absent) with
        | none => .undefined
        | some nd => .ok ⟨t, i.rows, i.cols, (tr.t0, tr.t3), (tr.t1, tr.t5),
            if i.noData.isSome then markValues t nd i.values else i.values⟩

/-- `write_raster` (`python/io/gdal.cc:120-215`): the results of `SetGeoTransform` and `SetNoDataValue` are not looked
at. -/
def pyWrite (fmt : Format) (d : Disk) (r : PyRaster) (name : Str) : Disk × Out Unit :=
  match gdalType r.type, noDataValue r.type with
  | some type, some nd =>
    match createDataset fmt type r.rows r.cols with
    | none => (d, .assertion)
    | some i =>
      let i := if fmt.transforms then
          { i with transform := some ⟨r.origin.1, r.cellSizes.1, 0, r.origin.2, 0, r.cellSizes.2⟩ }
        else i
      let i := if fmt.noDataValues then { i with noData := some (.fin nd) } else i
      (d.set name (some (.image { i with values := window i.cols r.rows r.cols r.values i.values })), .ok ())
  | _, _ => (d, .assertion)

end Fern.Gdal
