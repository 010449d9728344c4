import Verif.Model.Loop
import Verif.Model.ResultValue
import Verif.Model.LocalOps
/-
Arrays and masked arrays (`feature/core/array.h`, `masked_array.h`, `masked_scalar.h` and
`feature/core/data_customization_point/*.h`), and the reserved no-data values
(`core/type_traits.h`).

An array is its shape and its elements in row-major order (`boost::multi_array` with the default
storage order). `std::vector`'s and `std::initializer_list`'s are lists.
-/
namespace Fern

/-- Largest value of `size_t`, plus one. -/
def sizeTModulus : Nat := 2 ^ 64

/-- `index(array, index1, index2)` in `size_t` arithmetic
(`feature/core/data_customization_point/array.h:43-49`, same for the other array types). -/
def index64 (nrCols i j : Nat) : Nat := ((i * nrCols) % sizeTModulus + j) % sizeTModulus

/-- `Array<T, 2>`. -/
structure Array2d (T : Type) where
  size1 : Nat
  size2 : Nat
  data : List T

/-- `*it++ = value` for consecutive values, `it` pointing to element `k` at first. `none`: writing
past the end. -/
def writeValues {T : Type} : Nat → List T → List T → Option (List T)
  | _, [], data => some data
  | k, v :: vs, data => do writeValues (k + 1) vs (← modifyAt k (fun _ => v) data)

/-- `Array(std::initializer_list<std::initializer_list<T>> const&)`
(`feature/core/array.h:232-247`). The number of columns is the size of the first row; without rows
`values.begin()->size()` is undefined. `default`: the value that `boost::multi_array` gives to new
elements. -/
def Array2d.ofRows {T : Type} (default : T) (rows : List (List T)) : Option (Array2d T) :=
  match rows with
  | [] => none
  | first :: _ => do
    let n1 := rows.length
    let n2 := first.length
    some ⟨n1, n2, ← writeValues 0 rows.flatten (List.replicate (n1 * n2) default)⟩

/-- `get(array, index(array, i, j))`
(`feature/core/data_customization_point/array.h:43-73`); `none`: out of bounds. -/
def Array2d.get {T : Type} (a : Array2d T) (i j : Nat) : Option T := a.data[index64 a.size2 i j]?

/-- `MaskedArray<T, n>`: values and mask in row-major order. The shape plays no role in the
functions below. -/
structure MaskedArray (T : Type) where
  values : List T
  mask : List Bool
deriving DecidableEq, Repr

namespace MaskedArray

variable {T : Type}

/-- `MaskedArray(size_t size, T const& value)` and the constructor with extents
(`feature/core/masked_array.h:150-158, 197-206`), `nrElements` being the product of the extents. -/
def filled (nrElements : Nat) (value : T) : MaskedArray T :=
  ⟨List.replicate nrElements value, List.replicate nrElements false⟩

/-- `MaskedArray(std::initializer_list<T> const&)` (`feature/core/masked_array.h:165-173`). -/
def ofValues (values : List T) : MaskedArray T := ⟨values, List.replicate values.length false⟩

/-- `MaskedArray(std::vector<MaskedScalar<T>> const&)` (`feature/core/masked_array.h:93-113`); a
masked scalar is a value and a mask (`feature/core/masked_scalar.h:22-66`). -/
def ofScalars (scalars : List (T × Bool)) : MaskedArray T :=
  ⟨scalars.map (·.1), scalars.map (·.2)⟩

/-- `has_masked_values()` (`feature/core/masked_array.h:212-225`). -/
def hasMaskedValues (a : MaskedArray T) : Bool := a.mask.any id

/-- The loop of both `set_mask` functions: element `i` of the mask becomes true if `test i`.
(`feature/core/masked_array.h:266-270, 321-325`). -/
def setMaskLoop (test : Nat → Option Bool) : Nat → Nat → List Bool → Option (List Bool)
  | 0, _, mask => some mask
  | k + 1, i, mask => do
    if ← test i then setMaskLoop test k (i + 1) (← modifyAt i (fun _ => true) mask)
    else setMaskLoop test k (i + 1) mask

/-- `set_mask(T const& value)` (`feature/core/masked_array.h:260-271`). -/
def setMaskValue [DecidableEq T] (a : MaskedArray T) (value : T) : Option (MaskedArray T) := do
  let mask ← setMaskLoop (fun i => (a.values[i]?).map (fun v => decide (v = value)))
    a.values.length 0 a.mask
  some { a with mask := mask }

/-- `mask(Array<U, n>& mask)` (`feature/core/masked_array.h:279-293`), `U` being the integer type
`u`. The result is the new contents of the mask image; `none`: the assertion fails. -/
def writeMask (u : IntTy) (a : MaskedArray T) (image : List Int) : Option (List Int) :=
  if image.length = a.values.length then
    some (a.mask.map (fun m => if m then u.wrap 0 else u.wrap 255))
  else none

/-- `set_mask(Array<U, n> const& mask, U const value_to_mask)`
(`feature/core/masked_array.h:310-326`). Both operands of `==` have type `U`. -/
def setMask (u : IntTy) (a : MaskedArray T) (image : List Int) (valueToMask : Int := 0) :
    Option (MaskedArray T) := do
  assert' (image.length == a.values.length)
  let mask ← setMaskLoop (fun i => (image[i]?).map (fun m => cEq u u m valueToMask))
    a.values.length 0 a.mask
  some { a with mask := mask }

/-- `mask_all()` (`feature/core/masked_array.h:332-335`). -/
def maskAll (a : MaskedArray T) : MaskedArray T :=
  { a with mask := List.replicate a.mask.length true }

/-- `clone<U>(array)` and `clone(array, value)`
(`feature/core/data_customization_point/masked_array.h:80-140`). -/
def clone {U : Type} (a : MaskedArray T) (value : U) : MaskedArray U := filled a.values.length value

end MaskedArray

/-- `no_data_value<T>()` (`core/type_traits.h:93-305` for the integer types, 345, 388 for the
floating point types: there `min()` is the smallest positive normalised number). There is no
reserved value for `bool`. -/
def noDataValue : NumTy → Option Rat
  | .bool => none
  | .int t => some (if t.signed then t.min else t.max)
  | .f32 => some (1 / 2 ^ 126)
  | .f64 => some (1 / 2 ^ 1022)

/-- `is_no_data(value)` (`core/type_traits.h`), `DetectNoData`
(`algorithm/policy/detect_no_data.h:90-96`) for values of number type `t`. -/
def detectNoData (t : NumTy) : InPolicy Rat := .detect (fun v => noDataValue t == some v)

/-- `MarkNoData` (`algorithm/policy/mark_no_data.h:93-99`) for values of number type `t`. -/
def markNoData (t : NumTy) : OutPolicy Rat :=
  match noDataValue t with
  | some nd => .markValue nd
  | none => .dontMark

end Fern
