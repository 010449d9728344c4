import Verif.Model.Vector
import Verif.Model.PySlope

/-!
# Laplacian and Lax average of rasters of `double`

`algorithm/algebra/vector/detail/{laplacian,lax}.h`, for `fern::MaskedRaster<double, 2>`. (For `float` these do not compile:
values are combined with a `double`, `detail/laplacian.h:196` and `detail/lax.h:128`, and `multiply` and `divide` require that
the type of the result is that of the combination.)
-/

namespace Fern.FloatVector

open Fern Fern.Domains Fern.FloatArith
open Fern.PyFloat (arithmetic)

/-- `max <= 20.0` (`algorithm/algebra/vector/detail/laplacian.h:135`) -/
def atMost20 (v : Flt) : Bool := Flt.le v (.fin 20)

/-- `cell_area` (`feature/core/data_customization_point/masked_raster.h:135-140`): the product of two of the numbers of the
transformation of the raster. -/
def cellArea (width height : Flt) : Flt := times .double width height

/-- `laplacian` (`algorithm/algebra/vector/detail/laplacian.h:66-198`). -/
def laplacianOf (m : Execution) (vs : Nat × Nat) (value : List Flt) (inp : InPolicy Flt) (mark : Bool)
    (width height : Flt) (rs : Nat × Nat) (result : List (Cell Flt)) : Outcomes (List (Cell Flt)) :=
  laplacian (arithmetic .double) atMost20 m vs value inp mark (cellArea width height) rs result

/-- `lax` (`algorithm/algebra/vector/detail/lax.h:54-148`); `1.0 - fraction`: line 128. -/
def laxOf (m : Execution) (vs : Nat × Nat) (value : List Flt) (inp : InPolicy Flt) (mark : Bool) (fraction : Flt)
    (rs : Nat × Nat) (result : List (Cell Flt)) : Outcomes (List (Cell Flt)) :=
  lax (arithmetic .double) m vs value inp mark fraction (minus .double (.fin 1) fraction) rs result

end Fern.FloatVector
