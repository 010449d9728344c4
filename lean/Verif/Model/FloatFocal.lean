import Verif.Model.FloatConvolve
import Verif.Model.FocalAverage

/-!
# Averages of floating point numbers that replace missing values
-/

namespace Fern.FloatFocal

open Fern Fern.Domains Fern.Casts Fern.FloatArith Fern.FloatConvolve

/-- The average of values of type `v` (`algorithm/convolution/replace_no_data_by_focal_average.h:60-91`,
`algorithm/convolution/replace_out_of_image_by_focal_average.h:165-273`): the sum is of type `double`
(`algorithm/core/accumulation_traits.h:19-54`), the number of values is converted to `v`, and from there to `double`, which is
exact, and the quotient is converted to `v`. -/
def fltAverage (v : FltTy) : AverageOps Flt where
  zero := .fin 0
  add := plus .double
  divide := fun s n => store v (quotient s (v.round (n : Rat)))

/-- Convolution in which no-data cells and positions outside of the raster get averages. -/
def focalPolicy {W : Type} (v : FltTy) (a : ConvolveArgs Flt W) (keep : Bool) : ConvolvePolicy Flt :=
  focalAveragePolicy (fltAverage v) a keep

/-- Convolution in which positions outside of the raster get averages, and no-data cells are skipped
(`algorithm/convolution/skip_no_data.h:46-56`,
`algorithm/convolution/replace_out_of_image_by_focal_average.h:147-966`). -/
def outsidePolicy {W : Type} (v : FltTy) (a : ConvolveArgs Flt W) (keep : Bool) : ConvolvePolicy Flt where
  alternative := fun _ _ => some none
  outOfImage := outOfImageAverage (fltAverage v) a
  keepNoData := keep

end Fern.FloatFocal
