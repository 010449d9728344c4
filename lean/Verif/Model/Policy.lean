/-
No-data policies (`algorithm/policy/*.h`).
-/
namespace Fern

/-- A result element together with its entry in the mask. -/
structure Cell (R : Type) where
  val : R
  masked : Bool
deriving DecidableEq, Repr

/-- Output no-data policies.
* `dontMark`: `algorithm/policy/dont_mark_no_data.h`
* `markValue nd`: `MarkNoData` (`algorithm/policy/mark_no_data.h:93-99`): overwrites the result
  element by the type's no-data value `nd`
* `markMask`: `MarkNoDataByValue` (`algorithm/policy/mark_no_data_by_value.h:114-120`): sets the
  element's entry in the mask. The marker value itself is abstracted: "holds the marker" is
  `masked = true`. -/
inductive OutPolicy (R : Type) where
  | dontMark
  | markValue (nd : R)
  | markMask

/-- `mark_as_no_data(index)`, effect on the element. -/
def OutPolicy.mark {R : Type} : OutPolicy R → Cell R → Cell R
  | .dontMark, c => c
  | .markValue nd, c => { c with val := nd }
  | .markMask, c => { c with masked := true }

/-- Input no-data policies for one argument.
* `skip`: `SkipNoData` (`algorithm/policy/skip_no_data.h`): nothing is no-data
* `all`: `AllNoData`: everything is
* `detect isNd`: `DetectNoData` (`algorithm/policy/detect_no_data.h`): the element's own value is
  the no-data value
* `byMask mask marker`: `DetectNoDataByValue` (`algorithm/policy/detect_no_data_by_value.h`): the
  mask's element equals the marker. -/
inductive InPolicy (V : Type) where
  | skip
  | all
  | detect (isNd : V → Bool)
  | byMask (mask : List Int) (marker : Int)

/-- `is_no_data(index)`; `none`: out of bounds access. -/
def InPolicy.isNoData {V : Type} (p : InPolicy V) (vals : List V) (i : Nat) : Option Bool :=
  match p with
  | .skip => some false
  | .all => some true
  | .detect isNd => (vals[i]?).map isNd
  | .byMask mask marker => (mask[i]?).map (fun m => decide (m = marker))

/-- `is_no_data()` for a 0D argument: same as for the only element of a list. -/
def InPolicy.isNoData0 {V : Type} (p : InPolicy V) (v : V) : Option Bool := p.isNoData [v] 0

end Fern
