import Verif.Model.Convolve
import Verif.Model.Arrays
/-
Kernels of convolutions: `algorithm/convolution/neighborhood/kernel.h`, `kernel_traits.h`, `square.h` and
`square_traits.h`. An initializer list of initializer lists is a list of lists. The sizes are numbers without
bound (`size_t` in the code), and an assertion that fails or an access outside of an array is `none`.
-/
namespace Fern.Kernels

/-- `Kernel<T>`: the members `_radius`, `_size` and the array `_weights` (`kernel.h:56-63`). -/
structure Kernel (T : Type) where
  radius : Nat
  size : Nat
  weights : List T
  deriving DecidableEq

/-- `Square<T, radius>`: the array `_weights` (`square.h:51`); the radius is part of the type. -/
structure Square (T : Type) (radius : Nat) where
  weights : List T
  deriving DecidableEq

/-- `Kernel(radius, weight)` (`kernel.h:68-80`). `std::fill` writes all elements of the new array, in which
`std::make_unique` has put `default`. -/
def Kernel.const {T : Type} (default : T) (radius : Nat) (weight : T) : Option (Kernel T) :=
  let size := 2 * radius + 1
  (writeValues 0 (List.replicate (size * size) weight) (List.replicate (size * size) default)).map
    fun w => ⟨radius, size, w⟩

/-- The loop of the constructor of `Kernel` (`kernel.h:99-106`): `n` rounds to go, `source` and `target` are the
positions of `source_it` and `target_it`. -/
def kernelLoop {T : Type} (rows : List (List T)) (size : Nat) : (n source target : Nat) → List T → Option (List T)
  | 0, _, _, w => some w
  | n + 1, source, target, w => do
    let row ← rows[source]?
    if row.length = size then
      kernelLoop rows size n (source + 1) (target + size) (← writeValues target row w)
    else none

/-- `Kernel(radius, weights)` (`kernel.h:83-107`). -/
def Kernel.ofRows {T : Type} (default : T) (radius : Nat) (rows : List (List T)) : Option (Kernel T) :=
  let size := 2 * radius + 1
  if rows.length = size then
    (kernelLoop rows size size 0 0 (List.replicate (size * size) default)).map fun w => ⟨radius, size, w⟩
  else none

/-- The loop of the constructor of `Square` (`square.h:85-100`): `i` is the number of the row, `it` the position in
the list of rows. -/
def squareLoop {T : Type} (rows : List (List T)) (size : Nat) : (n i it : Nat) → List T → Option (List T)
  | 0, _, _, w => some w
  | n + 1, i, it, w => do
    let row ← rows[it]?
    if row.length = size then
      squareLoop rows size n (i + 1) (it + 1) (← writeValues (i * size) row w)
    else none

/-- `Square(weights)` (`square.h:76-101`). `garbage`: what the array contains at first (it is not initialized if the
type is that of a number). -/
def Square.ofRows {T : Type} (radius : Nat) (garbage : List T) (rows : List (List T)) : Option (Square T radius) :=
  let size := 2 * radius + 1
  if rows.length = size then
    (squareLoop rows size size 0 0 garbage).map fun w => ⟨w⟩
  else none

/-- `Kernel::weight` (`kernel.h:131-148`) as called by `get` (`kernel_traits.h:91-110`, which makes the same test with
`size(kernel)`). -/
def Kernel.get {T : Type} (k : Kernel T) (index : Nat) : Option T :=
  if index < k.size * k.size then k.weights[index]? else none

/-- Assignment through the reference that `get` and `weight` return (`kernel.h:141-148`, `kernel_traits.h:102-110`). -/
def Kernel.set {T : Type} (k : Kernel T) (index : Nat) (v : T) : Option (Kernel T) :=
  if index < k.size * k.size then (modifyAt index (fun _ => v) k.weights).map fun w => { k with weights := w }
  else none

/-- `index(kernel, index1, index2)` (`kernel_traits.h:80-88`). -/
def Kernel.index {T : Type} (k : Kernel T) (index1 index2 : Nat) : Nat := index1 * k.size + index2

/-- `Square::weight` as called by `get` (`square.h:104-123`, `square_traits.h:97-119`). -/
def Square.get {T : Type} {radius : Nat} (s : Square T radius) (index : Nat) : Option T :=
  if index < (2 * radius + 1) * (2 * radius + 1) then s.weights[index]? else none

/-- `index(square, index1, index2)` (`square_traits.h:86-94`). -/
def Square.index {T : Type} {radius : Nat} (_ : Square T radius) (index1 index2 : Nat) : Nat :=
  index1 * (2 * radius + 1) + index2

/-- The arguments of a convolution with a `Kernel`: the convolution asks the kernel for its radius, its size and its
weights (`algorithm/convolution/detail/convolve.h:120-129`, `kernel_traits.h:34-110`). -/
def Kernel.args {V W : Type} (k : Kernel W) (rows cols : Nat) (source : List V) (noData : InPolicy V) :
    ConvolveArgs V W where
  rows := rows
  cols := cols
  source := source
  noData := noData
  radius := k.radius
  weights := k.weights

/-- The arguments of a convolution with a `Square` (`square_traits.h:35-119`). -/
def Square.args {V W : Type} {radius : Nat} (s : Square W radius) (rows cols : Nat) (source : List V)
    (noData : InPolicy V) : ConvolveArgs V W where
  rows := rows
  cols := cols
  source := source
  noData := noData
  radius := radius
  weights := s.weights

end Fern.Kernels
