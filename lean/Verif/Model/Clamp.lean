import Verif.Model.ElemLoop
/-
`clamp` (`algorithm/core/detail/clamp.h`). The parallel versions with one scalar bound are not
modelled: they instantiate their implementation with the types of the bounds exchanged
(`:510-512`, `:608-610`, `:824-826`, `:930-932`), which only compiles if the types are the same.
-/
namespace Fern

variable {V : Type} [LT V] [DecidableLT V]

/-- `boost::algorithm::clamp`: asserts `!(hi < lo)`; `val < lo ? lo : hi < val ? hi : val`
(called in `algorithm/core/detail/clamp.h:44`). -/
def boostClamp (val lo hi : V) : Option V := do
  assert' (!decide (hi < lo))
  some (if val < lo then lo else if hi < val then hi else val)

/-- `clamp_0d_0d_0d` (`algorithm/core/detail/clamp.h:29-47`). -/
def clamp0d0d0d (inV inL inU : InPolicy V) (outp : OutPolicy V) (value lower upper : V)
    (result : Cell V) : Option (Cell V) :=
  run0d (do
    assert' (!(← inL.isNoData0 lower))
    assert' (!(← inU.isNoData0 upper))
    if ← inV.isNoData0 value then some [outp.mark]
    else some [storeAct (← boostClamp value lower upper)]) result

/-- Body of `clamp_1d_1d_1d` and `clamp_2d_2d_2d` (`algorithm/core/detail/clamp.h:67-77`,
`:171-181`). -/
def clampAAAActs (inV inL inU : InPolicy V) (outp : OutPolicy V) (value lower upper : List V)
    (i : Nat) : Option (List (Cell V → Cell V)) := do
  if ← inV.isNoData value i then some [outp.mark]
  else
    assert' (!(← inL.isNoData lower i))
    assert' (!(← inU.isNoData upper i))
    some [storeAct (← boostClamp (← value[i]?) (← lower[i]?) (← upper[i]?))]

/-- Body of `clamp_1d_1d_0d` and `clamp_2d_2d_0d` (`algorithm/core/detail/clamp.h:99-109`,
`:214-224`). -/
def clampAASActs (inV inL inU : InPolicy V) (outp : OutPolicy V) (value lower : List V) (upper : V)
    (i : Nat) : Option (List (Cell V → Cell V)) := do
  if ← inV.isNoData value i then some [outp.mark]
  else
    assert' (!(← inL.isNoData lower i))
    assert' (!(← inU.isNoData0 upper))
    some [storeAct (← boostClamp (← value[i]?) (← lower[i]?) upper)]

/-- Body of `clamp_1d_0d_1d` and `clamp_2d_0d_2d` (`algorithm/core/detail/clamp.h:131-141`,
`:257-267`). -/
def clampASAActs (inV inL inU : InPolicy V) (outp : OutPolicy V) (value : List V) (lower : V)
    (upper : List V) (i : Nat) : Option (List (Cell V → Cell V)) := do
  if ← inV.isNoData value i then some [outp.mark]
  else
    assert' (!(← inL.isNoData0 lower))
    assert' (!(← inU.isNoData upper i))
    some [storeAct (← boostClamp (← value[i]?) lower (← upper[i]?))]

/-- `clamp(1d, 1d, 1d)` (`algorithm/core/detail/clamp.h:350-425`). `n`: size of the result. -/
def clamp1d1d1d (inV inL inU : InPolicy V) (outp : OutPolicy V) (value lower upper : List V)
    (n : Nat) : Option (ElemLoop (Cell V)) := do
  assert' (n == value.length)
  assert' (lower.length == value.length)
  assert' (upper.length == value.length)
  some (.d1 n (clampAAAActs inV inL inU outp value lower upper))

/-- `clamp(1d, 1d, 0d)` (`algorithm/core/detail/clamp.h:450-465`), sequential. -/
def clamp1d1d0d (inV inL inU : InPolicy V) (outp : OutPolicy V) (value lower : List V) (upper : V)
    (n : Nat) : Option (ElemLoop (Cell V)) := do
  assert' (n == value.length)
  assert' (lower.length == value.length)
  some (.d1 n (clampAASActs inV inL inU outp value lower upper))

/-- `clamp(1d, 0d, 1d)` (`algorithm/core/detail/clamp.h:548-563`), sequential. -/
def clamp1d0d1d (inV inL inU : InPolicy V) (outp : OutPolicy V) (value : List V) (lower : V)
    (upper : List V) (n : Nat) : Option (ElemLoop (Cell V)) := do
  assert' (n == value.length)
  assert' (upper.length == value.length)
  some (.d1 n (clampASAActs inV inL inU outp value lower upper))

/-- `clamp(2d, 2d, 2d)` (`algorithm/core/detail/clamp.h:646-731`). `rs`, `vs`, `ls`, `us`: extents. -/
def clamp2d2d2d (inV inL inU : InPolicy V) (outp : OutPolicy V) (vs : Nat × Nat) (value : List V)
    (ls : Nat × Nat) (lower : List V) (us : Nat × Nat) (upper : List V) (rs : Nat × Nat) :
    Option (ElemLoop (Cell V)) := do
  assertSame rs vs
  assertSame ls vs
  assertSame us vs
  some (.d2 rs.1 rs.2 rs.2 (clampAAAActs inV inL inU outp value lower upper))

/-- `clamp(2d, 2d, 0d)` (`algorithm/core/detail/clamp.h:756-775`), sequential. -/
def clamp2d2d0d (inV inL inU : InPolicy V) (outp : OutPolicy V) (vs : Nat × Nat) (value : List V)
    (ls : Nat × Nat) (lower : List V) (upper : V) (rs : Nat × Nat) :
    Option (ElemLoop (Cell V)) := do
  assertSame rs vs
  assertSame ls vs
  some (.d2 rs.1 rs.2 rs.2 (clampAASActs inV inL inU outp value lower upper))

/-- `clamp(2d, 0d, 2d)` (`algorithm/core/detail/clamp.h:862-881`), sequential. -/
def clamp2d0d2d (inV inL inU : InPolicy V) (outp : OutPolicy V) (vs : Nat × Nat) (value : List V)
    (lower : V) (us : Nat × Nat) (upper : List V) (rs : Nat × Nat) :
    Option (ElemLoop (Cell V)) := do
  assertSame rs vs
  assertSame us vs
  some (.d2 rs.1 rs.2 rs.2 (clampASAActs inV inL inU outp value lower upper))

end Fern
