import Verif.Model.ElemLoop
/-
`cover` (`algorithm/core/detail/cover.h`), `if` (`algorithm/core/detail/if.h`) and the no-data
operations `unite_no_data`, `intersect_no_data`, `merge_no_data`. Result and value arguments have one
value type here (in the code the values are converted implicitly when stored); conditions are given
by their truth value.
-/
namespace Fern

variable {R : Type}

/-! ### cover -/

/-- `cover_0d_0d` (`algorithm/core/detail/cover.h:28-44`). -/
def cover0d0d (in1 in2 : InPolicy R) (outp : OutPolicy R) (value1 value2 : R) (result : Cell R) :
    Option (Cell R) :=
  run0d (do
    if !(← in1.isNoData0 value1) then some [storeAct value1]
    else if !(← in2.isNoData0 value2) then some [storeAct value2]
    else some [outp.mark]) result

/-- Body of `cover_2d_0d` (`algorithm/core/detail/cover.h:70-78`). -/
def cover2d0dActs (in1 in2 : InPolicy R) (outp : OutPolicy R) (value1 : List R) (value2 : R)
    (i : Nat) : Option (List (Cell R → Cell R)) := do
  if !(← in1.isNoData value1 i) then some [storeAct (← value1[i]?)]
  else if !(← in2.isNoData0 value2) then some [storeAct value2]
  else some [outp.mark]

/-- Body of `cover_2d_2d` (`algorithm/core/detail/cover.h:109-117`). -/
def cover2d2dActs (in1 in2 : InPolicy R) (outp : OutPolicy R) (value1 value2 : List R)
    (i : Nat) : Option (List (Cell R → Cell R)) := do
  if !(← in1.isNoData value1 i) then some [storeAct (← value1[i]?)]
  else if !(← in2.isNoData value2 i) then some [storeAct (← value2[i]?)]
  else some [outp.mark]

/-- `cover(2d, 0d)` (`algorithm/core/detail/cover.h:53-83`, dispatch 196-267). -/
def cover2d0d (in1 in2 : InPolicy R) (outp : OutPolicy R) (vs1 : Nat × Nat) (value1 : List R)
    (value2 : R) (rs : Nat × Nat) : Option (ElemLoop (Cell R)) := do
  assertSame vs1 rs
  some (.d2 rs.1 rs.2 rs.2 (cover2d0dActs in1 in2 outp value1 value2))

/-- `cover(2d, 2d)` (`algorithm/core/detail/cover.h:92-122`, dispatch 290-365). -/
def cover2d2d (in1 in2 : InPolicy R) (outp : OutPolicy R) (vs1 : Nat × Nat) (value1 : List R)
    (vs2 : Nat × Nat) (value2 : List R) (rs : Nat × Nat) : Option (ElemLoop (Cell R)) := do
  assertSame vs1 rs
  assertSame vs2 rs
  some (.d2 rs.1 rs.2 rs.2 (cover2d2dActs in1 in2 outp value1 value2))

/-! ### if-then -/

/-- `if_then_0d_0d` (`algorithm/core/detail/if.h:28-42`). -/
def ifThen0d0d (inC : InPolicy Bool) (inT : InPolicy R) (outp : OutPolicy R) (cond : Bool) (tv : R)
    (result : Cell R) : Option (Cell R) :=
  run0d (do
    if !(← inC.isNoData0 cond) then
      if cond then
        if !(← inT.isNoData0 tv) then some [storeAct tv] else some [outp.mark]
      else some [outp.mark]
    else some [outp.mark]) result

/-- Body of `if_then_0d_2d` (`algorithm/core/detail/if.h:61-104`); `go` is
`!is_no_data() && get(condition)`, evaluated before the loop. -/
def ifThen0d2dActs (go : Bool) (inT : InPolicy R) (outp : OutPolicy R) (tv : List R) (i : Nat) :
    Option (List (Cell R → Cell R)) := do
  if go then
    if !(← inT.isNoData tv i) then some [storeAct (← tv[i]?)] else some [outp.mark]
  else some [outp.mark]

/-- Body of `if_then_2d_0d` (`algorithm/core/detail/if.h:124-164`). -/
def ifThen2d0dActs (inC : InPolicy Bool) (ndT : Bool) (outp : OutPolicy R) (cond : List Bool)
    (tv : R) (i : Nat) : Option (List (Cell R → Cell R)) := do
  if ndT then some [outp.mark]
  else
    if !(← inC.isNoData cond i) then
      if ← cond[i]? then some [storeAct tv] else some [outp.mark]
    else some [outp.mark]

/-- Body of `if_then_2d_2d` (`algorithm/core/detail/if.h:191-198`). -/
def ifThen2d2dActs (inC : InPolicy Bool) (inT : InPolicy R) (outp : OutPolicy R) (cond : List Bool)
    (tv : List R) (i : Nat) : Option (List (Cell R → Cell R)) := do
  if !(← inC.isNoData cond i) then
    if ← cond[i]? then
      if !(← inT.isNoData tv i) then some [storeAct (← tv[i]?)] else some [outp.mark]
    else some [outp.mark]
  else some [outp.mark]

/-- `if(0d, 2d)` (`algorithm/core/detail/if.h:51-105`, dispatch 1678-1765). -/
def ifThen0d2d (inC : InPolicy Bool) (inT : InPolicy R) (outp : OutPolicy R) (cond : Bool)
    (ts : Nat × Nat) (tv : List R) (rs : Nat × Nat) : Option (ElemLoop (Cell R)) := do
  assertSame rs ts
  let ndC ← inC.isNoData0 cond
  some (.d2 rs.1 rs.2 rs.2 (ifThen0d2dActs (!ndC && cond) inT outp tv))

/-- `if(2d, 0d)` (`algorithm/core/detail/if.h:114-165`, dispatch 1773-1860). -/
def ifThen2d0d (inC : InPolicy Bool) (inT : InPolicy R) (outp : OutPolicy R) (cs : Nat × Nat)
    (cond : List Bool) (tv : R) (rs : Nat × Nat) : Option (ElemLoop (Cell R)) := do
  assertSame rs cs
  let ndT ← inT.isNoData0 tv
  some (.d2 cs.1 cs.2 rs.2 (ifThen2d0dActs inC ndT outp cond tv))

/-- `if(2d, 2d)` (`algorithm/core/detail/if.h:174-203`, dispatch 1972-2064). -/
def ifThen2d2d (inC : InPolicy Bool) (inT : InPolicy R) (outp : OutPolicy R) (cs : Nat × Nat)
    (cond : List Bool) (ts : Nat × Nat) (tv : List R) (rs : Nat × Nat) :
    Option (ElemLoop (Cell R)) := do
  assertSame ts cs
  assertSame rs cs
  some (.d2 cs.1 cs.2 rs.2 (ifThen2d2dActs inC inT outp cond tv))

/-! ### if-then-else -/

/-- `if_then_else_0d_0d_0d` (`algorithm/core/detail/if.h:213-240`). -/
def ifThenElse0d0d0d (inC : InPolicy Bool) (inT inF : InPolicy R) (outp : OutPolicy R)
    (cond : Bool) (tv fv : R) (result : Cell R) : Option (Cell R) :=
  run0d (do
    if ← inC.isNoData0 cond then some [outp.mark]
    else if cond then
      if ← inT.isNoData0 tv then some [outp.mark] else some [storeAct tv]
    else
      if ← inF.isNoData0 fv then some [outp.mark] else some [storeAct fv]) result

/-- Body of `if_then_else_1d_0d_0d` (`algorithm/core/detail/if.h:259-325`) and of
`if_then_else_2d_0d_0d` (1061-1164). `ndT`, `ndF` are tested before the loops. -/
def ifThenElseA00Acts (inC : InPolicy Bool) (ndT ndF : Bool) (outp : OutPolicy R)
    (cond : List Bool) (tv fv : R) (i : Nat) : Option (List (Cell R → Cell R)) := do
  if ndT then
    if ndF then some [outp.mark]
    else
      if ← inC.isNoData cond i then some [outp.mark]
      else if ← cond[i]? then some [outp.mark]
      else some [storeAct fv]
  else
    if ndF then
      if ← inC.isNoData cond i then some [outp.mark]
      else if !(← cond[i]?) then some [outp.mark]
      else some [storeAct tv]
    else
      if ← inC.isNoData cond i then some [outp.mark]
      else if ← cond[i]? then some [storeAct tv]
      else some [storeAct fv]

/-- Body of `if_then_else_1d_1d_0d` (`algorithm/core/detail/if.h:345-388`) and of
`if_then_else_2d_2d_0d` (891-952). -/
def ifThenElseAA0Acts (inC : InPolicy Bool) (inT : InPolicy R) (ndF : Bool) (outp : OutPolicy R)
    (cond : List Bool) (tv : List R) (fv : R) (i : Nat) : Option (List (Cell R → Cell R)) := do
  if ndF then
    if ← inC.isNoData cond i then some [outp.mark]
    else if !(← cond[i]?) then some [outp.mark]
    else if ← inT.isNoData tv i then some [outp.mark]
    else some [storeAct (← tv[i]?)]
  else
    if ← inC.isNoData cond i then some [outp.mark]
    else if ← cond[i]? then
      if ← inT.isNoData tv i then some [outp.mark] else some [storeAct (← tv[i]?)]
    else some [storeAct fv]

/-- Body of `if_then_else_1d_0d_1d` (`algorithm/core/detail/if.h:408-451`) and of
`if_then_else_2d_0d_2d` (974-1039). -/
def ifThenElseA0AActs (inC : InPolicy Bool) (ndT : Bool) (inF : InPolicy R) (outp : OutPolicy R)
    (cond : List Bool) (tv : R) (fv : List R) (i : Nat) : Option (List (Cell R → Cell R)) := do
  if ndT then
    if ← inC.isNoData cond i then some [outp.mark]
    else if ← cond[i]? then some [outp.mark]
    else if ← inF.isNoData fv i then some [outp.mark]
    else some [storeAct (← fv[i]?)]
  else
    if ← inC.isNoData cond i then some [outp.mark]
    else if ← cond[i]? then some [storeAct tv]
    else if ← inF.isNoData fv i then some [outp.mark]
    else some [storeAct (← fv[i]?)]

/-- Body of `if_then_else_1d_1d_1d` (`algorithm/core/detail/if.h:473-493`) and of
`if_then_else_2d_2d_2d` (845-865). -/
def ifThenElseAAAActs (inC : InPolicy Bool) (inT inF : InPolicy R) (outp : OutPolicy R)
    (cond : List Bool) (tv fv : List R) (i : Nat) : Option (List (Cell R → Cell R)) := do
  if ← inC.isNoData cond i then some [outp.mark]
  else if ← cond[i]? then
    if ← inT.isNoData tv i then some [outp.mark] else some [storeAct (← tv[i]?)]
  else
    if ← inF.isNoData fv i then some [outp.mark] else some [storeAct (← fv[i]?)]

/-- Body of `if_then_else_0d_2d_2d` (`algorithm/core/detail/if.h:517-583`). -/
def ifThenElse0AAActs (ndC cond : Bool) (inT inF : InPolicy R) (outp : OutPolicy R)
    (tv fv : List R) (i : Nat) : Option (List (Cell R → Cell R)) := do
  if ndC then some [outp.mark]
  else if cond then
    if ← inT.isNoData tv i then some [outp.mark] else some [storeAct (← tv[i]?)]
  else
    if ← inF.isNoData fv i then some [outp.mark] else some [storeAct (← fv[i]?)]

/-- Body of `if_then_else_0d_0d_2d` (`algorithm/core/detail/if.h:605-699`). -/
def ifThenElse00AActs (ndC cond ndT : Bool) (inF : InPolicy R) (outp : OutPolicy R)
    (tv : R) (fv : List R) (i : Nat) : Option (List (Cell R → Cell R)) := do
  if ndC then some [outp.mark]
  else if cond then
    if ndT then some [outp.mark] else some [storeAct tv]
  else
    if ← inF.isNoData fv i then some [outp.mark] else some [storeAct (← fv[i]?)]

/-- Body of `if_then_else_0d_2d_0d` (`algorithm/core/detail/if.h:721-816`). -/
def ifThenElse0A0Acts (ndC cond : Bool) (inT : InPolicy R) (ndF : Bool) (outp : OutPolicy R)
    (tv : List R) (fv : R) (i : Nat) : Option (List (Cell R → Cell R)) := do
  if ndC then some [outp.mark]
  else if cond then
    if ← inT.isNoData tv i then some [outp.mark] else some [storeAct (← tv[i]?)]
  else
    if ndF then some [outp.mark] else some [storeAct fv]

/-- `if(1d, 0d, 0d)`, parallel (`algorithm/core/detail/if.h:1319-1369`). -/
def ifThenElse1d0d0dPar (inC : InPolicy Bool) (inT inF : InPolicy R) (outp : OutPolicy R)
    (cond : List Bool) (tv fv : R) (resultSize : Nat) : Option (ElemLoop (Cell R)) := do
  assert' (resultSize == cond.length)
  let ndT ← inT.isNoData0 tv
  let ndF ← inF.isNoData0 fv
  some (.d1 cond.length (ifThenElseA00Acts inC ndT ndF outp cond tv fv))

/-- `if(1d, 0d, 0d)`, sequential (`algorithm/core/detail/if.h:1279-1311`). Line 1302 asserts that the
size of the scalar `true_value`, which is 1 (`core/data_customization_point/scalar.h:50-56`), equals
the size of the condition. -/
def ifThenElse1d0d0dSeq (inC : InPolicy Bool) (inT inF : InPolicy R) (outp : OutPolicy R)
    (cond : List Bool) (tv fv : R) : Option (ElemLoop (Cell R)) := do
  assert' (1 == cond.length)
  let ndT ← inT.isNoData0 tv
  let ndF ← inF.isNoData0 fv
  some (.d1 cond.length (ifThenElseA00Acts inC ndT ndF outp cond tv fv))

/-- `if(1d, 1d, 0d)` (`algorithm/core/detail/if.h:336-389`, dispatch 1377-1469). -/
def ifThenElse1d1d0d (inC : InPolicy Bool) (inT inF : InPolicy R) (outp : OutPolicy R)
    (cond : List Bool) (tv : List R) (fv : R) (resultSize : Nat) : Option (ElemLoop (Cell R)) := do
  assert' (tv.length == cond.length)
  assert' (resultSize == cond.length)
  let ndF ← inF.isNoData0 fv
  some (.d1 cond.length (ifThenElseAA0Acts inC inT ndF outp cond tv fv))

/-- `if(1d, 0d, 1d)` (`algorithm/core/detail/if.h:399-452`, dispatch 1477-1569). -/
def ifThenElse1d0d1d (inC : InPolicy Bool) (inT inF : InPolicy R) (outp : OutPolicy R)
    (cond : List Bool) (tv : R) (fv : List R) (resultSize : Nat) : Option (ElemLoop (Cell R)) := do
  assert' (fv.length == cond.length)
  assert' (resultSize == cond.length)
  let ndT ← inT.isNoData0 tv
  some (.d1 cond.length (ifThenElseA0AActs inC ndT inF outp cond tv fv))

/-- `if(1d, 1d, 1d)` (`algorithm/core/detail/if.h:462-496`, dispatch 1577-1670). -/
def ifThenElse1d1d1d (inC : InPolicy Bool) (inT inF : InPolicy R) (outp : OutPolicy R)
    (cond : List Bool) (tv fv : List R) (resultSize : Nat) : Option (ElemLoop (Cell R)) := do
  assert' (tv.length == cond.length)
  assert' (fv.length == cond.length)
  assert' (resultSize == cond.length)
  some (.d1 cond.length (ifThenElseAAAActs inC inT inF outp cond tv fv))

/-- `if(2d, 0d, 0d)` (`algorithm/core/detail/if.h:1050-1165`, dispatch 1869-1964). -/
def ifThenElse2d0d0d (inC : InPolicy Bool) (inT inF : InPolicy R) (outp : OutPolicy R)
    (cs : Nat × Nat) (cond : List Bool) (tv fv : R) (rs : Nat × Nat) :
    Option (ElemLoop (Cell R)) := do
  assertSame rs cs
  let ndT ← inT.isNoData0 tv
  let ndF ← inF.isNoData0 fv
  some (.d2 cs.1 cs.2 rs.2 (ifThenElseA00Acts inC ndT ndF outp cond tv fv))

/-- `if(2d, 2d, 0d)` (`algorithm/core/detail/if.h:880-953`, dispatch 2500-2600). -/
def ifThenElse2d2d0d (inC : InPolicy Bool) (inT inF : InPolicy R) (outp : OutPolicy R)
    (cs : Nat × Nat) (cond : List Bool) (ts : Nat × Nat) (tv : List R) (fv : R) (rs : Nat × Nat) :
    Option (ElemLoop (Cell R)) := do
  assertSame ts cs
  assertSame rs cs
  let ndF ← inF.isNoData0 fv
  some (.d2 cs.1 cs.2 rs.2 (ifThenElseAA0Acts inC inT ndF outp cond tv fv))

/-- `if(2d, 0d, 2d)` (`algorithm/core/detail/if.h:963-1040`, dispatch 2608-2708). -/
def ifThenElse2d0d2d (inC : InPolicy Bool) (inT inF : InPolicy R) (outp : OutPolicy R)
    (cs : Nat × Nat) (cond : List Bool) (tv : R) (fs : Nat × Nat) (fv : List R) (rs : Nat × Nat) :
    Option (ElemLoop (Cell R)) := do
  assertSame fs cs
  assertSame rs cs
  let ndT ← inT.isNoData0 tv
  some (.d2 cs.1 cs.2 rs.2 (ifThenElseA0AActs inC ndT inF outp cond tv fv))

/-- `if(2d, 2d, 2d)` (`algorithm/core/detail/if.h:827-870`, dispatch 2388-2492). -/
def ifThenElse2d2d2d (inC : InPolicy Bool) (inT inF : InPolicy R) (outp : OutPolicy R)
    (cs : Nat × Nat) (cond : List Bool) (ts : Nat × Nat) (tv : List R) (fs : Nat × Nat)
    (fv : List R) (rs : Nat × Nat) : Option (ElemLoop (Cell R)) := do
  assertSame ts cs
  assertSame fs cs
  assertSame rs cs
  some (.d2 cs.1 cs.2 rs.2 (ifThenElseAAAActs inC inT inF outp cond tv fv))

/-- `if(0d, 2d, 2d)` (`algorithm/core/detail/if.h:506-584`, dispatch 2280-2380). -/
def ifThenElse0d2d2d (inC : InPolicy Bool) (inT inF : InPolicy R) (outp : OutPolicy R)
    (cond : Bool) (ts : Nat × Nat) (tv : List R) (fs : Nat × Nat) (fv : List R) (rs : Nat × Nat) :
    Option (ElemLoop (Cell R)) := do
  assertSame ts rs
  assertSame fs rs
  let ndC ← inC.isNoData0 cond
  some (.d2 rs.1 rs.2 rs.2 (ifThenElse0AAActs ndC cond inT inF outp tv fv))

/-- `if(0d, 0d, 2d)` (`algorithm/core/detail/if.h:594-700`, dispatch 2176-2272). -/
def ifThenElse0d0d2d (inC : InPolicy Bool) (inT inF : InPolicy R) (outp : OutPolicy R)
    (cond : Bool) (tv : R) (fs : Nat × Nat) (fv : List R) (rs : Nat × Nat) :
    Option (ElemLoop (Cell R)) := do
  assertSame fs rs
  let ndC ← inC.isNoData0 cond
  let ndT ← inT.isNoData0 tv
  some (.d2 rs.1 rs.2 rs.2 (ifThenElse00AActs ndC cond ndT inF outp tv fv))

/-- `if(0d, 2d, 0d)` (`algorithm/core/detail/if.h:710-817`, dispatch 2072-2168). -/
def ifThenElse0d2d0d (inC : InPolicy Bool) (inT inF : InPolicy R) (outp : OutPolicy R)
    (cond : Bool) (ts : Nat × Nat) (tv : List R) (fv : R) (rs : Nat × Nat) :
    Option (ElemLoop (Cell R)) := do
  assertSame ts rs
  let ndC ← inC.isNoData0 cond
  let ndF ← inF.isNoData0 fv
  some (.d2 rs.1 rs.2 rs.2 (ifThenElse0A0Acts ndC cond inT ndF outp tv fv))

/-! ### unite, intersect and merge no-data -/

variable {V1 V2 : Type}

/-- Body of `unite_no_data_2d_2d` (`algorithm/core/detail/unite_no_data.h:64-67`). -/
def uniteActs (in1 : InPolicy V1) (in2 : InPolicy V2) (outp : OutPolicy R) (value1 : List V1)
    (value2 : List V2) (i : Nat) : Option (List (Cell R → Cell R)) := do
  if ← in1.isNoData value1 i then some [outp.mark]
  else if ← in2.isNoData value2 i then some [outp.mark]
  else some []

/-- Body of `intersect_no_data_2d_2d` (`algorithm/core/detail/intersect_no_data.h:65-68`). -/
def intersectActs (in1 : InPolicy V1) (in2 : InPolicy V2) (outp : OutPolicy R) (value1 : List V1)
    (value2 : List V2) (i : Nat) : Option (List (Cell R → Cell R)) := do
  if ← in1.isNoData value1 i then
    if ← in2.isNoData value2 i then some [outp.mark] else some []
  else some []

/-- Body of `merge_no_data_2d` (`algorithm/core/detail/merge_no_data.h:59-61`). -/
def mergeActs (inp : InPolicy V1) (outp : OutPolicy R) (value : List V1) (i : Nat) :
    Option (List (Cell R → Cell R)) := do
  if ← inp.isNoData value i then some [outp.mark] else some []

/-- `unite_no_data(0d, 0d)` (`algorithm/core/detail/unite_no_data.h:27-38`). -/
def unite0d (in1 : InPolicy V1) (in2 : InPolicy V2) (outp : OutPolicy R) (value1 : V1)
    (value2 : V2) (result : Cell R) : Option (Cell R) :=
  run0d (uniteActs in1 in2 outp [value1] [value2] 0) result

/-- `intersect_no_data(0d, 0d)` (`algorithm/core/detail/intersect_no_data.h:28-39`). -/
def intersect0d (in1 : InPolicy V1) (in2 : InPolicy V2) (outp : OutPolicy R) (value1 : V1)
    (value2 : V2) (result : Cell R) : Option (Cell R) :=
  run0d (intersectActs in1 in2 outp [value1] [value2] 0) result

/-- `merge_no_data(0d)` (`algorithm/core/detail/merge_no_data.h:26-35`). -/
def merge0d (inp : InPolicy V1) (outp : OutPolicy R) (value : V1) (result : Cell R) :
    Option (Cell R) :=
  run0d (mergeActs inp outp [value] 0) result

/-- `unite_no_data(2d, 2d)` (`algorithm/core/detail/unite_no_data.h:47-72`, dispatch 133-215). -/
def unite2d (in1 : InPolicy V1) (in2 : InPolicy V2) (outp : OutPolicy R) (vs1 : Nat × Nat)
    (value1 : List V1) (vs2 : Nat × Nat) (value2 : List V2) (rs : Nat × Nat) :
    Option (ElemLoop (Cell R)) := do
  assertSame vs1 rs
  assertSame vs2 rs
  some (.d2 rs.1 rs.2 rs.2 (uniteActs in1 in2 outp value1 value2))

/-- `intersect_no_data(2d, 2d)` (`algorithm/core/detail/intersect_no_data.h:48-73`, dispatch). -/
def intersect2d (in1 : InPolicy V1) (in2 : InPolicy V2) (outp : OutPolicy R) (vs1 : Nat × Nat)
    (value1 : List V1) (vs2 : Nat × Nat) (value2 : List V2) (rs : Nat × Nat) :
    Option (ElemLoop (Cell R)) := do
  assertSame vs1 rs
  assertSame vs2 rs
  some (.d2 rs.1 rs.2 rs.2 (intersectActs in1 in2 outp value1 value2))

/-- `merge_no_data(2d)` (`algorithm/core/detail/merge_no_data.h:44-66`, dispatch). -/
def merge2d (inp : InPolicy V1) (outp : OutPolicy R) (vs : Nat × Nat) (value : List V1)
    (rs : Nat × Nat) : Option (ElemLoop (Cell R)) := do
  assertSame vs rs
  some (.d2 rs.1 rs.2 rs.2 (mergeActs inp outp value))

end Fern
