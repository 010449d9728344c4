import Verif.Model.Outcomes
import Verif.Props.InPlace
import Verif.Props.Boole
import Verif.Props.Convolve
/-
Algorithms that consist of steps: each step has one outcome, whatever the execution policy.
-/
namespace Fern

open Spec

variable {α β V V1 V2 W A R : Type}

/-- There is one outcome. -/
def Gives (m : Outcomes α) (a : α) : Prop := ∀ o, m o ↔ o = some a

/-- A pool of threads has threads. -/
def Execution.Ok : Execution → Prop
  | .sequential => True
  | .parallel t => 1 ≤ t

theorem Gives.one {o : Option α} {a : α} (h : o = some a) : Gives (.one o) a := by
  intro o'; rw [Outcomes.one, h]

theorem Gives.andThen {m : Outcomes α} {f : α → Outcomes β} {a : α} {b : β} (h : Gives m a)
    (hf : Gives (f a) b) : Gives (m.andThen f) b := by
  intro o
  constructor
  · rintro (⟨h1, _⟩ | ⟨a', h1, h2⟩)
    · exact absurd ((h none).1 h1) (by simp)
    · have := (h _).1 h1
      cases this
      exact (hf o).1 h2
  · intro ho
    exact .inr ⟨a, (h _).2 rfl, (hf o).2 ho⟩

/-- All outcomes fail. -/
theorem fails_andThen {m : Outcomes α} {f : α → Outcomes β} (h : ∀ o, m o ↔ o = none) :
    ∀ o, m.andThen f o ↔ o = none := by
  intro o
  constructor
  · rintro (⟨_, h1⟩ | ⟨a', h1, _⟩)
    · exact h1
    · exact absurd ((h _).1 h1) (by simp)
  · intro ho
    exact .inl ⟨(h none).2 rfl, ho⟩

theorem fails_then {m : Outcomes α} {f : α → Outcomes β} {a : α} (h : Gives m a)
    (hf : ∀ o, f a o ↔ o = none) : ∀ o, m.andThen f o ↔ o = none := by
  intro o
  constructor
  · rintro (⟨h1, _⟩ | ⟨a', h1, h2⟩)
    · exact absurd ((h none).1 h1) (by simp)
    · have := (h _).1 h1
      cases this
      exact (hf o).1 h2
  · intro ho
    exact .inr ⟨a, (h _).2 rfl, (hf o).2 ho⟩

theorem gives_convolve (ops : ConvolveOps V W A R) {a : ConvolveArgs V W} (keep : Bool)
    (outp : OutPolicy R) (ha : ArgsOk a) {res : List (Cell R)} (hres : res.length = a.rows * a.cols) :
    ∃ out, (∀ m : Execution, m.Ok →
        Gives (convolveRun m ops a (skipPolicy V keep) outp (a.rows, a.cols) res) out) ∧
      out.length = res.length ∧
      ∀ i < a.rows, ∀ j < a.cols, ∃ c c', res[i * a.cols + j]? = some c ∧
        out[i * a.cols + j]? = some c' ∧
        ConvolvedCell ops outp (keep = true ∧ NoDataAt a.noData a.source (i * a.cols + j))
          ((neighbourhood a i j).filter (fun vw => ops.nonZero vw.2)) c c' := by
  obtain ⟨out, h1, h2, h3, h4⟩ := C53_skip ops keep outp ha hres
  refine ⟨out, fun m hm => ?_, h2, h3⟩
  cases m with
  | sequential => exact Gives.one h1
  | parallel t => exact h4 t hm

theorem gives_unary (op : LocalOp V R) (inp : InPolicy V) (outp : OutPolicy R) (n1 n2 : Nat)
    (value : List V) (result : List (Cell R)) (hv : value.length = n1 * n2)
    (hr : result.length = n1 * n2) (hp : PolicyFor inp (n1 * n2)) :
    ∃ out, (∀ m : Execution, m.Ok →
        Gives (unaryRun m op inp outp (n1, n2) value (n1, n2) result) out) ∧
      Elementwise (fun i c c' => ∀ v, value[i]? = some v →
        LocalCell op outp (NoDataAt inp value i) v c c') result out := by
  obtain ⟨out, h1, h2⟩ := C09_unary_2d op inp outp n1 n2 value result hv hr hp
  refine ⟨out, fun m hm => ?_, h2⟩
  cases m with
  | sequential => exact Gives.one h1
  | parallel t =>
    intro o
    exact (C04_unary_2d op inp outp n1 n2 value result hv hr hp t hm o).trans (by rw [h1])

theorem gives_binary (op : LocalOp (V1 × V2) R) (in1 : InPolicy V1) (in2 : InPolicy V2)
    (outp : OutPolicy R) (n1 n2 : Nat) (value1 : List V1) (value2 : List V2)
    (result : List (Cell R)) (hv1 : value1.length = n1 * n2) (hv2 : value2.length = n1 * n2)
    (hr : result.length = n1 * n2) (h1 : PolicyFor in1 (n1 * n2)) (h2 : PolicyFor in2 (n1 * n2)) :
    ∃ out, (∀ m : Execution, m.Ok → Gives (binaryRun m op in1 in2 outp (n1, n2) value1 (n1, n2) value2
        (n1, n2) result) out) ∧
      Elementwise (fun i c c' => ∀ v1 v2, value1[i]? = some v1 → value2[i]? = some v2 →
        LocalCell op outp (NoDataAt in1 value1 i ∨ NoDataAt in2 value2 i) (v1, v2) c c')
        result out := by
  obtain ⟨out, e1, e2⟩ := C10_binary_2d2d op in1 in2 outp n1 n2 value1 value2 result hv1 hv2 hr h1 h2
  refine ⟨out, fun m hm => ?_, e2⟩
  cases m with
  | sequential => exact Gives.one e1
  | parallel t =>
    intro o
    exact (C04_binary_2d2d op in1 in2 outp n1 n2 value1 value2 result hv1 hv2 hr h1 h2 t hm o).trans
      (by rw [e1])

theorem gives_binary_0d2d (op : LocalOp (V1 × V2) R) (in1 : InPolicy V1) (in2 : InPolicy V2)
    (outp : OutPolicy R) (n1 n2 : Nat) (v1 : V1) (value2 : List V2)
    (result : List (Cell R)) (hv2 : value2.length = n1 * n2)
    (hr : result.length = n1 * n2) (h1 : PolicyFor in1 1) (h2 : PolicyFor in2 (n1 * n2)) :
    ∃ out, (∀ m : Execution, m.Ok → Gives (binary0d2dRun m op in1 in2 outp v1 (n1, n2) value2
        (n1, n2) result) out) ∧
      Elementwise (fun i c c' => ∀ v2, value2[i]? = some v2 →
        LocalCell op outp (NoDataAt in1 [v1] 0 ∨ NoDataAt in2 value2 i) (v1, v2) c c')
        result out := by
  obtain ⟨out, e1, e2⟩ := C10_binary_0d2d op in1 in2 outp n1 n2 v1 value2 result hv2 hr h1 h2
  refine ⟨out, fun m hm => ?_, e2⟩
  cases m with
  | sequential => exact Gives.one e1
  | parallel t =>
    intro o
    exact (C04_binary_0d2d op in1 in2 outp n1 n2 v1 value2 result hv2 hr h1 h2 t hm o).trans
      (by rw [e1])

theorem gives_defined (inp : InPolicy V) (value : List V) (n1 n2 : Nat) (result : List (Cell Int))
    (hv : value.length = n1 * n2) (hr : result.length = n1 * n2) (hp : PolicyFor inp (n1 * n2)) :
    ∃ out, (∀ m : Execution, m.Ok → Gives (definedRun m inp value (n1, n2) result) out) ∧
      Elementwise (fun i => DefinedCell (NoDataAt inp value i)) result out := by
  obtain ⟨out, e1, e2⟩ := C17_defined_2d inp value n1 n2 result hv hr hp
  refine ⟨out, fun m hm => ?_, e2⟩
  cases m with
  | sequential => exact Gives.one e1
  | parallel t =>
    intro o
    exact (C17_defined_2d_parallel inp value n1 n2 result hv hr hp t hm o).trans (by rw [e1])

theorem gives_own_binary (op : LocalOp (V × V) V) {p1 p2 : OperandPolicy V} (outp : OutPolicy V)
    {x1 x2 : Operand V} (n1 n2 : Nat) (hp1 : OperandPolicyOk (n1 * n2) p1)
    (hp2 : OperandPolicyOk (n1 * n2) p2) (hx1 : OperandOk (n1 * n2) x1)
    (hx2 : OperandOk (n1 * n2) x2) (result : List (Cell V)) (hr : result.length = n1 * n2)
    (ha : RangeAfter op x1 x2) :
    ∃ out, (∀ m : Execution, m.Ok →
        Gives (ownRun m (ownBinaryActs op p1 p2 outp x1 x2) (n1, n2) result) out) ∧
      Elementwise (fun i c c' => ∀ v1 v2, ValueBefore x1 result i v1 → ValueBefore x2 result i v2 →
        LocalCell op outp (NoDataBefore p1 result i ∨ NoDataBefore p2 result i) (v1, v2) c c')
        result out := by
  obtain ⟨out, e1, e2, e3⟩ := C73_binary_2d op outp n1 n2 hp1 hp2 hx1 hx2 result hr ha
  refine ⟨out, fun m hm => ?_, e2⟩
  cases m with
  | sequential => exact Gives.one e1
  | parallel t => exact e3 t hm

theorem gives_own_unary (op : LocalOp V V) {p : OperandPolicy V} (outp : OutPolicy V)
    {x : Operand V} (n1 n2 : Nat) (hp : OperandPolicyOk (n1 * n2) p) (hx : OperandOk (n1 * n2) x)
    (result : List (Cell V)) (hr : result.length = n1 * n2) (ha : RangeAfterUnary op x) :
    ∃ out, (∀ m : Execution, m.Ok →
        Gives (ownRun m (ownUnaryActs op p outp x) (n1, n2) result) out) ∧
      Elementwise (fun i c c' => ∀ v, ValueBefore x result i v →
        LocalCell op outp (NoDataBefore p result i) v c c') result out := by
  obtain ⟨out, e1, e2, e3⟩ := C73_unary_2d op outp n1 n2 hp hx result hr ha
  refine ⟨out, fun m hm => ?_, e2⟩
  cases m with
  | sequential => exact Gives.one e1
  | parallel t => exact e3 t hm

/-- A policy that is bound to an array says the same whatever array it is used with. -/
theorem noDataAt_boundTo (p : InPolicy V) (values : List V) (other : List V) (i : Nat) :
    NoDataAt (p.boundTo values) other i ↔ NoDataAt p values i := by
  cases p with
  | skip => exact Iff.rfl
  | all => exact Iff.rfl
  | byMask mask marker => exact Iff.rfl
  | detect isNd =>
    simp only [InPolicy.boundTo, NoDataAt, List.getElem?_map]
    cases h : values[i]? with
    | none => simp
    | some v => cases hn : isNd v <;> simp [hn]

theorem policyFor_boundTo {p : InPolicy V} {values : List V} {n : Nat} (h : PolicyFor p n)
    (hv : values.length = n) : PolicyFor (p.boundTo values) n := by
  cases p with
  | skip => trivial
  | all => trivial
  | byMask mask marker => exact h
  | detect isNd => simpa [InPolicy.boundTo, PolicyFor] using hv

theorem noDataAt_cellMaskPolicy (cells : List (Cell R)) (vals : List R) (i : Nat) :
    NoDataAt (cellMaskPolicy cells) vals i ↔ ∃ c, cells[i]? = some c ∧ c.masked = true := by
  simp only [cellMaskPolicy, NoDataAt, List.getElem?_map]
  cases h : cells[i]? with
  | none => simp
  | some c => cases hm : c.masked <;> simp [hm]

theorem policyFor_cellMaskPolicy (cells : List (Cell R)) : PolicyFor (cellMaskPolicy cells) cells.length := by
  simp [cellMaskPolicy, PolicyFor]

end Fern
