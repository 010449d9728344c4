import Verif.Lemmas.LocalOps
import Verif.Lemmas.Offset
import Verif.Spec.Convolve
/-
The regions of a convolution: loops in closed form, and the partition of the image.
-/
namespace Fern

open Spec

variable {V W A R : Type}

/-! Loops with carried variables. -/

theorem carryLoop_eq {σ β : Type} {next : σ → σ} {body : Nat → σ → Option (List β)}
    {f : Nat → Option (List β)} {inv : Nat → σ} (k i : Nat)
    (hn : ∀ j, i ≤ j → j < i + k → next (inv j) = inv (j + 1))
    (hb : ∀ j, i ≤ j → j < i + k → body j (inv j) = f j) :
    carryLoop next body k i (inv i) = ((List.range' i k).mapM f).map List.flatten := by
  induction k generalizing i with
  | zero => rfl
  | succ k ih =>
    rw [carryLoop, hb i (by omega) (by omega), hn i (by omega) (by omega),
      ih (i + 1) (fun j h1 h2 => hn j (by omega) (by omega))
        (fun j h1 h2 => hb j (by omega) (by omega)), List.range'_succ, List.mapM_cons]
    cases f i with
    | none => rfl
    | some l =>
      cases (List.range' (i + 1) k).mapM f with
      | none => rfl
      | some ls => rfl

theorem carryFor_eq {σ β : Type} {next : σ → σ} {body : Nat → σ → Option (List β)}
    {first last : Nat} {s : σ} (f : Nat → Option (List β)) (inv : Nat → σ) (hs : s = inv first)
    (hn : ∀ j, first ≤ j → j < last → next (inv j) = inv (j + 1))
    (hb : ∀ j, first ≤ j → j < last → body j (inv j) = f j) :
    carryFor first last s next body =
      ((List.range' first (last - first)).mapM f).map List.flatten := by
  subst hs
  exact carryLoop_eq _ _ (fun j h1 h2 => hn j h1 (by omega)) (fun j h1 h2 => hb j h1 (by omega))

theorem mapM_map_flatten {α β : Type} (f : α → Option (List (List β))) (l : List α) :
    (l.mapM (fun i => (f i).map List.flatten)).map List.flatten =
      ((l.mapM f).map List.flatten).map List.flatten := by
  induction l with
  | nil => rfl
  | cons a l ih =>
    rw [List.mapM_cons, List.mapM_cons]
    cases h : f a with
    | none => rfl
    | some x =>
      cases h2 : l.mapM f with
      | none =>
        cases h3 : l.mapM (fun i => (f i).map List.flatten) with
        | none => rfl
        | some y => rw [h2, h3] at ih; simp at ih
      | some y =>
        cases h3 : l.mapM (fun i => (f i).map List.flatten) with
        | none => rw [h2, h3] at ih; simp at ih
        | some z =>
          rw [h2, h3] at ih
          simp only [Option.map_some, Option.some.injEq] at ih
          show some (x.flatten ++ z.flatten) = some ((x ++ y.flatten).flatten)
          rw [ih, List.flatten_append]

theorem mapM_flatMap {α κ β : Type} (g : κ → List α) (f : α → Option β) (l : List κ) :
    (l.flatMap g).mapM f = (l.mapM (fun i => (g i).mapM f)).map List.flatten := by
  induction l with
  | nil => rfl
  | cons a l ih =>
    rw [List.flatMap_cons, List.mapM_append, List.mapM_cons, ih]
    cases (g a).mapM f with
    | none => rfl
    | some x => cases l.mapM (fun i => (g i).mapM f) <;> rfl

theorem taskActs_flatMap {γ κ : Type} (acts : Nat → Option (List (γ → γ))) (g : κ → List Nat)
    (l : List κ) :
    taskActs acts (l.flatMap g) = (l.mapM (fun i => taskActs acts (g i))).map List.flatten := by
  unfold taskActs
  rw [mapM_flatMap, mapM_map_flatten]

/-- A nested loop over rows and columns. -/
theorem region_eq {γ σ τ : Type} {acts : Nat → Option (List (γ → γ))} {n2 : Nat}
    {r0 r1 c0 c1 : Nat} {s : σ} {next : σ → σ} {cs : Nat → σ → τ} {cnext : τ → τ}
    {body : Nat → σ → Nat → τ → Option (List (Act γ))}
    (inv : Nat → σ) (cinv : Nat → Nat → τ)
    (hs : s = inv r0) (hn : ∀ i, r0 ≤ i → i < r1 → next (inv i) = inv (i + 1))
    (hcs : ∀ i, r0 ≤ i → i < r1 → cs i (inv i) = cinv i c0)
    (hcn : ∀ i j, c0 ≤ j → j < c1 → cnext (cinv i j) = cinv i (j + 1))
    (hb : ∀ i j, r0 ≤ i → i < r1 → c0 ≤ j → j < c1 →
      body i (inv i) j (cinv i j) =
        (acts (i * n2 + j)).map (fun fs => fs.map (Act.mk (i * n2 + j)))) :
    carryFor r0 r1 s next (fun i s => carryFor c0 c1 (cs i s) cnext (fun j t => body i s j t)) =
      taskActs acts (cells2d n2 ⟨⟨r0, r1⟩, ⟨c0, c1⟩⟩) := by
  unfold cells2d
  rw [taskActs_flatMap, carryFor_eq (fun i => taskActs acts
    (List.range' (linearIndex n2 i c0) (c1 - c0))) inv hs hn]
  · rfl
  · intro i h1 h2
    rw [carryFor_eq (fun j => (acts (i * n2 + j)).map (fun fs => fs.map (Act.mk (i * n2 + j))))
      (cinv i) (hcs i h1 h2) (fun j h3 h4 => hcn i j h3 h4) (fun j h3 h4 => hb i j h1 h2 h3 h4)]
    unfold taskActs linearIndex
    have : List.range' (i * n2 + c0) (c1 - c0) =
        (List.range' c0 (c1 - c0)).map (fun j => i * n2 + j) := by
      rw [List.map_add_range']
    rw [this]
    congr 1
    rw [List.mapM_map]
    rfl

/-! The regions. -/

local macro "arith_eq" : tactic => `(tactic|
  (simp only [windowAt, Window.mk.injEq, Prod.mk.injEq, ConvolveArgs.kernelSize, linearIndex]
   and_intros <;> first | trivial | rfl | omega))


theorem usub_of_le {a b : Nat} (h : b ≤ a) : usub a b = a - b := if_pos h

/-- What is done for the cell at a position of the image. -/
def cellActs (ops : ConvolveOps V W A R) (a : ConvolveArgs V W) (pol : ConvolvePolicy V)
    (outp : OutPolicy R) (index : Nat) : Option (List (Cell R → Cell R)) :=
  convolveCell ops a pol outp
    (sideAt a.rows a.cols a.radius (index / a.cols) (index % a.cols))
    (windowAt a.rows a.cols a.radius (index / a.cols) (index % a.cols)) index

theorem cellActs_at (ops : ConvolveOps V W A R) (a : ConvolveArgs V W) (pol : ConvolvePolicy V)
    (outp : OutPolicy R) {i j : Nat} (hj : j < a.cols) :
    cellActs ops a pol outp (i * a.cols + j) = convolveCell ops a pol outp
      (sideAt a.rows a.cols a.radius i j) (windowAt a.rows a.cols a.radius i j)
      (i * a.cols + j) := by
  have h1 : (i * a.cols + j) / a.cols = i := by
    rw [Nat.mul_comm, Nat.mul_add_div (by omega), Nat.div_eq_of_lt hj]; rfl
  have h2 : (i * a.cols + j) % a.cols = j := by
    rw [Nat.mul_comm, Nat.mul_add_mod, Nat.mod_eq_of_lt hj]
  unfold cellActs
  rw [h1, h2]

section
variable (ops : ConvolveOps V W A R) (a : ConvolveArgs V W) (pol : ConvolvePolicy V)
  (outp : OutPolicy R)

theorem convolveActs_at {side : Option Side} {w : Window} {i j : Nat} (hj : j < a.cols)
    (hside : sideAt a.rows a.cols a.radius i j = side)
    (hw : windowAt a.rows a.cols a.radius i j = w) :
    convolveActs ops a pol outp side w (i * a.cols + j) =
      (cellActs ops a pol outp (i * a.cols + j)).map
        (fun fs => fs.map (Act.mk (i * a.cols + j))) := by
  rw [cellActs_at ops a pol outp hj, hside, hw]
  rfl

theorem northWestCorner_eq (hr : 2 * a.radius ≤ a.rows) (hc : 2 * a.radius ≤ a.cols) :
    northWestCorner ops a pol outp = taskActs (cellActs ops a pol outp)
      (cells2d a.cols ⟨⟨0, a.radius⟩, ⟨0, a.radius⟩⟩) := by
  unfold northWestCorner
  refine region_eq (fun i => (a.radius - i, a.radius + 1 + i))
    (fun i j => (i * a.cols + j, a.radius - j, a.radius + 1 + j)) ?_ ?_ ?_ ?_ ?_
  · simp
  · intro i _ _; arith_eq
  · intro i _ _; simp [linearIndex]
  · intro i j _ _; arith_eq
  · intro i j _ hi _ hj
    refine convolveActs_at ops a pol outp (by omega) ?_ ?_
    · simp [sideAt, hi, hj]
    · arith_eq

theorem northEastCorner_eq (hr : 2 * a.radius ≤ a.rows) (hc : 2 * a.radius ≤ a.cols) :
    northEastCorner ops a pol outp = taskActs (cellActs ops a pol outp)
      (cells2d a.cols ⟨⟨0, a.radius⟩, ⟨a.cols - a.radius, a.cols⟩⟩) := by
  unfold northEastCorner
  simp only [usub_of_le (show a.radius ≤ a.cols by omega),
    usub_of_le (show a.radius ≤ a.cols - a.radius by omega)]
  refine region_eq (fun i => (a.radius - i, a.radius + 1 + i))
    (fun i j => (i * a.cols + j, j - a.radius, a.cols + a.radius - j)) ?_ ?_ ?_ ?_ ?_
  · simp
  · intro i _ _; arith_eq
  · intro i _ _; arith_eq
  · intro i j _ _; arith_eq
  · intro i j _ hi hj _
    refine convolveActs_at ops a pol outp (by omega) ?_ ?_
    · have h1 : ¬ j < a.radius := by omega
      have h2 : ¬ j + a.radius < a.cols := by omega
      simp [sideAt, hi, h1, h2]
    · arith_eq

theorem southWestCorner_eq (hr : 2 * a.radius ≤ a.rows) (hc : 2 * a.radius ≤ a.cols) :
    southWestCorner ops a pol outp = taskActs (cellActs ops a pol outp)
      (cells2d a.cols ⟨⟨a.rows - a.radius, a.rows⟩, ⟨0, a.radius⟩⟩) := by
  unfold southWestCorner
  simp only [usub_of_le (show a.radius ≤ a.rows by omega),
    usub_of_le (show a.radius ≤ a.rows - a.radius by omega)]
  refine region_eq (fun i => (i - a.radius, a.rows + a.radius - i))
    (fun i j => (i * a.cols + j, a.radius - j, a.radius + 1 + j)) ?_ ?_ ?_ ?_ ?_
  · arith_eq
  · intro i _ _; arith_eq
  · intro i _ _; simp [linearIndex]
  · intro i j _ _; arith_eq
  · intro i j hi _ _ hj
    refine convolveActs_at ops a pol outp (by omega) ?_ ?_
    · have h1 : ¬ i < a.radius := by omega
      have h2 : ¬ i + a.radius < a.rows := by omega
      simp [sideAt, hj, h1, h2]
    · arith_eq

theorem southEastCorner_eq (hr : 2 * a.radius ≤ a.rows) (hc : 2 * a.radius ≤ a.cols) :
    southEastCorner ops a pol outp = taskActs (cellActs ops a pol outp)
      (cells2d a.cols ⟨⟨a.rows - a.radius, a.rows⟩, ⟨a.cols - a.radius, a.cols⟩⟩) := by
  unfold southEastCorner
  simp only [usub_of_le (show a.radius ≤ a.rows by omega),
    usub_of_le (show a.radius ≤ a.rows - a.radius by omega),
    usub_of_le (show a.radius ≤ a.cols by omega),
    usub_of_le (show a.radius ≤ a.cols - a.radius by omega)]
  refine region_eq (fun i => (i - a.radius, a.rows + a.radius - i))
    (fun i j => (i * a.cols + j, j - a.radius, a.cols + a.radius - j)) ?_ ?_ ?_ ?_ ?_
  · arith_eq
  · intro i _ _; arith_eq
  · intro i _ _; arith_eq
  · intro i j _ _; arith_eq
  · intro i j hi _ hj _
    refine convolveActs_at ops a pol outp (by omega) ?_ ?_
    · have h1 : ¬ i < a.radius := by omega
      have h2 : ¬ i + a.radius < a.rows := by omega
      have h3 : ¬ j < a.radius := by omega
      have h4 : ¬ j + a.radius < a.cols := by omega
      simp [sideAt, h1, h2, h3, h4]
    · arith_eq

theorem northSide_eq (hr : 2 * a.radius ≤ a.rows) (hc : 2 * a.radius ≤ a.cols) :
    northSide ops a pol outp = taskActs (cellActs ops a pol outp)
      (cells2d a.cols ⟨⟨0, a.radius⟩, ⟨a.radius, a.cols - a.radius⟩⟩) := by
  unfold northSide
  simp only [usub_of_le (show a.radius ≤ a.cols by omega)]
  refine region_eq (fun i => (a.radius - i, a.radius + 1 + i))
    (fun i j => (i * a.cols + j, j - a.radius)) ?_ ?_ ?_ ?_ ?_
  · simp
  · intro i _ _; arith_eq
  · intro i _ _; arith_eq
  · intro i j _ _; arith_eq
  · intro i j _ hi hj _
    refine convolveActs_at ops a pol outp (by omega) ?_ ?_
    · have h1 : ¬ j < a.radius := by omega
      have h2 : j + a.radius < a.cols := by omega
      simp [sideAt, hi, h1, h2]
    · arith_eq

theorem westSide_eq (hr : 2 * a.radius ≤ a.rows) (hc : 2 * a.radius ≤ a.cols) :
    westSide ops a pol outp = taskActs (cellActs ops a pol outp)
      (cells2d a.cols ⟨⟨a.radius, a.rows - a.radius⟩, ⟨0, a.radius⟩⟩) := by
  unfold westSide
  simp only [usub_of_le (show a.radius ≤ a.rows by omega)]
  refine region_eq (fun i => i - a.radius)
    (fun i j => (i * a.cols + j, a.radius - j, a.radius + 1 + j)) ?_ ?_ ?_ ?_ ?_
  · simp
  · intro i _ _; show i - a.radius + 1 = i + 1 - a.radius; omega
  · intro i _ _; simp [linearIndex]
  · intro i j _ _; arith_eq
  · intro i j hi _ _ hj
    refine convolveActs_at ops a pol outp (by omega) ?_ ?_
    · have h1 : ¬ i < a.radius := by omega
      have h2 : i + a.radius < a.rows := by omega
      simp [sideAt, hj, h1, h2]
    · arith_eq

theorem eastSide_eq (hr : 2 * a.radius ≤ a.rows) (hc : 2 * a.radius ≤ a.cols) :
    eastSide ops a pol outp = taskActs (cellActs ops a pol outp)
      (cells2d a.cols ⟨⟨a.radius, a.rows - a.radius⟩, ⟨a.cols - a.radius, a.cols⟩⟩) := by
  unfold eastSide
  simp only [usub_of_le (show a.radius ≤ a.rows by omega),
    usub_of_le (show a.radius ≤ a.cols by omega),
    usub_of_le (show a.radius ≤ a.cols - a.radius by omega)]
  refine region_eq (fun i => i - a.radius)
    (fun i j => (i * a.cols + j, j - a.radius, a.cols + a.radius - j)) ?_ ?_ ?_ ?_ ?_
  · simp
  · intro i _ _; show i - a.radius + 1 = i + 1 - a.radius; omega
  · intro i _ _; arith_eq
  · intro i j _ _; arith_eq
  · intro i j hi _ hj _
    refine convolveActs_at ops a pol outp (by omega) ?_ ?_
    · have h1 : ¬ i < a.radius := by omega
      have h2 : i + a.radius < a.rows := by omega
      have h3 : ¬ j < a.radius := by omega
      have h4 : ¬ j + a.radius < a.cols := by omega
      simp [sideAt, h1, h2, h3, h4]
    · arith_eq

theorem southSide_eq (hr : 2 * a.radius ≤ a.rows) (hc : 2 * a.radius ≤ a.cols) :
    southSide ops a pol outp = taskActs (cellActs ops a pol outp)
      (cells2d a.cols ⟨⟨a.rows - a.radius, a.rows⟩, ⟨a.radius, a.cols - a.radius⟩⟩) := by
  unfold southSide
  simp only [usub_of_le (show a.radius ≤ a.rows by omega),
    usub_of_le (show a.radius ≤ a.rows - a.radius by omega),
    usub_of_le (show a.radius ≤ a.cols by omega)]
  refine region_eq (fun i => (i - a.radius, a.rows + a.radius - i))
    (fun i j => (i * a.cols + j, j - a.radius)) ?_ ?_ ?_ ?_ ?_
  · arith_eq
  · intro i _ _; arith_eq
  · intro i _ _; arith_eq
  · intro i j _ _; arith_eq
  · intro i j hi _ hj _
    refine convolveActs_at ops a pol outp (by omega) ?_ ?_
    · have h1 : ¬ i < a.radius := by omega
      have h2 : ¬ i + a.radius < a.rows := by omega
      have h3 : ¬ j < a.radius := by omega
      have h4 : j + a.radius < a.cols := by omega
      simp [sideAt, h1, h2, h3, h4]
    · arith_eq

/-- A block of the inner part. -/
theorem innerPart_eq {r : IndexRanges2} (h1 : a.radius ≤ r.rows.b) (h2 : r.rows.e + a.radius ≤ a.rows)
    (h3 : a.radius ≤ r.cols.b) (h4 : r.cols.e + a.radius ≤ a.cols) :
    innerPart ops a pol outp r = taskActs (cellActs ops a pol outp) (cells2d a.cols r) := by
  unfold innerPart
  simp only [usub_of_le h1, usub_of_le h3]
  refine region_eq (fun i => i - a.radius) (fun i j => (i * a.cols + j, j - a.radius)) ?_ ?_ ?_ ?_ ?_
  · simp
  · intro i _ _; show i - a.radius + 1 = i + 1 - a.radius; omega
  · intro i _ _; simp only [linearIndex]
  · intro i j _ _; arith_eq
  · intro i j _ _ _ _
    refine convolveActs_at ops a pol outp (by omega) ?_ ?_
    · have h1 : ¬ i < a.radius := by omega
      have h2 : i + a.radius < a.rows := by omega
      have h3 : ¬ j < a.radius := by omega
      have h4 : j + a.radius < a.cols := by omega
      simp [sideAt, h1, h2, h3, h4]
    · arith_eq

end

end Fern
