import Verif.Lemmas.Select
/-
Property C15: if-then and if-then-else, in all combinations of scalar and array arguments.
-/
namespace Fern

open Spec

variable {R : Type}

/-- C15: `if(0d, 0d)`. -/
theorem C15_ifThen0d0d (inC : InPolicy Bool) (inT : InPolicy R) (outp : OutPolicy R) (cond : Bool)
    (tv : R) (c : Cell R) (hC : (Arg.scalar cond).Fits inC 1) (hT : (Arg.scalar tv).Fits inT 1) :
    ∃ c', ifThen0d0d inC inT outp cond tv c = some c' ∧
      IfThen outp inC inT (.scalar cond) (.scalar tv) 0 c c' := by
  obtain ⟨bC, hbC, hsC⟩ := scalar_at hC
  obtain ⟨bT, hbT, hsT⟩ := scalar_at hT
  cases bC <;> cases cond <;> cases bT <;>
    simp [ifThen0d0d, run0d, IfThen, Take, hbC, hbT, (hsC 0).1, (hsC 0).2, (hsT 0).1, (hsT 0).2,
      become_store, mark_spec]

/-- C15: `if(0d, 0d, 0d)`. -/
theorem C15_ifThenElse0d0d0d (inC : InPolicy Bool) (inT inF : InPolicy R) (outp : OutPolicy R)
    (cond : Bool) (tv fv : R) (c : Cell R) (hC : (Arg.scalar cond).Fits inC 1)
    (hT : (Arg.scalar tv).Fits inT 1) (hF : (Arg.scalar fv).Fits inF 1) :
    ∃ c', ifThenElse0d0d0d inC inT inF outp cond tv fv c = some c' ∧
      IfThenElse outp inC inT inF (.scalar cond) (.scalar tv) (.scalar fv) 0 c c' := by
  obtain ⟨bC, hbC, hsC⟩ := scalar_at hC
  obtain ⟨bT, hbT, hsT⟩ := scalar_at hT
  obtain ⟨bF, hbF, hsF⟩ := scalar_at hF
  cases bC <;> cases cond <;> cases bT <;> cases bF <;>
    simp [ifThenElse0d0d0d, run0d, IfThenElse, Take, hbC, hbT, hbF, (hsC 0).1, (hsC 0).2,
      (hsT 0).1, (hsT 0).2, (hsF 0).1, (hsF 0).2, become_store, mark_spec]

/-- C15: `if(0d, 2d)`, sequential and parallel. -/
theorem C15_ifThen0d2d (inC : InPolicy Bool) (inT : InPolicy R) (outp : OutPolicy R)
    (n1 n2 : Nat) (cond : Bool) (tv : List R)
    (result : List (Cell R)) (hr : result.length = n1 * n2)
    (hC : (Arg.scalar cond).Fits inC (n1 * n2)) (hT : (Arg.array tv).Fits inT (n1 * n2)) :
    Computes (ifThen0d2d inC inT outp cond (n1, n2) tv (n1, n2))
      (IfThen outp inC inT (.scalar cond) (.array tv)) result := by
  obtain ⟨bC, hbC, hsC⟩ := scalar_at hC
  have : ifThen0d2d inC inT outp cond (n1, n2) tv (n1, n2) =
    some (.d2 n1 n2 n2 (ifThen0d2dActs (!bC && cond) inT outp tv)) := by simp [ifThen0d2d, hbC]
  rw [this]
  refine computes_d2 (actsOk_intro fun i hi => ?_) hr
  obtain ⟨bT, wT, hbT, hwT, hnT, hvT⟩ := array_at hT hi
  constructor
  · cases bC <;> cases cond <;> cases bT <;> simp [ifThen0d2dActs, hbT, hwT]
  · intro fs hfs c
    cases bC <;> cases cond <;> cases bT <;> simp [ifThen0d2dActs, hbT, hwT] at hfs <;> subst hfs <;>
      simp [IfThen, Take, foldActs, (hsC i).1, (hsC i).2, hnT, hvT, become_store, mark_spec]

/-- C15: `if(2d, 0d)`, sequential and parallel. -/
theorem C15_ifThen2d0d (inC : InPolicy Bool) (inT : InPolicy R) (outp : OutPolicy R)
    (n1 n2 : Nat) (cond : List Bool) (tv : R)
    (result : List (Cell R)) (hr : result.length = n1 * n2)
    (hC : (Arg.array cond).Fits inC (n1 * n2)) (hT : (Arg.scalar tv).Fits inT (n1 * n2)) :
    Computes (ifThen2d0d inC inT outp (n1, n2) cond tv (n1, n2))
      (IfThen outp inC inT (.array cond) (.scalar tv)) result := by
  obtain ⟨bT, hbT, hsT⟩ := scalar_at hT
  have : ifThen2d0d inC inT outp (n1, n2) cond tv (n1, n2) =
    some (.d2 n1 n2 n2 (ifThen2d0dActs inC bT outp cond tv)) := by simp [ifThen2d0d, hbT]
  rw [this]
  refine computes_d2 (actsOk_intro fun i hi => ?_) hr
  obtain ⟨bC, wC, hbC, hwC, hnC, hvC⟩ := array_at hC hi
  constructor
  · cases bC <;> cases wC <;> cases bT <;> simp [ifThen2d0dActs, hbC, hwC]
  · intro fs hfs c
    cases bC <;> cases wC <;> cases bT <;> simp [ifThen2d0dActs, hbC, hwC] at hfs <;> subst hfs <;>
      simp [IfThen, Take, foldActs, hnC, hvC, (hsT i).1, (hsT i).2, become_store, mark_spec]

/-- C15: `if(2d, 2d)`, sequential and parallel. -/
theorem C15_ifThen2d2d (inC : InPolicy Bool) (inT : InPolicy R) (outp : OutPolicy R)
    (n1 n2 : Nat) (cond : List Bool) (tv : List R)
    (result : List (Cell R)) (hr : result.length = n1 * n2)
    (hC : (Arg.array cond).Fits inC (n1 * n2)) (hT : (Arg.array tv).Fits inT (n1 * n2)) :
    Computes (ifThen2d2d inC inT outp (n1, n2) cond (n1, n2) tv (n1, n2))
      (IfThen outp inC inT (.array cond) (.array tv)) result := by
  have : ifThen2d2d inC inT outp (n1, n2) cond (n1, n2) tv (n1, n2) =
    some (.d2 n1 n2 n2 (ifThen2d2dActs inC inT outp cond tv)) := by simp [ifThen2d2d]
  rw [this]
  refine computes_d2 (actsOk_intro fun i hi => ?_) hr
  obtain ⟨bC, wC, hbC, hwC, hnC, hvC⟩ := array_at hC hi
  obtain ⟨bT, wT, hbT, hwT, hnT, hvT⟩ := array_at hT hi
  constructor
  · cases bC <;> cases wC <;> cases bT <;> simp [ifThen2d2dActs, hbC, hwC, hbT, hwT]
  · intro fs hfs c
    cases bC <;> cases wC <;> cases bT <;> simp [ifThen2d2dActs, hbC, hwC, hbT, hwT] at hfs <;> subst hfs <;>
      simp [IfThen, Take, foldActs, hnC, hvC, hnT, hvT, become_store, mark_spec]

/-- C15: `if(1d, 0d, 0d)`, parallel. -/
theorem C15_ifThenElse1d0d0dPar (inC : InPolicy Bool) (inT inF : InPolicy R) (outp : OutPolicy R)
    (n : Nat) (cond : List Bool) (tv : R) (fv : R)
    (result : List (Cell R)) (hr : result.length = n)
    (hC : (Arg.array cond).Fits inC (n)) (hT : (Arg.scalar tv).Fits inT (n)) (hF : (Arg.scalar fv).Fits inF (n)) :
    ComputesParallel (ifThenElse1d0d0dPar inC inT inF outp cond tv fv n)
      (IfThenElse outp inC inT inF (.array cond) (.scalar tv) (.scalar fv)) result := by
  obtain ⟨bT, hbT, hsT⟩ := scalar_at hT
  obtain ⟨bF, hbF, hsF⟩ := scalar_at hF
  have : ifThenElse1d0d0dPar inC inT inF outp cond tv fv n =
    some (.d1 n (ifThenElseA00Acts inC bT bF outp cond tv fv)) := by simp [ifThenElse1d0d0dPar, hbT, hbF, hC.1]
  rw [this]
  refine Computes.parallel (computes_d1 (actsOk_intro fun i hi => ?_) hr)
  obtain ⟨bC, wC, hbC, hwC, hnC, hvC⟩ := array_at hC hi
  constructor
  · cases bC <;> cases wC <;> cases bT <;> cases bF <;> simp [ifThenElseA00Acts, hbC, hwC]
  · intro fs hfs c
    cases bC <;> cases wC <;> cases bT <;> cases bF <;> simp [ifThenElseA00Acts, hbC, hwC] at hfs <;> subst hfs <;>
      simp [IfThenElse, Take, foldActs, hnC, hvC, (hsT i).1, (hsT i).2, (hsF i).1, (hsF i).2, become_store, mark_spec]

/-- C15: `if(1d, 1d, 0d)`, sequential and parallel. -/
theorem C15_ifThenElse1d1d0d (inC : InPolicy Bool) (inT inF : InPolicy R) (outp : OutPolicy R)
    (n : Nat) (cond : List Bool) (tv : List R) (fv : R)
    (result : List (Cell R)) (hr : result.length = n)
    (hC : (Arg.array cond).Fits inC (n)) (hT : (Arg.array tv).Fits inT (n)) (hF : (Arg.scalar fv).Fits inF (n)) :
    Computes (ifThenElse1d1d0d inC inT inF outp cond tv fv n)
      (IfThenElse outp inC inT inF (.array cond) (.array tv) (.scalar fv)) result := by
  obtain ⟨bF, hbF, hsF⟩ := scalar_at hF
  have : ifThenElse1d1d0d inC inT inF outp cond tv fv n =
    some (.d1 n (ifThenElseAA0Acts inC inT bF outp cond tv fv)) := by simp [ifThenElse1d1d0d, hbF, hC.1, hT.1]
  rw [this]
  refine computes_d1 (actsOk_intro fun i hi => ?_) hr
  obtain ⟨bC, wC, hbC, hwC, hnC, hvC⟩ := array_at hC hi
  obtain ⟨bT, wT, hbT, hwT, hnT, hvT⟩ := array_at hT hi
  constructor
  · cases bC <;> cases wC <;> cases bT <;> cases bF <;> simp [ifThenElseAA0Acts, hbC, hwC, hbT, hwT]
  · intro fs hfs c
    cases bC <;> cases wC <;> cases bT <;> cases bF <;> simp [ifThenElseAA0Acts, hbC, hwC, hbT, hwT] at hfs <;> subst hfs <;>
      simp [IfThenElse, Take, foldActs, hnC, hvC, hnT, hvT, (hsF i).1, (hsF i).2, become_store, mark_spec]

/-- C15: `if(1d, 0d, 1d)`, sequential and parallel. -/
theorem C15_ifThenElse1d0d1d (inC : InPolicy Bool) (inT inF : InPolicy R) (outp : OutPolicy R)
    (n : Nat) (cond : List Bool) (tv : R) (fv : List R)
    (result : List (Cell R)) (hr : result.length = n)
    (hC : (Arg.array cond).Fits inC (n)) (hT : (Arg.scalar tv).Fits inT (n)) (hF : (Arg.array fv).Fits inF (n)) :
    Computes (ifThenElse1d0d1d inC inT inF outp cond tv fv n)
      (IfThenElse outp inC inT inF (.array cond) (.scalar tv) (.array fv)) result := by
  obtain ⟨bT, hbT, hsT⟩ := scalar_at hT
  have : ifThenElse1d0d1d inC inT inF outp cond tv fv n =
    some (.d1 n (ifThenElseA0AActs inC bT inF outp cond tv fv)) := by simp [ifThenElse1d0d1d, hbT, hC.1, hF.1]
  rw [this]
  refine computes_d1 (actsOk_intro fun i hi => ?_) hr
  obtain ⟨bC, wC, hbC, hwC, hnC, hvC⟩ := array_at hC hi
  obtain ⟨bF, wF, hbF, hwF, hnF, hvF⟩ := array_at hF hi
  constructor
  · cases bC <;> cases wC <;> cases bT <;> cases bF <;> simp [ifThenElseA0AActs, hbC, hwC, hbF, hwF]
  · intro fs hfs c
    cases bC <;> cases wC <;> cases bT <;> cases bF <;> simp [ifThenElseA0AActs, hbC, hwC, hbF, hwF] at hfs <;> subst hfs <;>
      simp [IfThenElse, Take, foldActs, hnC, hvC, (hsT i).1, (hsT i).2, hnF, hvF, become_store, mark_spec]

/-- C15: `if(1d, 1d, 1d)`, sequential and parallel. -/
theorem C15_ifThenElse1d1d1d (inC : InPolicy Bool) (inT inF : InPolicy R) (outp : OutPolicy R)
    (n : Nat) (cond : List Bool) (tv : List R) (fv : List R)
    (result : List (Cell R)) (hr : result.length = n)
    (hC : (Arg.array cond).Fits inC (n)) (hT : (Arg.array tv).Fits inT (n)) (hF : (Arg.array fv).Fits inF (n)) :
    Computes (ifThenElse1d1d1d inC inT inF outp cond tv fv n)
      (IfThenElse outp inC inT inF (.array cond) (.array tv) (.array fv)) result := by
  have : ifThenElse1d1d1d inC inT inF outp cond tv fv n =
    some (.d1 n (ifThenElseAAAActs inC inT inF outp cond tv fv)) := by simp [ifThenElse1d1d1d, hC.1, hT.1, hF.1]
  rw [this]
  refine computes_d1 (actsOk_intro fun i hi => ?_) hr
  obtain ⟨bC, wC, hbC, hwC, hnC, hvC⟩ := array_at hC hi
  obtain ⟨bT, wT, hbT, hwT, hnT, hvT⟩ := array_at hT hi
  obtain ⟨bF, wF, hbF, hwF, hnF, hvF⟩ := array_at hF hi
  constructor
  · cases bC <;> cases wC <;> cases bT <;> cases bF <;> simp [ifThenElseAAAActs, hbC, hwC, hbT, hwT, hbF, hwF]
  · intro fs hfs c
    cases bC <;> cases wC <;> cases bT <;> cases bF <;> simp [ifThenElseAAAActs, hbC, hwC, hbT, hwT, hbF, hwF] at hfs <;> subst hfs <;>
      simp [IfThenElse, Take, foldActs, hnC, hvC, hnT, hvT, hnF, hvF, become_store, mark_spec]

/-- C15: `if(2d, 0d, 0d)`, sequential and parallel. -/
theorem C15_ifThenElse2d0d0d (inC : InPolicy Bool) (inT inF : InPolicy R) (outp : OutPolicy R)
    (n1 n2 : Nat) (cond : List Bool) (tv : R) (fv : R)
    (result : List (Cell R)) (hr : result.length = n1 * n2)
    (hC : (Arg.array cond).Fits inC (n1 * n2)) (hT : (Arg.scalar tv).Fits inT (n1 * n2)) (hF : (Arg.scalar fv).Fits inF (n1 * n2)) :
    Computes (ifThenElse2d0d0d inC inT inF outp (n1, n2) cond tv fv (n1, n2))
      (IfThenElse outp inC inT inF (.array cond) (.scalar tv) (.scalar fv)) result := by
  obtain ⟨bT, hbT, hsT⟩ := scalar_at hT
  obtain ⟨bF, hbF, hsF⟩ := scalar_at hF
  have : ifThenElse2d0d0d inC inT inF outp (n1, n2) cond tv fv (n1, n2) =
    some (.d2 n1 n2 n2 (ifThenElseA00Acts inC bT bF outp cond tv fv)) := by simp [ifThenElse2d0d0d, hbT, hbF]
  rw [this]
  refine computes_d2 (actsOk_intro fun i hi => ?_) hr
  obtain ⟨bC, wC, hbC, hwC, hnC, hvC⟩ := array_at hC hi
  constructor
  · cases bC <;> cases wC <;> cases bT <;> cases bF <;> simp [ifThenElseA00Acts, hbC, hwC]
  · intro fs hfs c
    cases bC <;> cases wC <;> cases bT <;> cases bF <;> simp [ifThenElseA00Acts, hbC, hwC] at hfs <;> subst hfs <;>
      simp [IfThenElse, Take, foldActs, hnC, hvC, (hsT i).1, (hsT i).2, (hsF i).1, (hsF i).2, become_store, mark_spec]

/-- C15: `if(2d, 2d, 0d)`, sequential and parallel. -/
theorem C15_ifThenElse2d2d0d (inC : InPolicy Bool) (inT inF : InPolicy R) (outp : OutPolicy R)
    (n1 n2 : Nat) (cond : List Bool) (tv : List R) (fv : R)
    (result : List (Cell R)) (hr : result.length = n1 * n2)
    (hC : (Arg.array cond).Fits inC (n1 * n2)) (hT : (Arg.array tv).Fits inT (n1 * n2)) (hF : (Arg.scalar fv).Fits inF (n1 * n2)) :
    Computes (ifThenElse2d2d0d inC inT inF outp (n1, n2) cond (n1, n2) tv fv (n1, n2))
      (IfThenElse outp inC inT inF (.array cond) (.array tv) (.scalar fv)) result := by
  obtain ⟨bF, hbF, hsF⟩ := scalar_at hF
  have : ifThenElse2d2d0d inC inT inF outp (n1, n2) cond (n1, n2) tv fv (n1, n2) =
    some (.d2 n1 n2 n2 (ifThenElseAA0Acts inC inT bF outp cond tv fv)) := by simp [ifThenElse2d2d0d, hbF]
  rw [this]
  refine computes_d2 (actsOk_intro fun i hi => ?_) hr
  obtain ⟨bC, wC, hbC, hwC, hnC, hvC⟩ := array_at hC hi
  obtain ⟨bT, wT, hbT, hwT, hnT, hvT⟩ := array_at hT hi
  constructor
  · cases bC <;> cases wC <;> cases bT <;> cases bF <;> simp [ifThenElseAA0Acts, hbC, hwC, hbT, hwT]
  · intro fs hfs c
    cases bC <;> cases wC <;> cases bT <;> cases bF <;> simp [ifThenElseAA0Acts, hbC, hwC, hbT, hwT] at hfs <;> subst hfs <;>
      simp [IfThenElse, Take, foldActs, hnC, hvC, hnT, hvT, (hsF i).1, (hsF i).2, become_store, mark_spec]

/-- C15: `if(2d, 0d, 2d)`, sequential and parallel. -/
theorem C15_ifThenElse2d0d2d (inC : InPolicy Bool) (inT inF : InPolicy R) (outp : OutPolicy R)
    (n1 n2 : Nat) (cond : List Bool) (tv : R) (fv : List R)
    (result : List (Cell R)) (hr : result.length = n1 * n2)
    (hC : (Arg.array cond).Fits inC (n1 * n2)) (hT : (Arg.scalar tv).Fits inT (n1 * n2)) (hF : (Arg.array fv).Fits inF (n1 * n2)) :
    Computes (ifThenElse2d0d2d inC inT inF outp (n1, n2) cond tv (n1, n2) fv (n1, n2))
      (IfThenElse outp inC inT inF (.array cond) (.scalar tv) (.array fv)) result := by
  obtain ⟨bT, hbT, hsT⟩ := scalar_at hT
  have : ifThenElse2d0d2d inC inT inF outp (n1, n2) cond tv (n1, n2) fv (n1, n2) =
    some (.d2 n1 n2 n2 (ifThenElseA0AActs inC bT inF outp cond tv fv)) := by simp [ifThenElse2d0d2d, hbT]
  rw [this]
  refine computes_d2 (actsOk_intro fun i hi => ?_) hr
  obtain ⟨bC, wC, hbC, hwC, hnC, hvC⟩ := array_at hC hi
  obtain ⟨bF, wF, hbF, hwF, hnF, hvF⟩ := array_at hF hi
  constructor
  · cases bC <;> cases wC <;> cases bT <;> cases bF <;> simp [ifThenElseA0AActs, hbC, hwC, hbF, hwF]
  · intro fs hfs c
    cases bC <;> cases wC <;> cases bT <;> cases bF <;> simp [ifThenElseA0AActs, hbC, hwC, hbF, hwF] at hfs <;> subst hfs <;>
      simp [IfThenElse, Take, foldActs, hnC, hvC, (hsT i).1, (hsT i).2, hnF, hvF, become_store, mark_spec]

/-- C15: `if(2d, 2d, 2d)`, sequential and parallel. -/
theorem C15_ifThenElse2d2d2d (inC : InPolicy Bool) (inT inF : InPolicy R) (outp : OutPolicy R)
    (n1 n2 : Nat) (cond : List Bool) (tv : List R) (fv : List R)
    (result : List (Cell R)) (hr : result.length = n1 * n2)
    (hC : (Arg.array cond).Fits inC (n1 * n2)) (hT : (Arg.array tv).Fits inT (n1 * n2)) (hF : (Arg.array fv).Fits inF (n1 * n2)) :
    Computes (ifThenElse2d2d2d inC inT inF outp (n1, n2) cond (n1, n2) tv (n1, n2) fv (n1, n2))
      (IfThenElse outp inC inT inF (.array cond) (.array tv) (.array fv)) result := by
  have : ifThenElse2d2d2d inC inT inF outp (n1, n2) cond (n1, n2) tv (n1, n2) fv (n1, n2) =
    some (.d2 n1 n2 n2 (ifThenElseAAAActs inC inT inF outp cond tv fv)) := by simp [ifThenElse2d2d2d]
  rw [this]
  refine computes_d2 (actsOk_intro fun i hi => ?_) hr
  obtain ⟨bC, wC, hbC, hwC, hnC, hvC⟩ := array_at hC hi
  obtain ⟨bT, wT, hbT, hwT, hnT, hvT⟩ := array_at hT hi
  obtain ⟨bF, wF, hbF, hwF, hnF, hvF⟩ := array_at hF hi
  constructor
  · cases bC <;> cases wC <;> cases bT <;> cases bF <;> simp [ifThenElseAAAActs, hbC, hwC, hbT, hwT, hbF, hwF]
  · intro fs hfs c
    cases bC <;> cases wC <;> cases bT <;> cases bF <;> simp [ifThenElseAAAActs, hbC, hwC, hbT, hwT, hbF, hwF] at hfs <;> subst hfs <;>
      simp [IfThenElse, Take, foldActs, hnC, hvC, hnT, hvT, hnF, hvF, become_store, mark_spec]

/-- C15: `if(0d, 2d, 2d)`, sequential and parallel. -/
theorem C15_ifThenElse0d2d2d (inC : InPolicy Bool) (inT inF : InPolicy R) (outp : OutPolicy R)
    (n1 n2 : Nat) (cond : Bool) (tv : List R) (fv : List R)
    (result : List (Cell R)) (hr : result.length = n1 * n2)
    (hC : (Arg.scalar cond).Fits inC (n1 * n2)) (hT : (Arg.array tv).Fits inT (n1 * n2)) (hF : (Arg.array fv).Fits inF (n1 * n2)) :
    Computes (ifThenElse0d2d2d inC inT inF outp cond (n1, n2) tv (n1, n2) fv (n1, n2))
      (IfThenElse outp inC inT inF (.scalar cond) (.array tv) (.array fv)) result := by
  obtain ⟨bC, hbC, hsC⟩ := scalar_at hC
  have : ifThenElse0d2d2d inC inT inF outp cond (n1, n2) tv (n1, n2) fv (n1, n2) =
    some (.d2 n1 n2 n2 (ifThenElse0AAActs bC cond inT inF outp tv fv)) := by simp [ifThenElse0d2d2d, hbC]
  rw [this]
  refine computes_d2 (actsOk_intro fun i hi => ?_) hr
  obtain ⟨bT, wT, hbT, hwT, hnT, hvT⟩ := array_at hT hi
  obtain ⟨bF, wF, hbF, hwF, hnF, hvF⟩ := array_at hF hi
  constructor
  · cases bC <;> cases cond <;> cases bT <;> cases bF <;> simp [ifThenElse0AAActs, hbT, hwT, hbF, hwF]
  · intro fs hfs c
    cases bC <;> cases cond <;> cases bT <;> cases bF <;> simp [ifThenElse0AAActs, hbT, hwT, hbF, hwF] at hfs <;> subst hfs <;>
      simp [IfThenElse, Take, foldActs, (hsC i).1, (hsC i).2, hnT, hvT, hnF, hvF, become_store, mark_spec]

/-- C15: `if(0d, 0d, 2d)`, sequential and parallel. -/
theorem C15_ifThenElse0d0d2d (inC : InPolicy Bool) (inT inF : InPolicy R) (outp : OutPolicy R)
    (n1 n2 : Nat) (cond : Bool) (tv : R) (fv : List R)
    (result : List (Cell R)) (hr : result.length = n1 * n2)
    (hC : (Arg.scalar cond).Fits inC (n1 * n2)) (hT : (Arg.scalar tv).Fits inT (n1 * n2)) (hF : (Arg.array fv).Fits inF (n1 * n2)) :
    Computes (ifThenElse0d0d2d inC inT inF outp cond tv (n1, n2) fv (n1, n2))
      (IfThenElse outp inC inT inF (.scalar cond) (.scalar tv) (.array fv)) result := by
  obtain ⟨bC, hbC, hsC⟩ := scalar_at hC
  obtain ⟨bT, hbT, hsT⟩ := scalar_at hT
  have : ifThenElse0d0d2d inC inT inF outp cond tv (n1, n2) fv (n1, n2) =
    some (.d2 n1 n2 n2 (ifThenElse00AActs bC cond bT inF outp tv fv)) := by simp [ifThenElse0d0d2d, hbC, hbT]
  rw [this]
  refine computes_d2 (actsOk_intro fun i hi => ?_) hr
  obtain ⟨bF, wF, hbF, hwF, hnF, hvF⟩ := array_at hF hi
  constructor
  · cases bC <;> cases cond <;> cases bT <;> cases bF <;> simp [ifThenElse00AActs, hbF, hwF]
  · intro fs hfs c
    cases bC <;> cases cond <;> cases bT <;> cases bF <;> simp [ifThenElse00AActs, hbF, hwF] at hfs <;> subst hfs <;>
      simp [IfThenElse, Take, foldActs, (hsC i).1, (hsC i).2, (hsT i).1, (hsT i).2, hnF, hvF, become_store, mark_spec]

/-- C15: `if(0d, 2d, 0d)`, sequential and parallel. -/
theorem C15_ifThenElse0d2d0d (inC : InPolicy Bool) (inT inF : InPolicy R) (outp : OutPolicy R)
    (n1 n2 : Nat) (cond : Bool) (tv : List R) (fv : R)
    (result : List (Cell R)) (hr : result.length = n1 * n2)
    (hC : (Arg.scalar cond).Fits inC (n1 * n2)) (hT : (Arg.array tv).Fits inT (n1 * n2)) (hF : (Arg.scalar fv).Fits inF (n1 * n2)) :
    Computes (ifThenElse0d2d0d inC inT inF outp cond (n1, n2) tv fv (n1, n2))
      (IfThenElse outp inC inT inF (.scalar cond) (.array tv) (.scalar fv)) result := by
  obtain ⟨bC, hbC, hsC⟩ := scalar_at hC
  obtain ⟨bF, hbF, hsF⟩ := scalar_at hF
  have : ifThenElse0d2d0d inC inT inF outp cond (n1, n2) tv fv (n1, n2) =
    some (.d2 n1 n2 n2 (ifThenElse0A0Acts bC cond inT bF outp tv fv)) := by simp [ifThenElse0d2d0d, hbC, hbF]
  rw [this]
  refine computes_d2 (actsOk_intro fun i hi => ?_) hr
  obtain ⟨bT, wT, hbT, hwT, hnT, hvT⟩ := array_at hT hi
  constructor
  · cases bC <;> cases cond <;> cases bT <;> cases bF <;> simp [ifThenElse0A0Acts, hbT, hwT]
  · intro fs hfs c
    cases bC <;> cases cond <;> cases bT <;> cases bF <;> simp [ifThenElse0A0Acts, hbT, hwT] at hfs <;> subst hfs <;>
      simp [IfThenElse, Take, foldActs, (hsC i).1, (hsC i).2, hnT, hvT, (hsF i).1, (hsF i).2, become_store, mark_spec]


/-- The sequential `if(1d, 0d, 0d)` fails an assertion for every condition that does not have exactly
one element. -/
theorem C15_ifThenElse1d0d0dSeq_asserts (inC : InPolicy Bool) (inT inF : InPolicy R)
    (outp : OutPolicy R) (cond : List Bool) (tv fv : R) (result : List (Cell R))
    (h : cond.length ≠ 1) :
    runSeq (ifThenElse1d0d0dSeq inC inT inF outp cond tv fv) result = none := by
  have : (1 == cond.length) = false := by simpa using fun e => h e.symm
  simp [ifThenElse1d0d0dSeq, this, runSeq]

/-- `IfThenElse` determines the value and, if values are marked by mask, the mask entry: all
combinations of shapes that satisfy it agree on arguments with the same elements. In particular an
operation with scalar arguments gives the same result as the fully expanded array version. -/
theorem C15_ifThenElse_unique (inC inC' : InPolicy Bool) (inT inF inT' inF' : InPolicy R)
    (cond cond' : Arg Bool) (tv fv tv' fv' : Arg R) (i : Nat) (c d e : Cell R)
    (hc : ∀ b, cond.HasAt i b ↔ cond'.HasAt i b) (hcx : ∃ b, cond.HasAt i b)
    (ht : ∀ v, tv.HasAt i v ↔ tv'.HasAt i v) (hf : ∀ v, fv.HasAt i v ↔ fv'.HasAt i v)
    (htu : ∀ v w, tv.HasAt i v → tv.HasAt i w → v = w)
    (hfu : ∀ v w, fv.HasAt i v → fv.HasAt i w → v = w)
    (nC : cond.NoData inC i ↔ cond'.NoData inC' i) (nT : tv.NoData inT i ↔ tv'.NoData inT' i)
    (nF : fv.NoData inF i ↔ fv'.NoData inF' i)
    (hd : IfThenElse .markMask inC inT inF cond tv fv i c d)
    (he : IfThenElse .markMask inC' inT' inF' cond' tv' fv' i c e) : d = e := by
  obtain ⟨d1, d2, d3⟩ := hd
  obtain ⟨e1, e2, e3⟩ := he
  have cell : ∀ {x y : Cell R}, x.val = y.val → x.masked = y.masked → x = y := by
    rintro ⟨⟩ ⟨⟩ h1 h2; simp_all
  have mm : Marked .markMask c d → Marked .markMask c e → d = e := fun hd he =>
    cell (hd.1.trans he.1.symm) (hd.2.trans he.2.symm)
  by_cases h : cond.NoData inC i
  · exact mm (d1 h) (e1 (nC.mp h))
  · have h' := fun x => h (nC.mpr x)
    have take : ∀ {a a' : Arg R} {p p' : InPolicy R}, (∀ v, a.HasAt i v ↔ a'.HasAt i v) →
        (∀ v w, a.HasAt i v → a.HasAt i w → v = w) → (a.NoData p i ↔ a'.NoData p' i) →
        Take .markMask p a i c d → Take .markMask p' a' i c e → d = e := by
      intro a a' p p' ha hu hn hd he
      by_cases hnd : a.NoData p i
      · exact mm (hd.1 hnd) (he.1 (hn.mp hnd))
      · obtain ⟨v, hv, hvd⟩ := hd.2 hnd
        obtain ⟨w, hw, hwe⟩ := he.2 (fun x => hnd (hn.mpr x))
        have : v = w := hu v w hv ((ha w).mpr hw)
        subst this
        exact cell (hvd.1.trans hwe.1.symm) (hvd.2.trans hwe.2.symm)
    obtain ⟨b, hb⟩ := hcx
    cases b with
    | true => exact take ht htu nT (d2 h hb) (e2 h' ((hc _).mp hb))
    | false => exact take hf hfu nF (d3 h hb) (e3 h' ((hc _).mp hb))

/-- A case for the hypotheses: condition with no-data, true value array with no-data, false value
scalar. -/
example : runSeq (ifThenElse2d2d0d (.byMask [1, 0, 0, 0] 1) (.byMask [0, 0, 1, 1] 1) .skip .markMask
    (2, 2) [true, true, true, false] (2, 2) [1, 2, 3, 4] 9 (2, 2))
    [⟨0, false⟩, ⟨0, false⟩, ⟨0, false⟩, ⟨0, false⟩] =
    some [⟨0, true⟩, ⟨2, false⟩, ⟨0, true⟩, ⟨9, false⟩] := by rfl

/-- The other combinations of scalars and arrays: conditions, then and else values with no-data. -/
example :
    let z : List (Cell Int) := [⟨0, false⟩, ⟨0, false⟩]
    let c := [true, false]
    let m : InPolicy Int := .byMask [1, 0] 1
    let o : OutPolicy Int := .markMask
    ifThen0d0d .skip .skip o true 5 ⟨0, false⟩ = some ⟨5, false⟩ ∧
    ifThen0d0d .skip .all o true 5 ⟨0, false⟩ = some ⟨0, true⟩ ∧
    ifThenElse0d0d0d .skip .skip .skip o false 5 6 ⟨0, false⟩ = some ⟨6, false⟩ ∧
    ifThenElse0d0d0d .all .skip .skip o false 5 6 ⟨0, false⟩ = some ⟨0, true⟩ ∧
    runSeq (ifThen0d2d .skip m o true (1, 2) [1, 2] (1, 2)) z = some [⟨0, true⟩, ⟨2, false⟩] ∧
    runSeq (ifThen2d0d .skip .skip o (1, 2) c 5 (1, 2)) z = some [⟨5, false⟩, ⟨0, true⟩] ∧
    runSeq (ifThen2d2d .skip m o (1, 2) [true, true] (1, 2) [1, 2] (1, 2)) z =
      some [⟨0, true⟩, ⟨2, false⟩] ∧
    runSeq (ifThenElse1d0d0dPar .skip .skip .skip o c 5 6 2) z = some [⟨5, false⟩, ⟨6, false⟩] ∧
    runSeq (ifThenElse1d1d0d .skip m .skip o c [1, 2] 6 2) z = some [⟨0, true⟩, ⟨6, false⟩] ∧
    runSeq (ifThenElse1d0d1d .skip .skip m o c 5 [3, 4] 2) z = some [⟨5, false⟩, ⟨4, false⟩] ∧
    runSeq (ifThenElse1d1d1d .skip m m o c [1, 2] [3, 4] 2) z = some [⟨0, true⟩, ⟨4, false⟩] ∧
    runSeq (ifThenElse2d0d0d .skip .skip .skip o (1, 2) c 5 6 (1, 2)) z = some [⟨5, false⟩, ⟨6, false⟩] ∧
    runSeq (ifThenElse2d2d2d .skip m m o (1, 2) c (1, 2) [1, 2] (1, 2) [3, 4] (1, 2)) z =
      some [⟨0, true⟩, ⟨4, false⟩] ∧
    runSeq (ifThenElse0d2d2d .skip m m o true (1, 2) [1, 2] (1, 2) [3, 4] (1, 2)) z =
      some [⟨0, true⟩, ⟨2, false⟩] ∧
    runSeq (ifThenElse0d0d2d .skip .skip m o false 5 (1, 2) [3, 4] (1, 2)) z =
      some [⟨0, true⟩, ⟨4, false⟩] ∧
    runSeq (ifThenElse0d2d0d .skip m .skip o true (1, 2) [1, 2] 6 (1, 2)) z =
      some [⟨0, true⟩, ⟨2, false⟩] := by
  refine ⟨rfl, rfl, rfl, rfl, rfl, rfl, rfl, rfl, rfl, rfl, rfl, rfl, rfl, rfl, rfl, rfl⟩

end Fern
