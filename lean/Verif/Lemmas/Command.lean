import Verif.Model.Command
import Verif.Spec.Command

/-! Lemmas about the `fern` command. -/

namespace Fern.Command

open Fern Fern.Spec.Command

variable {S Tree Dataset : Type} (T : Tools S Tree Dataset)

theorem lookup_none {o₁ o₂ a : Str} {b₁ b₂ : Nat} (h₁ : a ≠ o₁) (h₂ : a ≠ o₂) :
    List.lookup a [(o₁, b₁), (o₂, b₂)] = none := by
  simp [List.lookup, beq_eq_false_iff_ne.2 h₁, beq_eq_false_iff_ne.2 h₂]

theorem scan_stop (options : List (Str × Nat)) (rest : List Str) (bits : Nat)
    (h : ∀ a, rest.head? = some a → options.lookup a = none) : scanOptions options rest bits = (rest, bits) := by
  cases rest with
  | nil => rfl
  | cons a as => simp [scanOptions, h a rfl]

theorem scan_used (options : List (Str × Nat)) (used rest : List Str) (bits : Nat)
    (hu : ∀ a ∈ used, (options.lookup a).isSome = true)
    (h : ∀ a, rest.head? = some a → options.lookup a = none) :
    ∃ bits', scanOptions options (used ++ rest) bits = (rest, bits') ∧
      ∀ i, bits'.testBit i = (bits.testBit i || used.any fun a => ((options.lookup a).getD 0).testBit i) := by
  induction used generalizing bits with
  | nil => exact ⟨bits, scan_stop options rest bits h, by simp⟩
  | cons a as ih =>
    obtain ⟨b, hb⟩ := Option.isSome_iff_exists.1 (hu a (by simp))
    obtain ⟨bits', h₁, h₂⟩ := ih (bits ||| b) (fun x hx => hu x (List.mem_cons_of_mem _ hx))
    refine ⟨bits', by simp [scanOptions, hb, h₁], fun i => ?_⟩
    simp [h₂, hb, Nat.testBit_or, Bool.or_assoc]

theorem lt_of_bits {n k : Nat} (h : ∀ i, k ≤ i → n.testBit i = false) : n < 2 ^ k := by
  apply Nat.lt_pow_two_of_testBit
  exact fun i hi => h i hi

theorem scan_cpp (used rest : List Str) (hu : ∀ a ∈ used, CppOption a)
    (h : ∀ a, rest.head? = some a → ¬ CppOption a) :
    ∃ flags, scanOptions cppOptions (used ++ rest) 0 = (rest, flags) ∧ CppBits used flags := by
  have hs : ∀ a, CppOption a → (cppOptions.lookup a).isSome = true := by
    rintro a (rfl | rfl) <;> decide
  obtain ⟨flags, h₁, h₂⟩ := scan_used cppOptions used rest 0 (fun a ha => hs a (hu a ha)) (fun a ha => by
    have := h a ha
    exact lookup_none (fun e => this (Or.inl e)) (fun e => this (Or.inr e)))
  have key : ∀ i, flags.testBit i = true ↔ (i = 1 ∧ "--dump_driver".toList ∈ used) ∨ (i = 2 ∧ "--dump_cmake".toList ∈ used) := by
    intro i
    rw [h₂]
    simp only [Nat.zero_testBit, Bool.false_or, List.any_eq_true]
    constructor
    · rintro ⟨a, ha, hb⟩
      rcases hu a ha with rfl | rfl
      · have : (2 : Nat).testBit i = true := hb
        have h2 : (2 : Nat) = 2 ^ 1 := rfl
        rw [h2, Nat.testBit_two_pow] at this
        exact Or.inl ⟨(of_decide_eq_true this).symm, ha⟩
      · have : (4 : Nat).testBit i = true := hb
        have h2 : (4 : Nat) = 2 ^ 2 := rfl
        rw [h2, Nat.testBit_two_pow] at this
        exact Or.inr ⟨(of_decide_eq_true this).symm, ha⟩
    · rintro (⟨rfl, ha⟩ | ⟨rfl, ha⟩)
      · exact ⟨_, ha, by decide⟩
      · exact ⟨_, ha, by decide⟩
  refine ⟨flags, h₁, lt_of_bits (k := 3) fun i hi => ?_, ?_, ?_, ?_⟩
  · rw [Bool.eq_false_iff]
    intro e
    rcases (key i).1 e with ⟨rfl, -⟩ | ⟨rfl, -⟩ <;> omega
  · rw [Bool.eq_false_iff]
    intro e
    rcases (key 0).1 e with ⟨h, -⟩ | ⟨h, -⟩ <;> omega
  · simp [key]
  · simp [key]

theorem scan_ast (used rest : List Str) (hu : ∀ a ∈ used, AstOption a)
    (h : ∀ a, rest.head? = some a → ¬ AstOption a) :
    ∃ modes, scanOptions astOptions (used ++ rest) 0 = (rest, modes) ∧ AstBits used modes := by
  have hs : ∀ a, AstOption a → (astOptions.lookup a).isSome = true := by
    rintro a (rfl | rfl) <;> decide
  obtain ⟨flags, h₁, h₂⟩ := scan_used astOptions used rest 0 (fun a ha => hs a (hu a ha)) (fun a ha => by
    have := h a ha
    exact lookup_none (fun e => this (Or.inl e)) (fun e => this (Or.inr e)))
  have key : ∀ i, flags.testBit i = true ↔ (i = 2 ∧ "--with-cfg".toList ∈ used) ∨ (i = 3 ∧ "--with-use".toList ∈ used) := by
    intro i
    rw [h₂]
    simp only [Nat.zero_testBit, Bool.false_or, List.any_eq_true]
    constructor
    · rintro ⟨a, ha, hb⟩
      rcases hu a ha with rfl | rfl
      · have : (4 : Nat).testBit i = true := hb
        have h2 : (4 : Nat) = 2 ^ 2 := rfl
        rw [h2, Nat.testBit_two_pow] at this
        exact Or.inl ⟨(of_decide_eq_true this).symm, ha⟩
      · have : (8 : Nat).testBit i = true := hb
        have h2 : (8 : Nat) = 2 ^ 3 := rfl
        rw [h2, Nat.testBit_two_pow] at this
        exact Or.inr ⟨(of_decide_eq_true this).symm, ha⟩
    · rintro (⟨rfl, ha⟩ | ⟨rfl, ha⟩)
      · exact ⟨_, ha, by decide⟩
      · exact ⟨_, ha, by decide⟩
  refine ⟨flags, h₁, lt_of_bits (k := 4) fun i hi => ?_, ?_, ?_, ?_, ?_⟩
  · rw [Bool.eq_false_iff]
    intro e
    rcases (key i).1 e with ⟨rfl, -⟩ | ⟨rfl, -⟩ <;> omega
  · rw [Bool.eq_false_iff]
    intro e
    rcases (key 0).1 e with ⟨h, -⟩ | ⟨h, -⟩ <;> omega
  · rw [Bool.eq_false_iff]
    intro e
    rcases (key 1).1 e with ⟨h, -⟩ | ⟨h, -⟩ <;> omega
  · simp [key]
  · simp [key]

theorem inputName_eq {a n : Str} (h : Source a n) : inputName a = n := by
  cases h with
  | standardInput => rfl
  | file _ h => exact if_neg h

theorem asksHelp_append {used rest : List Str} (hu : ∀ a ∈ used, a ≠ "--help".toList)
    (hh : used = [] → rest.head? ≠ some "--help".toList) (hn : used = [] → rest ≠ []) :
    asksHelp (used ++ rest) = false := by
  cases used with
  | nil =>
    cases rest with
    | nil => exact absurd rfl (hn rfl)
    | cons a as =>
      exact beq_eq_false_iff_ne.2 fun e => hh rfl (by simp [e])
  | cons a as => exact beq_eq_false_iff_ne.2 (hu a (by simp))

theorem cpp_not_help {a : Str} (h : CppOption a) : a ≠ "--help".toList := by
  rcases h with rfl | rfl <;> decide

theorem ast_not_help {a : Str} (h : AstOption a) : a ≠ "--help".toList := by
  rcases h with rfl | rfl <;> decide

theorem main_compile (as : List Str) : main T ("compile".toList :: as) = handled T (compileCommand T as) := by
  simp [main]

theorem main_describe (as : List Str) : main T ("describe".toList :: as) = handled T (describeCommand T as) := by
  simp [main]

theorem main_execute (as : List Str) : main T ("execute".toList :: as) = handled T (executeCommand T as) := by
  simp [main]

theorem main_import (as : List Str) : main T ("import".toList :: as) = handled T (importCommand T as) := by
  simp [main]

theorem compileTo_cpp (as : List Str) : compileTo T ("c++".toList :: as) = compileToCpp T as := by
  simp [compileTo]

theorem compileTo_dot (as : List Str) : compileTo T ("dot".toList :: as) = compileToDot T as := by
  simp [compileTo]

theorem compileTo_xml (as : List Str) : compileTo T ("xml".toList :: as) = compileToXml T as := by
  simp [compileTo]

theorem compileToDot_ast (as : List Str) : compileToDot T ("ast".toList :: as) = compileToDotAst T as := by
  simp [compileToDot]

theorem compileToDot_flowgraph (as : List Str) :
    compileToDot T ("flowgraph".toList :: as) = compileToDotFlowgraph T as := by
  simp [compileToDot]

/-- What becomes of the result of compiling. -/
def compiled : Result Bool × World S → Exit × World S
  | (.ok b, w) => (.ofStatus b, w)
  | (.fernError m, w) => (.failure, w.complain (m ++ "\n".toList))
  | (.otherError m, w) => (.failure, w.complain (m ++ "\n".toList))
  | (.aborts, w) => (.abort, w)

theorem compile_run (as : List Str) (w : World S) :
    main T ("compile".toList :: as) w = compiled (compileTo T as w) := by
  rw [main_compile, handled, compileCommand]
  rcases compileTo T as w with ⟨_ | _ | _ | _, w'⟩ <;> rfl

/-! Standard error only grows, and grows if the status is a failing one. -/

/-- A step only adds to standard error, and adds something if it tells about failing. -/
def Tells (m : Step S Bool) : Prop :=
  ∀ w, ∃ s, (m w).2.err = w.err ++ s ∧ ((m w).1 = .ok false → s ≠ [])

theorem adds_ok {α : Type} (a : α) : Adds (S := S) fun w => (.ok a, w) := fun w => ⟨[], by simp⟩

theorem adds_say {α : Type} (a : α) (s : Str) : Adds (S := S) fun w => (.ok a, w.say s) := fun w => ⟨[], by simp [World.say]⟩

theorem adds_next {α β : Type} {m : Step S α} {k : α → Step S β} (hm : Adds m) (hk : ∀ a, Adds (k a)) :
    Adds (m.next k) := by
  intro w
  obtain ⟨s, hs⟩ := hm w
  rw [Step.next]
  rcases hr : m w with ⟨a | _ | _ | _, w'⟩ <;> rw [hr] at hs <;> simp only at hs
  · obtain ⟨t, ht⟩ := hk a w'
    exact ⟨s ++ t, by simp [ht, hs]⟩
  all_goals exact ⟨s, hs⟩

theorem tells_next {α : Type} {m : Step S α} {k : α → Step S Bool} (hm : Adds m) (hk : ∀ a, Tells (k a)) :
    Tells (m.next k) := by
  intro w
  obtain ⟨s, hs⟩ := hm w
  rw [Step.next]
  rcases hr : m w with ⟨a | _ | _ | _, w'⟩ <;> rw [hr] at hs <;> simp only at hs
  · obtain ⟨t, ht, hf⟩ := hk a w'
    exact ⟨s ++ t, by simp [ht, hs], fun e => by simp [hf e]⟩
  all_goals exact ⟨s, hs, fun e => by cases e⟩

theorem tells_true : Tells (S := S) fun w => (.ok true, w) := fun w => ⟨[], by simp, fun e => by cases e⟩

theorem tells_say (s : Str) : Tells (S := S) fun w => (.ok true, w.say s) :=
  fun w => ⟨[], by simp [World.say], fun e => by cases e⟩

theorem tells_usage (p : Page) : Tells (usage T p) := tells_say _

theorem tells_refuse (c : String) (h : c.toList ≠ []) (p : Page) : Tells (refuse T c p) :=
  fun _ => ⟨c.toList, rfl, fun _ => h⟩

theorem adds_write (s n : Str) : Adds (write T s n) := by
  intro w
  refine ⟨[], ?_⟩
  rw [write]
  split <;> simp [World.say]

theorem tells_cpp (h : AllAdd T) (as : List Str) : Tells (compileToCpp T as) := by
  unfold compileToCpp
  split
  · exact tells_usage T _
  · simp only
    split
    · exact tells_refuse T _ (by decide) _
    · split
      · exact tells_refuse T _ (by decide) _
      · exact tells_next (h.compile _ _ _) fun _ => tells_true

theorem tells_ast (h : AllAdd T) (as : List Str) : Tells (compileToDotAst T as) := by
  unfold compileToDotAst
  split
  · exact tells_usage T _
  · simp only
    split
    · exact tells_refuse T _ (by decide) _
    · split
      · exact tells_refuse T _ (by decide) _
      · exact tells_next (h.parseFile _) fun _ => tells_next (h.dotAst _ _) fun _ =>
          tells_next (adds_write T _ _) fun _ => tells_true

theorem tells_flowgraph (h : AllAdd T) (as : List Str) : Tells (compileToDotFlowgraph T as) := by
  unfold compileToDotFlowgraph
  split
  · exact tells_usage T _
  · split
    · exact tells_refuse T _ (by decide) _
    · split
      · exact tells_refuse T _ (by decide) _
      · exact tells_next (h.parseFile _) fun _ => tells_next (h.dotFlowgraph _) fun _ =>
          tells_next (adds_write T _ _) fun _ => tells_true

theorem tells_unknown (a b : Str) (h : a ≠ []) : Tells (S := S) fun w => (.ok false, (w.complain a).complain b) :=
  fun w => ⟨a ++ b, by simp [World.complain], fun _ => by simp [h]⟩

theorem tells_dot (h : AllAdd T) (as : List Str) : Tells (compileToDot T as) := by
  unfold compileToDot
  split
  · exact tells_usage T _
  · split
    · exact tells_usage T _
    · split
      · exact tells_ast T h _
      · split
        · exact tells_flowgraph T h _
        · exact tells_unknown _ _ (by simp)

theorem tells_xml (as : List Str) : Tells (compileToXml T as) := by
  unfold compileToXml
  split
  · exact tells_usage T _
  · split
    · exact tells_refuse T _ (by decide) _
    · exact tells_say _

theorem tells_compileTo (h : AllAdd T) (as : List Str) : Tells (compileTo T as) := by
  unfold compileTo
  split
  · exact tells_usage T _
  · split
    · exact tells_usage T _
    · split
      · exact tells_say _
      · split
        · exact tells_dot T h _
        · split
          · exact tells_cpp T h _
          · split
            · exact tells_say _
            · split
              · exact tells_xml T _
              · exact tells_unknown _ _ (by simp)

theorem tells_compile (h : AllAdd T) (as : List Str) : Tells (compileCommand T as) := by
  intro w
  obtain ⟨s, hs, hf⟩ := tells_compileTo T h as w
  rw [compileCommand]
  rcases hr : compileTo T as w with ⟨_ | m | m | _, w'⟩ <;> rw [hr] at hs hf <;> simp only at hs
  · exact ⟨s, hs, hf⟩
  · exact ⟨s ++ (m ++ "\n".toList), by simp [World.complain, hs], fun _ => by simp⟩
  · exact ⟨s ++ (m ++ "\n".toList), by simp [World.complain, hs], fun _ => by simp⟩
  · exact ⟨s, hs, hf⟩

theorem adds_features (h : AllAdd T) (d : Dataset) (ns : List Str) : Adds (describeFeatures T d ns) := by
  induction ns with
  | nil => exact adds_ok _
  | cons n ns ih => exact adds_next (adds_next (h.openFeature _ _) fun _ => adds_say _ _) fun _ => ih

theorem adds_describe (h : AllAdd T) (n : Str) : Adds (describe T n) := by
  unfold describe
  split
  · exact fun w => ⟨[], by simp⟩
  · refine adds_next (h.datasetExists _) fun b => ?_
    split
    · exact adds_say _ _
    · refine adds_next (h.openDataset _) fun d => ?_
      split
      · refine adds_next (h.containsFeature _ _) fun b => ?_
        split
        · exact adds_next (h.openFeature _ _) fun _ => adds_say _ _
        · refine adds_next (h.containsAttribute _ _) fun b => ?_
          split
          · exact adds_next (h.openAttribute _ _) fun _ => adds_say _ _
          · exact adds_say _ _
      · exact adds_next (h.featureNames _) fun _ => adds_features T h _ _

theorem tells_describe (h : AllAdd T) (as : List Str) : Tells (describeCommand T as) := by
  unfold describeCommand
  split
  · exact tells_usage T _
  · split
    · exact tells_refuse T _ (by decide) _
    · exact tells_next (adds_describe T h _) fun _ => tells_true

theorem tells_execute (h : AllAdd T) (as : List Str) : Tells (executeCommand T as) := by
  unfold executeCommand
  split
  · exact tells_usage T _
  · split
    · exact tells_refuse T _ (by decide) _
    · exact tells_next (h.parseFile _) fun _ => tells_next (h.execute _) fun _ => tells_true

theorem tells_import (as : List Str) : Tells (importCommand T as) := by
  unfold importCommand
  split
  · exact tells_usage T _
  · split
    · exact tells_refuse T _ (by decide) _
    · split
      · exact tells_refuse T _ (by decide) _
      · exact tells_true

theorem handled_tells {m : Step S Bool} (h : Tells m) (w : World S) :
    ∃ s, (handled T m w).2.err = w.err ++ s ∧ ((handled T m w).1 = .failure → s ≠ []) := by
  obtain ⟨s, hs, hf⟩ := h w
  rw [handled]
  rcases hr : m w with ⟨b | e | e | _, w'⟩ <;> rw [hr] at hs hf <;> simp only at hs
  · refine ⟨s, hs, fun e => hf ?_⟩
    cases b
    · rfl
    · cases e
  · exact ⟨s ++ (T.what ++ "\n".toList), by simp [World.complain, hs], fun _ => by simp⟩
  · exact ⟨s ++ (e ++ "\n".toList), by simp [World.complain, hs], fun _ => by simp⟩
  · exact ⟨s, hs, fun e => by cases e⟩

end Fern.Command
