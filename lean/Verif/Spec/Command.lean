import Verif.Model.Command

/-! What using the `fern` command should do, apart from how the words are taken apart. -/

namespace Fern.Spec.Command

open Fern Fern.Command

variable {S Tree Dataset : Type}

/-- The world after a text on standard output and one on standard error, with all else as it was. -/
def texts (w : World S) (out err : Str) : World S := ⟨w.out ++ out, w.err ++ err, w.state⟩

/-- How a step that does the whole work shows: an error as one line of standard error and a failing status. -/
def shown (line : Str → Str) : Result Unit × World S → Exit × World S
  | (.ok _, w) => (.success, w)
  | (.fernError m, w) => (.failure, texts w [] (line m ++ ['\n']))
  | (.otherError m, w) => (.failure, texts w [] (m ++ ['\n']))
  | (.aborts, w) => (.abort, w)

/-- Where the script comes from: an empty name is standard input. -/
inductive Source : Str → Str → Prop
  | standardInput : Source ['-'] []
  | file (name : Str) (h : name ≠ ['-']) : Source name name

/-- The words that are options of `compile c++`. -/
def CppOption (a : Str) : Prop := a = "--dump_driver".toList ∨ a = "--dump_cmake".toList

/-- The words that are options of `compile dot ast`. -/
def AstOption (a : Str) : Prop := a = "--with-cfg".toList ∨ a = "--with-use".toList

/-- One bit for each option that occurs, however often and wherever. -/
def CppBits (used : List Str) (flags : Nat) : Prop :=
  flags < 8 ∧ flags.testBit 0 = false ∧ (flags.testBit 1 = true ↔ "--dump_driver".toList ∈ used) ∧
    (flags.testBit 2 = true ↔ "--dump_cmake".toList ∈ used)

@[inherit_doc CppBits]
def AstBits (used : List Str) (modes : Nat) : Prop :=
  modes < 16 ∧ modes.testBit 0 = false ∧ modes.testBit 1 = false ∧
    (modes.testBit 2 = true ↔ "--with-cfg".toList ∈ used) ∧ (modes.testBit 3 = true ↔ "--with-use".toList ∈ used)

/-- The words that are looked at first. -/
def known : List Str :=
  ["--help", "--version", "--build", "compile", "describe", "execute", "import"].map (·.toList)

/-- A step only adds to standard error. -/
def Adds {α : Type} (m : Step S α) : Prop := ∀ w, ∃ s, (m w).2.err = w.err ++ s

/-- All steps only add to standard error. -/
structure AllAdd (T : Tools S Tree Dataset) : Prop where
  interpreter : Adds T.interpreter
  parseFile : ∀ n, Adds (T.parseFile n)
  execute : ∀ t, Adds (T.execute t)
  dotAst : ∀ t n, Adds (T.dotAst t n)
  dotFlowgraph : ∀ t, Adds (T.dotFlowgraph t)
  compile : ∀ i o f, Adds (T.compile i o f)
  datasetExists : ∀ n, Adds (T.datasetExists n)
  openDataset : ∀ n, Adds (T.openDataset n)
  containsFeature : ∀ d n, Adds (T.containsFeature d n)
  containsAttribute : ∀ d n, Adds (T.containsAttribute d n)
  openFeature : ∀ d n, Adds (T.openFeature d n)
  openAttribute : ∀ d n, Adds (T.openAttribute d n)
  featureNames : ∀ d, Adds (T.featureNames d)

end Fern.Spec.Command
