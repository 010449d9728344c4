import Verif.Spec.Headers

/-!
# C112: the C++ files that are written belong together
-/

namespace Fern.Compiler

open Fern.Spec

private theorem squeeze_append (a b : Str) : squeeze (a ++ b) = squeeze a ++ squeeze b := List.filter_append ..

private theorem header_shape {l1 l2 l3 l4 n pre a b c d e f : Str} (h1 : squeeze l1 = pre ++ squeeze a)
    (h2 : squeeze l2 = squeeze b) (h3 : squeeze l3 = squeeze c)
    (h4 : squeeze l4 = squeeze d ++ (squeeze e ++ squeeze f)) :
    OccursIn (a ++ n ++ b ++ n ++ c ++ n ++ d ++ e ++ f) (l1 ++ n ++ l2 ++ n ++ l3 ++ n ++ l4) :=
  ⟨pre, [], by simp only [squeeze_append, h1, h2, h3, h4, List.append_assoc, List.append_nil]⟩

/-- **C112**: the header declares the class, with a constructor without parameters, a destructor and `run`, and nothing
else that has to be defined. -/
theorem C112_declared (n : Str) :
    OccursIn ("class ".toList ++ n ++ ": public fern::Module { public: ".toList ++ n ++ "(); ~".toList ++ n ++
      "(); void run".toList ++ runParameters ++ "; private: std::shared_ptr<fern::Operations> _operations; };".toList)
      (headerText n) := by
  unfold headerText
  refine header_shape (pre := ("#pragmaonce#include\"fern/language/compiler/module.h\"" ++
    "#include\"fern/language/operation/std/operations.h\"").toList) ?_ ?_ ?_ ?_
  · decide +kernel
  · decide +kernel
  · decide +kernel
  · decide +kernel

private theorem module_shape {l0 hd l1 n l2 l3 di l4 out l5 l6 l7 l8 rest a b c d e f g r1 r2 : Str}
    (h0 : l1 = a ++ r1) (h1 : squeeze l2 = squeeze b) (h2 : squeeze l3 = squeeze c)
    (h5 : squeeze l5 = squeeze d) (h6 : squeeze l6 = squeeze e) (h7 : squeeze l7 = squeeze f)
    (h8 : squeeze l8 = squeeze g ++ (squeeze runParameters ++ (squeeze ['{'] ++ r2))) {text : Str}
    (ht : text = l0 ++ hd ++ l1 ++ n ++ l2 ++ n ++ l3 ++ di ++ l4 ++ out ++ l5 ++ n ++ l6 ++ n ++ l7 ++ n ++ l8 ++ rest) :
    (∃ after, text = l0 ++ hd ++ a ++ after) ∧ OccursIn (n ++ b ++ n ++ c) text ∧
    OccursIn (d ++ n ++ e ++ n ++ f ++ n ++ g ++ runParameters ++ ['{']) text := by
  refine ⟨⟨r1 ++ (n ++ (l2 ++ (n ++ (l3 ++ (di ++ (l4 ++ (out ++ (l5 ++ (n ++ (l6 ++ (n ++ (l7 ++ (n ++ (l8 ++ rest)))))))))))))), ?_⟩,
    ⟨squeeze (l0 ++ hd ++ l1), squeeze (di ++ l4 ++ out ++ l5 ++ n ++ l6 ++ n ++ l7 ++ n ++ l8 ++ rest), ?_⟩,
    ⟨squeeze (l0 ++ hd ++ l1 ++ n ++ l2 ++ n ++ l3 ++ di ++ l4 ++ out), r2 ++ squeeze rest, ?_⟩⟩
  · rw [ht, h0]; simp only [List.append_assoc]
  · rw [ht]; simp only [squeeze_append, h1, h2, List.append_assoc]
  · rw [ht]; simp only [squeeze_append, h5, h6, h7, h8, List.append_assoc]

/-- **C112**: the C++ module begins by including the header and defines what the header declares, with the same
parameters. -/
theorem C112_defined (known : Str → Bool) (header n text : Str) (m : Module)
    (h : compileModule known header n m = some text) :
    (∃ after, text = "#include \"".toList ++ header ++ "\"\n".toList ++ after) ∧
    OccursIn (n ++ "::".toList ++ n ++ "() : fern::Module({ // Inputs.".toList) text ∧
    OccursIn ("}), _operations(fern::operations()) { }".toList ++ n ++ "::~".toList ++ n ++ "() { } void ".toList ++ n ++
      "::run".toList ++ runParameters ++ ['{']) text := by
  unfold compileModule at h
  obtain ⟨io, -, h⟩ := Option.bind_eq_some_iff.1 h
  obtain ⟨body, -, h⟩ := Option.map_eq_some_iff.1 h
  unfold moduleBegin at h
  generalize descriptionsText io.inputs = di at h
  generalize descriptionsText (io.outputs.map (·.n)) = out at h
  rw [List.append_assoc _ (joinBody body)] at h
  refine module_shape (r1 := ['\n', '\n']) (r2 := "check_sources_and_syncs(data_sources,data_syncs);".toList)
    ?_ ?_ ?_ ?_ ?_ ?_ ?_ h.symm
  all_goals decide +kernel

private theorem driver_shape {l0 hd l1 n l2 a b c d r0 r1 r2 r3 : Str} (h0 : squeeze l0 = r0 ++ squeeze a)
    (h1 : squeeze l1 = squeeze b ++ r1) (h2 : squeeze l2 = squeeze c ++ (r2 ++ (squeeze d ++ r3))) :
    OccursIn (a ++ hd ++ b) (l0 ++ hd ++ l1 ++ n ++ l2) ∧ OccursIn (n ++ c) (l0 ++ hd ++ l1 ++ n ++ l2) ∧
    OccursIn d (l0 ++ hd ++ l1 ++ n ++ l2) := by
  refine ⟨⟨r0, r1 ++ squeeze (n ++ l2), ?_⟩, ⟨squeeze (l0 ++ hd ++ l1), r2 ++ (squeeze d ++ r3), ?_⟩,
    ⟨squeeze (l0 ++ hd ++ l1 ++ n ++ c) ++ r2, r3, ?_⟩⟩ <;>
  simp only [squeeze_append, h0, h1, h2, List.append_assoc]

/-- **C112**: the main program includes the header, makes a module without arguments, and calls its `run` with two
arguments. -/
theorem C112_driver (header n : Str) :
    OccursIn ("#include \"".toList ++ header ++ "\" int main(int argc, char** argv) {".toList) (driverText header n) ∧
    OccursIn (n ++ " module; std::vector<std::shared_ptr<fern::DataSource>> sources;".toList) (driverText header n) ∧
    OccursIn "module.run(sources, syncs);".toList (driverText header n) := by
  unfold driverText
  refine driver_shape
    (r0 := ("#include<cstdlib>#include<iostream>#include\"fern/core/exception.h\"" ++
      "#include\"fern/language/io/io_client.h\"#include\"fern/language/compiler/parse_command_line.h\"").toList)
    (r1 := "intstatus=EXIT_FAILURE;try{fern::IOClientio_client;".toList)
    (r2 := ("std::vector<std::shared_ptr<fern::DataSync>>syncs;" ++
      "std::tie(sources,syncs)=fern::parse_command_line(argc,argv,module.arguments(),module.results());").toList)
    (r3 := ("status=EXIT_SUCCESS;}catch(fern::Exceptionconst&exception){std::cerr<<exception.message()<<\"\\n\";}" ++
      "catch(std::exceptionconst&exception){std::cerr<<exception.what()<<\"\\n\";}returnstatus;}").toList) ?_ ?_ ?_
  all_goals decide +kernel

/-- The header and the main program of a module that is called `x`. -/
example : OccursIn "x(); ~x();".toList (headerText ['x']) := by
  obtain ⟨p, q, h⟩ := C112_declared ['x']
  exact ⟨p ++ squeeze "class x: public fern::Module { public: ".toList,
    squeeze ("void run".toList ++ runParameters ++ "; private: std::shared_ptr<fern::Operations> _operations; };".toList) ++ q,
    by rw [h]; simp only [squeeze_append, List.append_assoc]; congr 1⟩

end Fern.Compiler
