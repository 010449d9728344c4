import Verif.Model.Compiler

/-!
# C++ texts without their layout
-/

namespace Fern.Spec

/-- The text without blanks and ends of lines. -/
def squeeze (s : Str) : Str := s.filter fun c => !(c = ' ' || c = '\n')

/-- The text occurs in another one, whatever the layout. -/
def OccursIn (s text : Str) : Prop := ∃ before after, squeeze text = before ++ (squeeze s ++ after)

/-- The parameters of `run`. -/
def runParameters : Str :=
  ("(std::vector<std::shared_ptr<fern::DataSource>> const& data_sources, " ++
   "std::vector<std::shared_ptr<fern::DataSync>> const& data_syncs) const").toList

end Fern.Spec
