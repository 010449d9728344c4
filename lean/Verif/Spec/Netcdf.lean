import Verif.Spec.Strings
import Verif.Model.Netcdf

/-!
# Which conventions a dataset names, and what can be read
-/

namespace Fern.Netcdf.Spec

open Fern.Spec

/-- White space. -/
def Space (c : Char) : Prop :=
  c = ' ' ∨ c = '\t' ∨ c = '\n' ∨ c = '\x0b' ∨ c = '\x0c' ∨ c = '\r'

/-- `t` is one of the parts of `s` between separators: it is not empty, has no separators, and reaches on both sides
to a separator or to the end. -/
def Part (sep : Char → Prop) (s t : List Char) : Prop :=
  t ≠ [] ∧ (∀ c ∈ t, ¬ sep c) ∧ ∃ a b, s = a ++ t ++ b ∧
    (a = [] ∨ ∃ c, a.getLast? = some c ∧ sep c) ∧ (b = [] ∨ ∃ c, b.head? = some c ∧ sep c)

/-- The text of the attribute names a convention: as documented, the names are separated by commas if there is
one, otherwise by white space. -/
def Names (value name : List Char) : Prop :=
  (',' ∈ value ∧ ∃ part, Part (· = ',') value part ∧ Stripped Space part name) ∨
    (',' ∉ value ∧ Part Space value name)

/-- The value of the attribute `Conventions`, where it is a text that does not end with a null character. -/
def Conventions {α : Type} (d : Dataset α) (value : List Char) : Prop :=
  d.attr "Conventions".toList = some (.text value) ∧ value.getLast? ≠ some '\x00'

/-- The attribute `Conventions` is there, but is no text, or ends with a null character. -/
def Unusable {α : Type} (d : Dataset α) : Prop :=
  ∃ a, d.attr "Conventions".toList = some a ∧
    ∀ value, a = .text value → value.getLast? = some '\x00'

/-- The dataset says that it follows the conventions of COARDS. -/
def Coards {α : Type} (d : Dataset α) : Prop :=
  ∃ value, Conventions d value ∧ Names value "COARDS".toList

end Fern.Netcdf.Spec
