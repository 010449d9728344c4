import Verif.Spec.Strings

/-!
# Canonical paths
-/

namespace Fern.Spec

/-- The absolute path with these components: a slash before each component; the root has
none. -/
def absolutePath (names : List (List Char)) : List Char :=
  if names = [] then ['/'] else (names.map fun n => '/' :: n).flatten

/-- `s` has the form `database` or `database:rest`, where `database` is not empty and holds no
colon, and `rest` (empty if left out) may be anything on one line. -/
def NameParts (s database rest : List Char) : Prop :=
  database ≠ [] ∧ ':' ∉ database ∧ (s = database ∧ rest = [] ∨ s = database ++ ':' :: rest) ∧
    '\n' ∉ rest ∧ '\r' ∉ rest

end Fern.Spec
