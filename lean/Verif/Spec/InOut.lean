import Verif.Spec.Identify
import Verif.Model.Identify

/-!
# The names used and the definitions of a module, in lexical order
-/

namespace Fern.Spec

/-- The names used. -/
def usedNames (ts : List Token) : List Str :=
  ts.filterMap fun
    | .use n _ => some n
    | _ => none

/-- The definitions. -/
def definitions (ts : List Token) : List NameRef :=
  ts.filterMap fun
    | .define n v => some ⟨v, n⟩
    | _ => none

/-- Each name once, in the order of their first occurrences. -/
def firsts : List Str → List Str
  | [] => []
  | n :: l => n :: (firsts l).filter fun m => decide (m ≠ n)

/-- The definitions that no definition of the same name follows. -/
def lastDefinitions : List NameRef → List NameRef
  | [] => []
  | d :: l => if ∃ d' ∈ l, d'.n = d.n then lastDefinitions l else d :: lastDefinitions l

end Fern.Spec
