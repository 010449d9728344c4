import Verif.Spec.Flow

/-!
# Reading a graph

A reader for the part of the language of Graphviz that is needed.
-/

namespace Fern.Dot.Spec

open Fern.Spec

/-- What a reader of the text of a graph finds; vertices are texts. -/
inductive Shown
  | node (v label rest : Str)
  | edge (a b attributes : Str)
  | cluster (v label : Str)
  | box (k : Str)
  | close
  deriving DecidableEq

/-- The text behind an expected text. -/
def expect : Str → Str → Option Str
  | [], s => some s
  | _ :: _, [] => none
  | p :: ps, c :: s => if p = c then expect ps s else none

/-- A quoted text, from behind its first quote: it ends at the first quote that is not behind a backslash. -/
def quoted : Str → Option (Str × Str)
  | [] => none
  | '"' :: s => some ([], s)
  | '\\' :: [] => none
  | '\\' :: c :: s => (quoted s).map fun r => ('\\' :: c :: r.1, r.2)
  | c :: s => (quoted s).map fun r => (c :: r.1, r.2)

/-- The text up to a character and the text behind it. -/
def upTo (x : Char) : Str → Option (Str × Str)
  | [] => none
  | c :: s => if c = x then some ([], s) else (upTo x s).map fun r => (c :: r.1, r.2)

/-- The text is a list of attributes: names and values, with commas and spaces between them where one wants. -/
def listed : Nat → Str → Bool
  | 0, s => s.isEmpty
  | n + 1, s =>
    let s := s.dropWhile fun c => c = ' ' || c = ','
    if s.isEmpty then true
    else if (s.takeWhile Char.isAlpha).isEmpty then false
    else match s.dropWhile Char.isAlpha with
      | '=' :: '"' :: s => (quoted s).any fun r => listed n r.2
      | '=' :: s =>
        let p : Char → Bool := fun c => c ≠ ' ' && c ≠ ',' && c ≠ '"'
        !(s.takeWhile p).isEmpty && listed n (s.dropWhile p)
      | _ => false

/-- The attributes up to the end of the line. -/
def readEnd (s : Str) : Option (Str × Str) :=
  (upTo ']' s).bind fun r =>
    if listed r.1.length r.1 then (expect ";\n".toList r.2).map fun s => (r.1, s) else none

/-- A vertex or an edge, from behind the first quote. -/
def readLine (s : Str) : Option (Shown × Str) :=
  (quoted s).bind fun a =>
  match expect " [label=\"".toList a.2 with
  | some s => (quoted s).bind fun l => (readEnd l.2).map fun r => (.node a.1 l.1 r.1, r.2)
  | none =>
    (expect " -> \"".toList a.2).bind fun s => (quoted s).bind fun b =>
    (expect " [".toList b.2).bind fun s => (readEnd s).map fun r => (.edge a.1 b.1 r.1, r.2)

/-- The beginning of a box. -/
def readBox (s : Str) : Option (Shown × Str) :=
  match expect "subgraph cluster_".toList s with
  | some s =>
    (upTo ' ' s).bind fun a => (expect "{\nlabel=\"".toList a.2).bind fun s =>
    (quoted s).bind fun l => (expect ";\n".toList l.2).map fun s => (.cluster a.1 l.1, s)
  | none =>
    (expect "subgraph cluster".toList s).bind fun s => (upTo ' ' s).bind fun a =>
    (expect "{\nordering=out;\nrankdir=TB;\n".toList a.2).map fun s => (.box a.1, s)

/-- One item. -/
def readItem (s : Str) : Option (Shown × Str) :=
  match expect "\"".toList s with
  | some s => readLine s
  | none =>
    match expect "}\n".toList s with
    | some s => some (.close, s)
    | none => readBox s

/-- All items, as many as `n` at most. -/
def readItems : Nat → Str → Option (List Shown)
  | 0, s => if s = [] then some [] else none
  | n + 1, s => if s = [] then some [] else (readItem s).bind fun r => (readItems n r.2).map (r.1 :: ·)

/-- A graph: what is behind its first line up to the end of the text, the last brace included. -/
def readGraph (header s : Str) : Option (List Shown) :=
  (expect header s).bind fun s => readItems s.length s

/-- The text can stand between quotes: every quote in it is behind a backslash, and it does not end with a
backslash that is not itself behind one. -/
def closed : Str → Bool
  | [] => true
  | '"' :: _ => false
  | '\\' :: [] => false
  | '\\' :: _ :: s => closed s
  | _ :: s => closed s

/-- An item as it is meant to be read. -/
def shown (addr : Vid → Str) : Item → Shown
  | .node v l r => .node (addr v) l r
  | .edge a b x => .edge (addr a) (addr b) x
  | .cluster v l => .cluster (addr v) l
  | .box k => .box (Nat.toDigits 10 k)
  | .close => .close

/-- Addresses are written without quotes, backslashes and spaces, different ones differently. -/
structure Addresses (addr : Vid → Str) : Prop where
  plain : ∀ v, ∀ c ∈ addr v, c ≠ '"' ∧ c ≠ '\\' ∧ c ≠ ' '
  different : ∀ a b, addr a = addr b → a = b

/-- What an expression contributes to labels as it is. -/
def word (fmt : FloatFormat) : Expr → Str
  | .name _ n => n
  | .number _ n => numberText fmt n
  | .string _ s => s
  | .call _ n _ => n
  | .operator _ _ _ | .subscript _ _ _ | .attribute _ _ _ => []

/-- The names of a statement that appear in labels. -/
def stmtWords : Stmt → List Str
  | .assign _ _ n _ => [n]
  | .function _ n _ _ _ _ => [n]
  | _ => []

/-- All names, numbers and strings of a module can stand between quotes. -/
structure ClosedWords (fmt : FloatFormat) (m : Module) : Prop where
  terms : ∀ e ∈ allTerms m, closed (word fmt e) = true
  names : ∀ s ∈ stmtsAll m.statements, ∀ n ∈ stmtWords s, closed n = true

/-- The same for the part of the module that is in the graph of the flow of data. -/
structure ClosedFlowWords (fmt : FloatFormat) (m : Module) : Prop where
  terms : ∀ s ∈ flowsAll m.statements, ∀ e ∈ partTerms s, closed (word fmt e) = true
  names : ∀ s ∈ flowsAll m.statements, ∀ n ∈ stmtWords s, closed n = true

end Fern.Dot.Spec
