import Mathlib.Data.List.Basic
import Mathlib.Data.List.DropRight

/-!
# String functions

Model of `core/string.cc`. A string is the list of its characters.
-/

namespace Fern

/-- A `std::string` / `fern::String`, as the list of its characters. -/
abbrev Str := List Char

/-- White space in the "C" locale, as used by the bracket expression `[[:space:]]`
(`core/string.cc:99-104`) and by `boost::algorithm::trim` (`core/string.cc:130`). -/
def isSpace (c : Char) : Bool :=
  c.toNat == 32 || (9 ≤ c.toNat && c.toNat ≤ 13)

/-- The predicate `characters.find(c) != std::string::npos`
(`core/string.cc:150-151`, `165-166`). -/
def inSet (characters : Str) (c : Char) : Bool := characters.contains c

/-- Characters which have a meaning of their own in a bracket expression of a regular
expression. `split` (`core/string.cc:103-104`) pastes its argument between brackets; the model
covers arguments without such characters, for which the bracket expression is the set of the
characters. -/
def bracketSpecial (c : Char) : Bool :=
  c == '[' || c == ']' || c == '-' || c == '^' || c == '\\'

/-- The pieces of the text between the matches of `[characters]+`: the text before the first
match (the whole text if there is none), followed by the pieces of the text behind the match,
which is as long as possible (`std::sregex_token_iterator` with sub match -1,
`core/string.cc:107-108`). -/
def pieces (sep : Char → Bool) (s : Str) : List Str :=
  match _h : s.dropWhile (fun c => !sep c) with
  | [] => [s]
  | _ :: rest => s.takeWhile (fun c => !sep c) :: pieces sep (rest.dropWhile sep)
termination_by s.length
decreasing_by
  have h1 := List.length_dropWhile_le (fun c => !sep c) s
  have h2 := List.length_dropWhile_le sep rest
  rw [_h, List.length_cons] at h1
  omega

/-- `copy_if` of the non-empty pieces (`core/string.cc:105-112`). -/
def splitBy (sep : Char → Bool) (s : Str) : List Str :=
  (pieces sep s).filter (fun w => !w.isEmpty)

/-- `split` (`core/string.cc:95-113`): white space if no characters are given. `none` for
arguments which the model does not cover, see `bracketSpecial`. -/
def split (s characters : Str) : Option (List Str) :=
  if characters.isEmpty then some (splitBy isSpace s)
  else if characters.any bracketSpecial then none
  else some (splitBy (inSet characters) s)

/-- `boost::trim_left_if` (called in `core/string.cc:150`). -/
def trimLeftIf (p : Char → Bool) (s : Str) : Str := s.dropWhile p

/-- `boost::trim_right_if` (called in `core/string.cc:165`). -/
def trimRightIf (p : Char → Bool) (s : Str) : Str := (s.reverse.dropWhile p).reverse

/-- `strip_begin` (`core/string.cc:146-153`). -/
def stripBegin (s characters : Str) : Str := trimLeftIf (inSet characters) s

/-- `strip_end` (`core/string.cc:161-168`). -/
def stripEnd (s characters : Str) : Str := trimRightIf (inSet characters) s

/-- `strip` (`core/string.cc:125-138`). `boost::trim` trims the right hand side first. -/
def strip (s characters : Str) : Str :=
  if characters.isEmpty then trimLeftIf isSpace (trimRightIf isSpace s)
  else stripEnd (stripBegin s characters) characters

/-- `join` (`core/string.cc:181-186`), `boost::algorithm::join`: the first string, then for
each further string the separator and the string. -/
def join : List Str → Str → Str
  | [], _ => []
  | [s], _ => s
  | s :: t :: ts, separator => s ++ (separator ++ join (t :: ts) separator)

/-- `starts_with` (`core/string.cc:205-210`). -/
def startsWith (s sub : Str) : Bool := sub.isPrefixOf s

/-- `ends_with` (`core/string.cc:217-222`). -/
def endsWith (s sub : Str) : Bool := sub.reverse.isPrefixOf s.reverse

/-- `contains` (`core/string.cc:193-198`): `std::string::find` tries every position. -/
def containsSub : Str → Str → Bool
  | [], sub => sub.isEmpty
  | c :: cs, sub => startsWith (c :: cs) sub || containsSub cs sub

/-- The loop of `boost::replace_all`: copy up to the next occurrence, insert the new string,
go on behind the occurrence. -/
def replaceLoop (old new : Str) (s : Str) : Str :=
  match s with
  | [] => []
  | c :: cs =>
    if startsWith (c :: cs) old && !old.isEmpty then
      new ++ replaceLoop old new ((c :: cs).drop old.length)
    else c :: replaceLoop old new cs
termination_by s.length
decreasing_by
  · rename_i h
    simp only [Bool.and_eq_true, Bool.not_eq_true', List.isEmpty_eq_false_iff] at h
    have := List.length_pos_iff.2 h.2
    simp only [List.length_drop, List.length_cons]
    omega
  · simp

/-- `replace` (`core/string.cc:241-248`). An empty `old_string` is never found by boost. -/
def replaceAll (s old new : Str) : Str := replaceLoop old new s

end Fern
