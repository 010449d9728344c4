import Verif.Model.Strings

/-!
# Data names

Model of the constructor of `DataName` (`core/data_name.cc:34-72`).
-/

namespace Fern

/-- The characters which `.` does not match in an ECMAScript regular expression of
`std::regex`. -/
def isLineTerminator (c : Char) : Bool := c == '\n' || c == '\r'

/-- `std::regex_match(string, match, ([^:]+)(?::(.+)?)?)` (`core/data_name.cc:22`, `40-50`):
the two sub matches. `[^:]+` ends at the first colon (or at the end), what follows the colon is
the second sub match. `none`: no match, `assert(false)`. -/
def matchDataName (s : Str) : Option (Str × Str) :=
  let database := s.takeWhile (fun c => !(c == ':'))
  if database.isEmpty then none
  else match s.dropWhile (fun c => !(c == ':')) with
    | [] => some (database, [])
    | _ :: rest => if rest.any isLineTerminator then none else some (database, rest)

theorem replaceLoop_length (old new : Str) (hl : new.length ≤ old.length) (s : Str) :
    (replaceLoop old new s).length ≤ s.length := by
  induction hn : s.length using Nat.strong_induction_on generalizing s with
  | _ n ih =>
    cases s with
    | nil => rw [replaceLoop]; simp
    | cons c cs =>
      rw [replaceLoop]
      split
      · rename_i h
        rw [Bool.and_eq_true, Bool.not_eq_true', List.isEmpty_eq_false_iff, startsWith,
          List.isPrefixOf_iff_prefix] at h
        have h1 := h.1.length_le
        have h2 := List.length_pos_iff.2 h.2
        have h3 := ih _ (by rw [← hn, List.length_drop]; omega) ((c :: cs).drop old.length) rfl
        rw [List.length_append]
        rw [List.length_drop] at h3
        omega
      · have := ih cs.length (by rw [← hn]; simp) cs rfl
        simp only [List.length_cons] at *
        omega

theorem replaceLoop_length_lt (old new : Str) (hl : new.length < old.length) (s : Str)
    (hc : containsSub s old = true) : (replaceLoop old new s).length < s.length := by
  induction s with
  | nil =>
    rw [containsSub, List.isEmpty_iff] at hc
    subst hc
    simp at hl
  | cons c cs ih =>
    rw [replaceLoop]
    split
    · rename_i h
      rw [Bool.and_eq_true, Bool.not_eq_true', List.isEmpty_eq_false_iff, startsWith,
        List.isPrefixOf_iff_prefix] at h
      have h1 := h.1.length_le
      have h3 := replaceLoop_length old new (by omega) ((c :: cs).drop old.length)
      rw [List.length_append]
      rw [List.length_drop] at h3
      omega
    · rename_i h
      have hne : old.isEmpty = false := by
        rw [List.isEmpty_eq_false_iff]
        rintro rfl
        simp at hl
      rw [containsSub, Bool.or_eq_true] at hc
      rcases hc with hc | hc
      · exact absurd (by rw [hc, hne]; rfl) h
      · have := ih hc
        simp only [List.length_cons]
        omega

/-- `while(contains(data_pathname, "//")) { replace(data_pathname, "//", "/"); }`
(`core/data_name.cc:57-59`). The loop ends because each round shortens the string. -/
def squeeze (s : Str) : Str :=
  if _h : containsSub s ['/', '/'] = true then squeeze (replaceAll s ['/', '/'] ['/']) else s
termination_by s.length
decreasing_by exact replaceLoop_length_lt _ _ (by simp) s _h

/-- The data pathname as it is stored (`core/data_name.cc:54-66`). -/
def canonicalPath (dataPathname : Str) : Str :=
  let s := squeeze (stripEnd dataPathname ['/'])
  if s.isEmpty then ['/']
  else if !startsWith s ['/'] then '/' :: s
  else s

/-- `DataName::DataName(std::string const&)` (`core/data_name.cc:34-72`): the pathname of the
dataset and the pathname of the data. `none`: an assertion fails. -/
def dataName (s : Str) : Option (Str × Str) :=
  match matchDataName s with
  | none => none
  | some (database, data) =>
    let path := canonicalPath data
    if startsWith path ['/'] then some (database, path) else none

/-- `Path::names` (`core/path.cc:82-85`): the components of a path. -/
def pathNames (s : Str) : Option (List Str) := split s ['/']

end Fern
