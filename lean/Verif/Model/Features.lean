import Verif.Model.DataName

/-!
# Features with child features and attributes

Model of `language/feature/core/feature.cc` and the part of `core/path.cc` it uses. Features are shared
(`std::shared_ptr`), so they live in a heap; a feature can be a child of several features.
-/

namespace Fern.Features

/-! ### Paths -/

/-- `std::filesystem::path` on POSIX systems: whether there is a root directory, the names, and whether the path ends
with a slash after the last name (it then has a last element which is empty). -/
structure Path where
  absolute : Bool
  names : List Str
  trailing : Bool
  deriving DecidableEq

/-- `Path::Path(std::string const&)` (`core/path.cc:24-30`). -/
def Path.ofString (s : Str) : Path :=
  let names := splitBy (· == '/') s
  ⟨s.head? == some '/', names, !names.isEmpty && s.getLast? == some '/'⟩

/-- `Path::generic_string` (`core/path.cc:51-54`). -/
def Path.genericString (p : Path) : Str :=
  (if p.absolute then ['/'] else []) ++ join p.names ['/'] ++ (if p.trailing then ['/'] else [])

/-- `Path::parent_path` (`core/path.cc:88-91`). -/
def Path.parentPath (p : Path) : Path :=
  if p.names.isEmpty then p
  else if p.trailing then { p with trailing := false }
  else { p with names := p.names.dropLast }

/-- `Path::filename` (`core/path.cc:94-97`). -/
def Path.filename (p : Path) : Str :=
  if p.trailing then [] else p.names.getLast?.getD []

/-- `path.parent_path().generic_string().empty()` -/
def Path.atTop (p : Path) : Bool := p.parentPath.genericString.isEmpty

/-! ### Outcomes -/

/-- What a member function does: return, throw `std::out_of_range`, fail an assertion, or behave in an undefined way. -/
inductive Res (α : Type)
  | ok (a : α)
  | outOfRange
  | assertion
  | undefined

namespace Res

/-- Sequencing. -/
def bind {α β : Type} : Res α → (α → Res β) → Res β
  | .ok a, f => f a
  | .outOfRange, _ => .outOfRange
  | .assertion, _ => .assertion
  | .undefined, _ => .undefined

end Res

/-- `assert(condition)`: if `NDEBUG` is defined the condition is not evaluated. -/
def check (asserts : Bool) (condition : Res Bool) : Res Unit :=
  if asserts then condition.bind fun b => if b then .ok () else .assertion else .ok ()

/-! ### Maps with strings as keys -/

/-- `std::string::operator<`. -/
def strLt : Str → Str → Bool
  | [], [] => false
  | [], _ :: _ => true
  | _ :: _, [] => false
  | a :: as, b :: bs => if a < b then true else if b < a then false else strLt as bs

/-- `std::map::insert`: the map, and whether the pair was inserted. -/
def insert {α : Type} (k : Str) (a : α) : List (Str × α) → List (Str × α) × Bool
  | [] => ([(k, a)], true)
  | (k', a') :: rest =>
    if strLt k k' then ((k, a) :: (k', a') :: rest, true)
    else if strLt k' k then ((k', a') :: (insert k a rest).1, (insert k a rest).2)
    else ((k', a') :: rest, false)

/-! ### Features -/

/-- `Feature::_features`, `Feature::_attributes` (`language/feature/core/feature.h:76-78`). A child feature is
referred to by its place in the heap. -/
structure Node (A : Type) where
  features : List (Str × Nat)
  attributes : List (Str × A)

/-- The features in memory. -/
abbrev Heap (A : Type) := Nat → Node A

/-- Store a feature. -/
def Heap.set {A : Type} (h : Heap A) (i : Nat) (n : Node A) : Heap A := fun j => if j = i then n else h j

variable {A : Type}

/-- `Feature::nr_features()` (`language/feature/core/feature.cc:19-22`). -/
def nrFeatures (h : Heap A) (this : Nat) : Nat := (h this).features.length

/-- `Feature::feature_names` (`language/feature/core/feature.cc:38-48`). -/
def featureNames (h : Heap A) (this : Nat) : List Str := (h this).features.map (·.1)

/-- `Feature::feature(std::vector<std::string>)` (`language/feature/core/feature.cc:104-125`); `none`: a null pointer. -/
def featureByNames (h : Heap A) (this : Nat) : List Str → Option Nat
  | [] => none
  | n :: rest =>
    match (h this).features.lookup n with
    | none => none
    | some c => if rest.isEmpty then some c else featureByNames h c rest

/-- `Feature::feature(Path const&)` (`language/feature/core/feature.cc:97-101`). -/
def feature (h : Heap A) (this : Nat) (path : Path) : Option Nat := featureByNames h this path.names

/-- `Feature::contains_feature` (`language/feature/core/feature.cc:56-62`). -/
def containsFeature (h : Heap A) (this : Nat) (path : Path) : Bool :=
  if path.atTop then ((h this).features.lookup path.genericString).isSome
  else (feature h this path).isSome

/-- `Feature::nr_features(Path const&)` (`language/feature/core/feature.cc:25-31`). -/
def nrFeaturesAt (asserts : Bool) (h : Heap A) (this : Nat) (path : Path) : Res Nat :=
  (check asserts (.ok (containsFeature h this path))).bind fun _ =>
    match feature h this path with
    | some c => .ok (nrFeatures h c)
    | none => .undefined

/-- `Feature::parent_feature` (`language/feature/core/feature.cc:212-229`); `none`: a null pointer. -/
def parentFeature (asserts : Bool) (h : Heap A) (this : Nat) (path : Path) : Res (Option Nat) :=
  (check asserts (.ok (path.atTop || containsFeature h this path.parentPath))).bind fun _ =>
    .ok (if path.atTop then some this else feature h this path.parentPath)

/-- Use of the pointer `parent_feature` returns. -/
def deref : Option Nat → Res Nat
  | some p => .ok p
  | none => .undefined

/-- `Feature::nr_attributes()` (`language/feature/core/feature.cc:130-133`). -/
def nrAttributes (h : Heap A) (this : Nat) : Nat := (h this).attributes.length

/-- `Feature::nr_attributes(Path const&)` (`language/feature/core/feature.cc:136-140`). -/
def nrAttributesAt (asserts : Bool) (h : Heap A) (this : Nat) (path : Path) : Res Nat :=
  (parentFeature asserts h this path).bind fun p => (deref p).bind fun p => .ok (nrAttributes h p)

/-- `Feature::attribute_names` (`language/feature/core/feature.cc:147-157`). -/
def attributeNames (h : Heap A) (this : Nat) : List Str := (h this).attributes.map (·.1)

/-- `Feature::attribute` (`language/feature/core/feature.cc:204-209`). -/
def attributeAt (asserts : Bool) (h : Heap A) (this : Nat) (path : Path) : Res A :=
  (parentFeature asserts h this path).bind fun p => (deref p).bind fun p =>
    match (h p).attributes.lookup path.filename with
    | some a => .ok a
    | none => .outOfRange

/-- `Feature::contains_attribute` (`language/feature/core/feature.cc:165-172`). Pointers to attributes are not
null. -/
def containsAttribute (asserts : Bool) (h : Heap A) (this : Nat) (path : Path) : Res Bool :=
  if path.atTop then .ok ((h this).attributes.lookup path.genericString).isSome
  else (attributeAt asserts h this path).bind fun _ => .ok true

/-- `Feature::add_feature` (`language/feature/core/feature.cc:73-89`). -/
def addFeature (asserts : Bool) (h : Heap A) (this : Nat) (path : Path) (f : Nat) : Res (Heap A) :=
  (check asserts ((containsAttribute asserts h this path).bind fun b => .ok (!b))).bind fun _ =>
    (parentFeature asserts h this path).bind fun p => (deref p).bind fun p =>
      let result := insert path.filename f (h p).features
      (check asserts (.ok result.2)).bind fun _ => .ok (h.set p { h p with features := result.1 })

/-- `Feature::add_attribute` (`language/feature/core/feature.cc:182-198`). -/
def addAttribute (asserts : Bool) (h : Heap A) (this : Nat) (path : Path) (a : A) : Res (Heap A) :=
  (check asserts (.ok (!containsFeature h this path))).bind fun _ =>
    (parentFeature asserts h this path).bind fun p => (deref p).bind fun p =>
      let result := insert path.filename a (h p).attributes
      (check asserts (.ok result.2)).bind fun _ => .ok (h.set p { h p with attributes := result.1 })

end Fern.Features
