import Verif.Lemmas.Compiler

/-!
# C112: the files that are written by the compiler
-/

namespace Fern.Compiler

open Fern.Spec

/-- **C112**: a file exists if a regular file is found at the end of the path. -/
theorem C112_exists (d : Disk) (p : Str) :
    d.fileExists p = some true ↔ p ≠ [] ∧ ∃ text, Reads d p text := by
  unfold Disk.fileExists
  rw [ask_iff]
  refine and_congr_right fun _ => ⟨?_, ?_⟩
  · rintro ⟨n, h, hg⟩
    cases n with
    | file t o m => exact ⟨t, o, m, h⟩
    | _ => cases hg
  · rintro ⟨t, o, m, h⟩
    exact ⟨_, h, rfl⟩

/-- **C112**: it is called writable if its owner may write it, whoever that is. -/
theorem C112_writable (d : Disk) (p : Str) :
    d.fileIsWritable p = some true ↔ p ≠ [] ∧ ∃ text m, Finds d p (some (.file text true m)) := by
  unfold Disk.fileIsWritable
  rw [ask_iff]
  refine and_congr_right fun _ => ⟨?_, ?_⟩
  · rintro ⟨n, h, hg⟩
    cases n with
    | file t o m => cases o with
      | true => exact ⟨t, m, h⟩
      | false => cases hg
    | _ => cases hg
  · rintro ⟨t, m, h⟩
    exact ⟨_, h, rfl⟩

/-- **C112**: the same for directories; the empty path is that of the working directory. -/
theorem C112_directory (d : Disk) (p : Str) :
    d.directoryIsWritable p = some true ↔ ∃ m, Finds d p (some (.directory true m)) := by
  unfold Disk.directoryIsWritable
  rw [ask_iff]
  have hp : (if p = [] then ['.'] else p) ≠ [] := by split_ifs with h <;> simp [h]
  have hq : d.place (if p = [] then ['.'] else p) = d.place p := by
    split_ifs with h
    · subst h
      simp [Disk.place, names]
    · rfl
  simp only [ne_eq, hp, not_false_eq_true, true_and, Finds, hq]
  constructor
  · rintro ⟨n, h, hg⟩
    cases n with
    | directory o m => cases o with
      | true => exact ⟨m, h⟩
      | false => cases hg
    | _ => cases hg
  · rintro ⟨m, h⟩
    exact ⟨_, h, rfl⟩

/-- **C112**: an exception is thrown only if there are more than forty links. -/
theorem C112_throws (d : Disk) (p : Str) :
    (d.fileExists p = none ↔ p ≠ [] ∧ ∀ k, ¬ LeadsTo d 40 (d.place p) k) ∧
    (d.fileIsWritable p = none ↔ p ≠ [] ∧ ∀ k, ¬ LeadsTo d 40 (d.place p) k) ∧
    (d.directoryIsWritable p = none ↔ ∀ k, ¬ LeadsTo d 40 (d.place p) k) := by
  have key : ∀ (p : Str) (good : Node → Bool), d.ask p good = none ↔ p ≠ [] ∧ ∀ k, ¬ LeadsTo d 40 (d.place p) k := by
    intro p good
    rw [ask_eq, Option.map_eq_none_iff, Disk.status]
    split_ifs with hp
    · simp [hp]
    · simp only [Option.map_eq_none_iff, ne_eq, hp, not_false_eq_true, true_and]
      rw [Option.eq_none_iff_forall_ne_some]
      exact forall_congr' fun k => not_congr (canonical_iff d p k)
  refine ⟨key p _, key p _, ?_⟩
  unfold Disk.directoryIsWritable
  rw [key]
  split_ifs with h
  · subst h
    simp [Disk.place, names]
  · simp [h]

/-- **C112**: a text that is written can be read, and nothing else changes. -/
theorem C112_write (d d' : Disk) (p text : Str) (h : d.write p text = some d') :
    Reads d' p text ∧ ∀ k, ¬ LeadsTo d 40 (d.place p) k → d'.node k = d.node k := by
  have hw : d.writeAll [(p, text)] = (.ok, d') := by simp [Disk.writeAll, h]
  obtain ⟨_, _, h3, h4⟩ := writeAll_ok hw
  exact ⟨h4 [] (p, text) [] rfl (by simp), fun k hk => h3 k (by simpa using hk)⟩

/-- The names of the files for a model. -/
def fileNames (model h m : Str) (driver cmake : Bool) : List Str :=
  [model ++ ['.'] ++ h, model ++ ['.'] ++ m] ++ (if cmake then ["CMakeLists.txt".toList] else []) ++
    (if driver then ["main.".toList ++ m] else [])

/-- The texts of these files. -/
def fileTexts (model h code : Str) (driver cmake : Bool) : List Str :=
  [headerText model, code] ++ (if cmake then [cmakeText model driver] else []) ++
    (if driver then [driverText (model ++ ['.'] ++ h) model] else [])

section

attribute [local irreducible] headerText cmakeText driverText

theorem compile_written {d d' : Disk} {source destination h m : Str} {driver cmake : Bool}
    {module : Str → Str → Option Str} (hh : Extension h) (e : End)
    (hc : compile d source destination h m driver cmake module = (e, d')) :
    (e ≠ .ok ∧ d' = d) ∨ ∃ code, module (stem source ++ ['.'] ++ h) (stem source) = some code ∧
      d.writeAll (((fileNames (stem source) h m driver cmake).map (append destination)).zip
        (fileTexts (stem source) h code driver cmake)) = (e, d') := by
  unfold compile at hc
  split at hc
  · cases hc; exact .inl ⟨by simp, rfl⟩
  · cases hc; exact .inl ⟨by simp, rfl⟩
  · dsimp only at hc
    split at hc
    · cases hc; exact .inl ⟨by simp, rfl⟩
    · cases hc; exact .inl ⟨by simp, rfl⟩
    · split at hc
      · cases hc; exact .inl ⟨by simp, rfl⟩
      · cases hc; exact .inl ⟨by simp, rfl⟩
      · have hf : filename (append destination (stem source ++ ['.'] ++ h)) = stem source ++ ['.'] ++ h :=
          filename_append (fileName_of (stem_slash source) hh).2.1
        rw [hf] at hc
        split at hc
        · cases hc; exact .inl ⟨by simp, rfl⟩
        · rename_i code hcode
          refine .inr ⟨code, hcode, ?_⟩
          rw [← hc]
          cases driver <;> cases cmake <;> rfl

/-- **C112**: a module that can't be compiled leaves all files as they are, as does a check that fails. -/
theorem C112_untouched (d d' : Disk) (source destination h m : Str) (driver cmake : Bool)
    (module : Str → Str → Option Str) (hh : Extension h) (e : End)
    (hc : compile d source destination h m driver cmake module = (e, d'))
    (hm : module (stem source ++ ['.'] ++ h) (stem source) = none) : e ≠ .ok ∧ d' = d := by
  rcases compile_written hh e hc with h1 | ⟨code, h1, _⟩
  · exact h1
  · rw [hm] at h1; cases h1

/-- **C112**: after compiling the header, the C++ module, the CMake script and the main program can be read, if they all
have different names and none of them is a link. -/
theorem C112_files (d d' : Disk) (source destination h m : Str) (driver cmake : Bool)
    (module : Str → Str → Option Str) (hh : Extension h) (hm : Extension m)
    (hn : (fileNames (stem source) h m driver cmake).Nodup)
    (hl : ∀ n ∈ fileNames (stem source) h m driver cmake, ∀ t, d.node (d.place destination ++ [n]) ≠ some (.link t))
    (hc : compile d source destination h m driver cmake module = (.ok, d')) :
    Reads d' (append destination (stem source ++ ['.'] ++ h)) (headerText (stem source)) ∧
    (∃ code, module (stem source ++ ['.'] ++ h) (stem source) = some code ∧
      Reads d' (append destination (stem source ++ ['.'] ++ m)) code) ∧
    (cmake = true → Reads d' (append destination "CMakeLists.txt".toList) (cmakeText (stem source) driver)) ∧
    (driver = true → Reads d' (append destination ("main.".toList ++ m))
      (driverText (stem source ++ ['.'] ++ h) (stem source))) := by
  rcases compile_written hh .ok hc with ⟨h1, _⟩ | ⟨code, hcode, hw⟩
  · exact absurd rfl h1
  · obtain ⟨_, _, _, h4⟩ := writeAll_ok hw
    have hname : ∀ n ∈ fileNames (stem source) h m driver cmake, FileName n := by
      intro n hn
      simp only [fileNames, List.mem_append, List.mem_cons, List.not_mem_nil, or_false] at hn
      rcases hn with ((rfl | rfl) | hn) | hn
      · exact fileName_of (stem_slash _) hh
      · exact fileName_of (stem_slash _) hm
      · split_ifs at hn <;> simp only [List.mem_cons, List.not_mem_nil, or_false] at hn
        subst hn
        exact ⟨by decide, by decide, by decide⟩
      · split_ifs at hn <;> simp only [List.mem_cons, List.not_mem_nil, or_false] at hn
        subst hn
        exact fileName_of (m := "main".toList) (by decide) hm
    have hlead : ∀ n ∈ fileNames (stem source) h m driver cmake, ∀ k,
        LeadsTo d 40 (d.place (append destination n)) k → k = d.place destination ++ [n] := by
      intro n hn k hk
      rw [place_append d (hname n hn)] at hk
      exact (leadsTo_fun hk (.here _ _ (hl n hn)))
    have main : ∀ a n b x t y, fileNames (stem source) h m driver cmake = a ++ n :: b →
        fileTexts (stem source) h code driver cmake = x ++ t :: y → x.length = a.length →
        Reads d' (append destination n) t := by
      intro a n b x t y e1 e2 e3
      rw [e1, e2, List.map_append, List.map_cons, List.zip_append (by simp [e3]), List.zip_cons_cons] at h4
      refine h4 _ _ _ rfl ?_
      rintro ⟨q, s⟩ hv k hk hk'
      obtain ⟨n', hn', rfl⟩ := List.mem_map.1 (List.of_mem_zip hv).1
      have k1 := hlead n' (by rw [e1]; simp [hn']) k hk
      have k2 := hlead n (by rw [e1]; simp) k hk'
      rw [k2] at k1
      have : n = n' := by simpa using k1
      subst this
      rw [e1, List.nodup_append] at hn
      exact (List.nodup_cons.1 hn.2.1).1 hn'
    have first := main [] _ _ [] _ _ rfl rfl rfl
    have second := main [stem source ++ ['.'] ++ h] (stem source ++ ['.'] ++ m) _ [headerText (stem source)] code _
      (by rw [fileNames, List.append_assoc]; rfl) (by rw [fileTexts, List.append_assoc]; rfl) rfl
    refine ⟨first, ⟨code, hcode, second⟩, ?_, ?_⟩
    · intro hcm
      subst hcm
      exact main [_, _] _ _ [_, _] _ _ rfl rfl rfl
    · intro hdr
      subst hdr
      cases cmake with
      | true => exact main [_, _, _] _ _ [_, _, _] _ _ rfl rfl rfl
      | false => exact main [_, _] _ _ [_, _] _ _ rfl rfl rfl

/-- **C112**: with the extensions of the command they have, unless the module is called `main`. -/
theorem C112_names (model : Str) (driver cmake : Bool) :
    (fileNames model ['h'] ['c', 'c'] driver cmake).Nodup ↔ driver = false ∨ model ≠ "main".toList := by
  have h1 : model ++ ['.'] ++ ['h'] ≠ model ++ ['.'] ++ ['c', 'c'] := by simp
  have h2 : model ++ ['.'] ++ ['h'] ≠ "CMakeLists.txt".toList := by
    intro h
    have := congrArg List.getLast? h
    rw [List.getLast?_append] at this
    exact absurd (show some _ = _ from this) (by decide)
  have h3 : model ++ ['.'] ++ ['c', 'c'] ≠ "CMakeLists.txt".toList := by
    intro h
    have := congrArg List.getLast? h
    rw [List.getLast?_append] at this
    exact absurd (show some _ = _ from this) (by decide)
  have h4 : model ++ ['.'] ++ ['h'] ≠ "main.".toList ++ ['c', 'c'] := by
    intro h
    have := congrArg List.getLast? h
    rw [List.getLast?_append] at this
    exact absurd (show some _ = _ from this) (by decide)
  have h5 : "CMakeLists.txt".toList ≠ "main.".toList ++ ['c', 'c'] := by decide
  have h6 : model ++ ['.'] ++ ['c', 'c'] = "main.".toList ++ ['c', 'c'] ↔ model = "main".toList := by
    constructor
    · intro h
      have : model ++ ".cc".toList = "main".toList ++ ".cc".toList := by
        simpa [List.append_assoc] using h
      exact List.append_cancel_right this
    · rintro rfl
      rfl
  cases driver <;> cases cmake <;>
    simp only [fileNames, if_true, if_false, Bool.false_eq_true, List.append_nil, List.cons_append, List.nil_append,
      List.nodup_cons, List.mem_cons, List.not_mem_nil, or_false, not_or, List.nodup_nil, not_false_eq_true, and_true,
      true_or, iff_true, reduceCtorEq, false_or] <;>
    simp only [List.append_assoc, List.cons_append, List.nil_append] at h1 h2 h3 h4 h5 h6 ⊢
  · exact h1
  · exact ⟨⟨h1, h2⟩, h3⟩
  · rw [ne_eq, ← h6]
    exact ⟨fun h => h.2, fun h => ⟨⟨h1, h4⟩, h⟩⟩
  · rw [ne_eq, ← h6]
    exact ⟨fun h => h.2.1.2, fun h => ⟨⟨h1, h2, h4⟩, ⟨h3, h⟩, h5⟩⟩

/-- **C112**: all other files and directories are left as they are, also if something fails. -/
theorem C112_others (d d' : Disk) (source destination h m : Str) (driver cmake : Bool)
    (module : Str → Str → Option Str) (hh : Extension h) (e : End)
    (hc : compile d source destination h m driver cmake module = (e, d')) (k : Place)
    (hk : ∀ n ∈ fileNames (stem source) h m driver cmake, ¬ LeadsTo d 40 (d.place (append destination n)) k) :
    d'.node k = d.node k := by
  rcases compile_written hh e hc with ⟨_, rfl⟩ | ⟨code, hcode, hw⟩
  · rfl
  · refine writeAll_others hw k ?_
    rintro ⟨p, t⟩ hp
    obtain ⟨n, hn, rfl⟩ := List.mem_map.1 (List.of_mem_zip hp).1
    exact hk n hn

/-- **C112**: the main program replaces a module that is called `main`: its C++ code is nowhere to be found. -/
theorem C112_main (d d' : Disk) (source destination h m : Str) (cmake : Bool) (module : Str → Str → Option Str)
    (hh : Extension h) (hs : stem source = "main".toList)
    (hc : compile d source destination h m true cmake module = (.ok, d')) :
    Reads d' (append destination (stem source ++ ['.'] ++ m)) (driverText ("main.".toList ++ h) "main".toList) := by
  rcases compile_written hh .ok hc with ⟨h1, _⟩ | ⟨code, hcode, hw⟩
  · exact absurd rfl h1
  · obtain ⟨_, _, _, h4⟩ := writeAll_ok hw
    rw [hs] at h4 ⊢
    cases cmake with
    | true => exact h4 [_, _, _] (_, _) [] rfl (by simp)
    | false => exact h4 [_, _] (_, _) [] rfl (by simp)

/-- **C112**: compiling succeeds if the destination is a directory in which both owner and process may write, the owner may
also write in the directory above, and the files are not there yet or can be written by both. -/
theorem C112_succeeds (d : Disk) (source destination h m : Str) (driver cmake : Bool)
    (module : Str → Str → Option Str) (hh : Extension h) (hm : Extension m)
    (hd : d.node (d.place destination) = some (.directory true true))
    (hp : d.directoryIsWritable (parentPath destination) = some true)
    (hf : ∀ n ∈ fileNames (stem source) h m driver cmake, d.node (d.place destination ++ [n]) = none ∨
      ∃ t, d.node (d.place destination ++ [n]) = some (.file t true true))
    (hc : (module (stem source ++ ['.'] ++ h) (stem source)).isSome) :
    ∃ d', compile d source destination h m driver cmake module = (.ok, d') := by
  obtain ⟨code, hcode⟩ := Option.isSome_iff_exists.1 hc
  have hname : ∀ n ∈ fileNames (stem source) h m driver cmake, FileName n := by
    intro n hn
    simp only [fileNames, List.mem_append, List.mem_cons, List.not_mem_nil, or_false] at hn
    rcases hn with ((rfl | rfl) | hn) | hn
    · exact fileName_of (stem_slash _) hh
    · exact fileName_of (stem_slash _) hm
    · split_ifs at hn <;> simp only [List.mem_cons, List.not_mem_nil, or_false] at hn
      subst hn
      exact ⟨by decide, by decide, by decide⟩
    · split_ifs at hn <;> simp only [List.mem_cons, List.not_mem_nil, or_false] at hn
      subst hn
      exact fileName_of (m := "main".toList) (by decide) hm
  have hw : ∀ n ∈ fileNames (stem source) h m driver cmake, d.canWrite destination (append destination n) = some true := by
    intro n hn
    have hpl := place_append d (p := destination) (hname n hn)
    have hne : append destination n ≠ [] := append_ne_nil (hname n hn).1
    unfold Disk.canWrite
    rcases hf n hn with h0 | ⟨t, h0⟩
    · have hlead : LeadsTo d 40 (d.place (append destination n)) (d.place destination ++ [n]) := by
        rw [hpl]; exact .here _ _ (by simp [h0])
      have : d.fileExists (append destination n) = some false := by
        rw [Disk.fileExists, ask_eq, Disk.status, if_neg hne, (canonical_iff _ _ _).2 hlead]
        simp [h0]
      rw [this]
      exact hp
    · have hlead : LeadsTo d 40 (d.place (append destination n)) (d.place destination ++ [n]) := by
        rw [hpl]; exact .here _ _ (by simp [h0])
      rw [(C112_exists _ _).2 ⟨hne, t, true, true, _, hlead, h0⟩]
      exact (C112_writable _ _).2 ⟨hne, t, true, _, hlead, h0⟩
  have hall : ∃ d', d.writeAll (((fileNames (stem source) h m driver cmake).map (append destination)).zip
      (fileTexts (stem source) h code driver cmake)) = (.ok, d') := by
    refine writeAll_free (k := d.place destination) ⟨true, hd⟩ _ ?_
    rintro ⟨p, t⟩ hp'
    obtain ⟨n, hn, rfl⟩ := List.mem_map.1 (List.of_mem_zip hp').1
    refine ⟨append_ne_nil (hname n hn).1, ⟨n, place_append d (hname n hn)⟩, ?_⟩
    simp only [place_append d (hname n hn)]
    rcases hf n hn with h0 | ⟨t, h0⟩
    · exact .inl h0
    · exact .inr ⟨t, true, h0⟩
  obtain ⟨d', hd'⟩ := hall
  refine ⟨d', ?_⟩
  have hdest : d.directoryIsWritable destination = some true :=
    (C112_directory _ _).2 ⟨true, _, .here _ _ (by simp [hd]), hd⟩
  have hff : filename (append destination (stem source ++ ['.'] ++ h)) = stem source ++ ['.'] ++ h :=
    filename_append (fileName_of (stem_slash source) hh).2.1
  unfold compile
  rw [hdest]
  dsimp only
  rw [hw _ (List.mem_append_left _ (List.mem_append_left _ (List.mem_cons_self ..))),
    hw _ (List.mem_append_left _ (List.mem_append_left _ (List.mem_cons_of_mem _ (List.mem_cons_self ..)))), hff]
  dsimp only
  rw [hcode, ← hd']
  cases driver <;> cases cmake <;> rfl

end

/-! ### What the checks do not see -/

/-- A disk with some directories and files. -/
def disk (l : List (List String × Node)) : Disk :=
  ⟨[], fun k => if k = [] then some (.directory true true)
    else (l.find? fun e => e.1.map String.toList = k).map (·.2)⟩

/-- The C++ module of the examples. -/
def code : Str → Str → Option Str := fun _ _ => some "code".toList

/-- **C112**: a new file can be written in the destination, but the compiler refuses since the directory *above* is
protected. -/
theorem C112_parent_false : ∃ d : Disk, d.directoryIsWritable "a/out".toList = some true ∧
    (d.write "a/out/x.h".toList []).isSome ∧ (d.write "a/out/x.cc".toList []).isSome ∧
    (compile d "x.ad".toList "a/out".toList ['h'] ['c', 'c'] false false code).1 = .fails :=
  ⟨disk [(["a"], .directory false false), (["a", "out"], .directory true true)], by decide +kernel⟩

/-- **C112**: the checks succeed since the owner may write, but the process may not: the header is overwritten, and then
an assertion fails. -/
theorem C112_half_false : ∃ d : Disk, (d.fileIsWritable "x.h".toList = some true ∧ Reads d "x.h".toList "old".toList) ∧
    (compile d "x.ad".toList [] ['h'] ['c', 'c'] false false code).1 = .fails ∧
    (compile d "x.ad".toList [] ['h'] ['c', 'c'] false false code).2.node ["x.h".toList] =
      some (.file (headerText "x".toList) true true) ∧
    (compile d "x.ad".toList [] ['h'] ['c', 'c'] false false code).2.node ["x.cc".toList] = none := by
  refine ⟨⟨[], fun k => if k = [] then some (.directory true false)
    else if k = ["x.h".toList] then some (.file "old".toList true true) else none⟩, ⟨?_, true, true, ["x.h".toList], ?_, ?_⟩, ?_, ?_, ?_⟩
  · decide +kernel
  · exact .here _ _ (fun t h => by
      have h' : some (Node.file "old".toList true true) = some (.link t) := h
      cases h')
  · decide +kernel
  · decide +kernel
  · decide +kernel
  · decide +kernel

/-- **C112**: a raster file can be overwritten if it exists and can be updated, or if the directory in which it is or will
be may be written by its owner. -/
theorem C112_overwrite (d : Disk) (name : Str) (update : Bool) (ht : d.fileExists name ≠ none) :
    d.canOverwrite name update = some true ↔ (name ≠ [] ∧ (∃ text, Reads d name text) ∧ update = true) ∨
      ∃ m, Finds d (parentPath name) (some (.directory true m)) := by
  rw [← C112_directory, ← and_assoc, ← C112_exists]
  unfold Disk.canOverwrite
  cases hf : d.fileExists name with
  | none => exact absurd hf ht
  | some b => cases b <;> cases update <;> simp

/-- **C112**: so a file that can't be updated is said to be one that can be overwritten. -/
theorem C112_overwrite_false : ∃ d : Disk, d.fileExists "a/r.map".toList = some true ∧
    d.fileIsWritable "a/r.map".toList = some false ∧ d.canOverwrite "a/r.map".toList false = some true :=
  ⟨disk [(["a"], .directory true true), (["a", "r.map"], .file [] false false)], by decide +kernel⟩

/-! ### Examples -/

example : stem "models/hill.slope.ad".toList = "hill.slope".toList ∧ filename "models/".toList = [] ∧
    parentPath "a/b".toList = "a".toList ∧ parentPath "a".toList = [] ∧ parentPath "/a".toList = "/".toList ∧
    append "a".toList "b".toList = "a/b".toList ∧ append "a/".toList "b".toList = "a/b".toList ∧
    append [] "b".toList = "b".toList := by decide +kernel

example : Extension ['h'] ∧ Extension ['c', 'c'] := by
  refine ⟨⟨by decide, by decide, by decide⟩, by decide, by decide, by decide⟩

example : (compile (disk [(["out"], .directory true true)]) "x.ad".toList "out".toList ['h'] ['c', 'c'] true true code).1 =
    .ok := by decide +kernel

example : (compile (disk [(["out"], .directory true true)]) "main.ad".toList "out".toList ['h'] ['c', 'c'] true true
    code).1 = .ok := by decide +kernel

end Fern.Compiler
