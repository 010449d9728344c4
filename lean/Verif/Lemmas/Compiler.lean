import Verif.Spec.Compiler
import Mathlib.Tactic.SplitIfs

/-!
# Lemmas about paths and disks
-/

namespace Fern.Compiler

open Fern.Spec

theorem follow_iff (d : Disk) (n : Nat) (k l : Place) : d.follow n k = some l ↔ LeadsTo d n k l := by
  constructor
  · intro h
    induction n generalizing k with
    | zero =>
      unfold Disk.follow at h
      split at h
      · cases h
      · rename_i hn
        cases h
        exact .here _ _ fun t ht => hn t ht
    | succ n ih =>
      unfold Disk.follow at h
      split at h
      · rename_i t ht
        exact .link ht (ih _ h)
      · rename_i hn
        cases h
        exact .here _ _ fun t ht => hn t ht
  · intro h
    induction h with
    | here k n hn =>
      unfold Disk.follow
      split
      · rename_i t ht
        exact absurd ht (hn t)
      · rfl
    | link h h' ih =>
      unfold Disk.follow
      rw [h]
      exact ih

theorem leadsTo_end {d : Disk} {n : Nat} {k l : Place} (h : LeadsTo d n k l) : ∀ t, d.node l ≠ some (.link t) := by
  induction h with
  | here k n hn => exact hn
  | link h h' ih => exact ih

theorem put_node (d : Disk) (k : Place) (n : Node) (k' : Place) :
    (d.put k n).node k' = if k' = k then some n else d.node k' := rfl

theorem put_self (d : Disk) (k : Place) (n : Node) : (d.put k n).node k = some n := by rw [put_node, if_pos rfl]

theorem put_other (d : Disk) (k : Place) (n : Node) {k' : Place} (h : k' ≠ k) : (d.put k n).node k' = d.node k' := by
  rw [put_node, if_neg h]

theorem put_link (d : Disk) (k : Place) (n : Node) (h : ∀ t, d.node k ≠ some (.link t)) (hn : ∀ t, n ≠ .link t)
    (k' t : Place) : (d.put k n).node k' = some (.link t) ↔ d.node k' = some (.link t) := by
  rw [put_node]
  split_ifs with he
  · subst he
    constructor
    · intro h'
      exact absurd (Option.some.inj h') (hn t)
    · intro h'
      exact absurd h' (h t)
  · rfl

theorem leadsTo_mono {d d' : Disk} (h : ∀ k t, d'.node k = some (.link t) ↔ d.node k = some (.link t)) {n : Nat}
    {k l : Place} (hl : LeadsTo d n k l) : LeadsTo d' n k l := by
  induction hl with
  | here k n hn => exact .here _ _ fun t ht => hn t ((h _ _).1 ht)
  | link h1 h2 ih => exact .link ((h _ _).2 h1) ih

theorem leadsTo_congr {d d' : Disk} (h : ∀ k t, d'.node k = some (.link t) ↔ d.node k = some (.link t)) {n : Nat}
    {k l : Place} : LeadsTo d' n k l ↔ LeadsTo d n k l :=
  ⟨leadsTo_mono fun k t => (h k t).symm, leadsTo_mono h⟩

theorem leadsTo_fun {d : Disk} {n : Nat} {k l l' : Place} (h : LeadsTo d n k l) (h' : LeadsTo d n k l') : l = l' := by
  have := (follow_iff d n k l).2 h
  rw [(follow_iff d n k l').2 h'] at this
  exact (Option.some.inj this).symm

theorem canonical_iff (d : Disk) (p : Str) (k : Place) : d.canonical p = some k ↔ LeadsTo d 40 (d.place p) k :=
  follow_iff d 40 _ _

/-- The second question gets the same answer as the first one. -/
theorem ask_eq (d : Disk) (p : Str) (good : Node → Bool) :
    d.ask p good = (d.status p).map fun s => match s with
      | none => false
      | some n => good n := by
  unfold Disk.ask Disk.status
  split_ifs with hp
  · rfl
  · cases hc : d.canonical p with
    | none => rfl
    | some k =>
      simp only [Option.map_some, Option.bind_some]
      cases hn : d.node k with
      | none => rfl
      | some n =>
        simp only [hn]
        cases hg : good n <;> simp [hn, hg]

theorem ask_iff (d : Disk) (p : Str) (good : Node → Bool) :
    d.ask p good = some true ↔ p ≠ [] ∧ ∃ n, Finds d p (some n) ∧ good n = true := by
  rw [ask_eq, Disk.status]
  split_ifs with hp
  · simp [hp]
  · simp only [ne_eq, hp, not_false_eq_true, true_and, Option.map_map, Option.map_eq_some_iff, Function.comp]
    constructor
    · rintro ⟨k, hk, hg⟩
      cases hn : d.node k with
      | none => rw [hn] at hg; cases hg
      | some n =>
        rw [hn] at hg
        exact ⟨n, ⟨k, (canonical_iff d p k).1 hk, hn⟩, hg⟩
    · rintro ⟨n, ⟨k, hk, hn⟩, hg⟩
      exact ⟨k, (canonical_iff d p k).2 hk, by rw [hn]; exact hg⟩

/-- What writing does. -/
theorem write_iff (d d' : Disk) (p text : Str) :
    d.write p text = some d' ↔ p ≠ [] ∧ ∃ k, LeadsTo d 40 (d.place p) k ∧
      ((∃ t o, d.node k = some (.file t o true) ∧ d' = d.put k (.file text o true)) ∨
        (d.node k = none ∧ (∃ o, d.node k.dropLast = some (.directory o true)) ∧ d' = d.put k (.file text true true))) := by
  unfold Disk.write
  split_ifs with hp
  · simp [hp]
  · simp only [ne_eq, hp, not_false_eq_true, true_and, Option.bind_eq_some_iff]
    refine exists_congr fun k => and_congr (canonical_iff d p k) ?_
    cases hn : d.node k with
    | none =>
      cases hq : d.node k.dropLast with
      | none => simp
      | some m =>
        cases m with
        | directory o b => cases b <;> simp [eq_comm]
        | _ => simp
    | some m =>
      cases m with
      | file t o b =>
        cases b
        · simp
        · constructor
          · rintro h
            exact .inl ⟨t, o, rfl, (Option.some.inj h).symm⟩
          · rintro (⟨t', o', h, rfl⟩ | ⟨h, _⟩)
            · cases h
              rfl
            · cases h
      | _ => simp

theorem write_link {d d' : Disk} {p text : Str} (h : d.write p text = some d') (k t : Place) :
    d'.node k = some (.link t) ↔ d.node k = some (.link t) := by
  obtain ⟨_, l, hl, ⟨t', o, hn, rfl⟩ | ⟨hn, _, rfl⟩⟩ := (write_iff _ _ _ _).1 h
  · exact put_link _ _ _ (leadsTo_end hl) (by simp) _ _
  · exact put_link _ _ _ (leadsTo_end hl) (by simp) _ _

theorem write_cwd {d d' : Disk} {p text : Str} (h : d.write p text = some d') : d'.cwd = d.cwd := by
  obtain ⟨_, l, hl, ⟨t', o, hn, rfl⟩ | ⟨hn, _, rfl⟩⟩ := (write_iff _ _ _ _).1 h <;> rfl

theorem place_congr {d d' : Disk} (h : d'.cwd = d.cwd) (p : Str) : d'.place p = d.place p := by
  unfold Disk.place
  rw [h]

/-! ### Names -/

theorem names_ne_nil (p : Str) : names p ≠ [] := by
  cases p with
  | nil => simp [names]
  | cons c s =>
    unfold names
    split_ifs
    · simp
    · split <;> simp

theorem names_plain {n : Str} (h : '/' ∉ n) : names n = [n] := by
  induction n with
  | nil => rfl
  | cons c s ih =>
    simp only [List.mem_cons, not_or] at h
    rw [names, if_neg (Ne.symm h.1), ih h.2]

theorem names_append (p q : Str) : names (p ++ '/' :: q) = names p ++ names q := by
  induction p with
  | nil => simp [names]
  | cons c s ih =>
    rw [List.cons_append, names, names]
    split_ifs with hc
    · rw [ih]; rfl
    · rw [ih]
      cases hn : names s with
      | nil => exact absurd hn (names_ne_nil s)
      | cons m ms => rfl

theorem names_slash (p : Str) : names (p ++ ['/']) = names p ++ [[]] := names_append p []

theorem filename_append {p n : Str} (h : '/' ∉ n) : filename (append p n) = n := by
  have hh : n.head? ≠ some '/' := by
    cases n with
    | nil => simp
    | cons c s =>
      simp only [List.mem_cons, not_or] at h
      simpa using Ne.symm h.1
  unfold append
  rw [if_neg hh]
  split_ifs with hp
  · rcases hp with rfl | hp
    · rw [List.nil_append, filename, names_plain h]; rfl
    · obtain ⟨q, rfl⟩ : ∃ q, p = q ++ ['/'] := by
        obtain ⟨hne, hl⟩ := List.getLast?_eq_some_iff.1 hp
        exact ⟨hne, hl⟩
      rw [List.append_assoc]
      change filename (q ++ '/' :: n) = n
      rw [filename, names_append, names_plain h]
      simp
  · rw [List.append_assoc]
    change filename (p ++ '/' :: n) = n
    rw [filename, names_append, names_plain h]
    simp

/-- The place of a file in a directory. -/
theorem place_append (d : Disk) {p n : Str} (h : FileName n) : d.place (append p n) = d.place p ++ [n] := by
  obtain ⟨h1, h2, h3⟩ := h
  have hh : n.head? ≠ some '/' := by
    cases n with
    | nil => simp
    | cons c s =>
      simp only [List.mem_cons, not_or] at h2
      simpa using Ne.symm h2.1
  have hf : [n].filter (fun n => decide (n ≠ [] ∧ n ≠ ['.'])) = [n] := by
    simp [h1, h3]
  have hp' : ∀ q : Str, (q ++ '/' :: n).head? = some '/' ↔ q = [] ∨ q.head? = some '/' := by
    intro q
    cases q <;> simp
  unfold append
  rw [if_neg hh]
  split_ifs with hp
  · rcases hp with rfl | hp
    · simp only [List.nil_append, Disk.place, names_plain h2, hf, if_neg hh]
      simp [names]
    · obtain ⟨q, rfl⟩ := List.getLast?_eq_some_iff.1 hp
      rw [List.append_assoc]
      change d.place (q ++ '/' :: n) = _
      unfold Disk.place
      simp only [names_append, names_slash, names_plain h2, List.filter_append, hf]
      have : (q ++ ['/']).head? = some '/' ↔ q = [] ∨ q.head? = some '/' := by cases q <;> simp
      by_cases hc : q = [] ∨ q.head? = some '/'
      · rw [if_pos ((hp' q).2 hc), if_pos (this.2 hc)]
        simp [names]
      · rw [if_neg (fun h => hc ((hp' q).1 h)), if_neg (fun h => hc (this.1 h))]
        simp [names]
  · rw [List.append_assoc]
    change d.place (p ++ '/' :: n) = _
    unfold Disk.place
    simp only [names_append, names_plain h2, List.filter_append, hf]
    by_cases hc : p.head? = some '/'
    · rw [if_pos ((hp' p).2 (.inr hc)), if_pos hc]
    · rw [if_neg (fun h => ((hp' p).1 h).elim (fun h => hp (.inl h)) hc), if_neg hc, List.append_assoc]

theorem append_ne_nil {p n : Str} (h : n ≠ []) : append p n ≠ [] := by
  unfold append
  split_ifs <;> simp [h]

theorem fileName_of {m e : Str} (hm : '/' ∉ m) (he : Extension e) : FileName (m ++ ['.'] ++ e) := by
  obtain ⟨h1, h2, h3⟩ := he
  refine ⟨by simp, by simp [hm, h2], ?_⟩
  intro h
  have := congrArg List.length h
  simp only [List.length_append, List.length_cons, List.length_nil] at this
  have : e.length = 0 := by omega
  exact h1 (List.length_eq_zero_iff.1 this)

theorem mem_names {p n : Str} (h : n ∈ names p) : '/' ∉ n := by
  induction p generalizing n with
  | nil => simp [names] at h; simp [h]
  | cons c s ih =>
    unfold names at h
    split_ifs at h with hc
    · simp only [List.mem_cons] at h
      rcases h with rfl | h
      · simp
      · exact ih h
    · cases hn : names s with
      | nil => exact absurd hn (names_ne_nil s)
      | cons m ms =>
        rw [hn] at h ih
        simp only [List.mem_cons] at h
        rcases h with rfl | h
        · simp only [List.mem_cons, not_or]
          exact ⟨Ne.symm hc, ih (by simp)⟩
        · exact ih (by simp [h])

theorem filename_slash (p : Str) : '/' ∉ filename p := by
  unfold filename
  cases h : names p with
  | nil => simp
  | cons m ms =>
    rw [List.getLastD_eq_getLast?, List.getLast?_eq_getLast_of_ne_nil (by simp)]
    exact mem_names (p := p) (by rw [h]; exact List.getLast_mem _)

theorem stem_slash (p : Str) : '/' ∉ stem p := by
  have h := filename_slash p
  unfold stem
  dsimp only
  split_ifs
  · exact h
  · split
    · exact h
    · exact h
    · exact fun hm => h (List.mem_of_mem_take hm)

/-! ### Several files -/

/-- Files are written one after the other. -/
theorem writeAll_ok {d d' : Disk} {ws : List (Str × Str)} (h : d.writeAll ws = (.ok, d')) :
    d'.cwd = d.cwd ∧ (∀ k t, d'.node k = some (.link t) ↔ d.node k = some (.link t)) ∧
    (∀ k, (∀ w ∈ ws, ¬ LeadsTo d 40 (d.place w.1) k) → d'.node k = d.node k) ∧
    ∀ a w b, ws = a ++ w :: b →
      (∀ v ∈ b, ∀ k, LeadsTo d 40 (d.place v.1) k → ¬ LeadsTo d 40 (d.place w.1) k) → Reads d' w.1 w.2 := by
  induction ws generalizing d with
  | nil =>
    cases h
    refine ⟨rfl, fun _ _ => Iff.rfl, fun _ _ => rfl, ?_⟩
    intro a w b h
    simp at h
  | cons w ws ih =>
    obtain ⟨p, text⟩ := w
    unfold Disk.writeAll at h
    cases hw : d.write p text with
    | none => rw [hw] at h; cases h
    | some d1 =>
      rw [hw] at h
      obtain ⟨h1, h2, h3, h4⟩ := ih h
      have hc := write_cwd hw
      have hl := write_link hw
      have hlt : ∀ q k, LeadsTo d1 40 (d1.place q) k ↔ LeadsTo d 40 (d.place q) k := by
        intro q k
        rw [place_congr hc, leadsTo_congr hl]
      obtain ⟨hne, k, hk, hk'⟩ := (write_iff _ _ _ _).1 hw
      have hself : ∃ o, d1.node k = some (.file text o true) := by
        rcases hk' with ⟨t, o, _, rfl⟩ | ⟨_, _, rfl⟩
        · exact ⟨o, put_self _ _ _⟩
        · exact ⟨true, put_self _ _ _⟩
      have hother : ∀ k', k' ≠ k → d1.node k' = d.node k' := by
        intro k' hne
        rcases hk' with ⟨t, o, _, rfl⟩ | ⟨_, _, rfl⟩
        · exact put_other _ _ _ hne
        · exact put_other _ _ _ hne
      refine ⟨h1.trans hc, fun k t => (h2 k t).trans (hl k t), ?_, ?_⟩
      · intro k' hn
        rw [h3 k' fun v hv hv' => hn v (by simp [hv]) ((hlt _ _).1 hv'), hother]
        rintro rfl
        exact hn (p, text) (by simp) hk
      · intro a v b he hb
        cases a with
        | cons x a =>
          simp only [List.cons_append, List.cons.injEq] at he
          exact h4 a v b he.2 fun u hu k hk1 hk2 => hb u hu k ((hlt _ _).1 hk1) ((hlt _ _).1 hk2)
        | nil =>
          simp only [List.nil_append, List.cons.injEq] at he
          obtain ⟨rfl, rfl⟩ := he
          obtain ⟨o, ho⟩ := hself
          refine ⟨o, true, k, ?_, ?_⟩
          · rw [place_congr (h1.trans hc), leadsTo_congr fun k t => (h2 k t).trans (hl k t)]
            exact hk
          · rw [h3 k fun v hv hv' => hb v hv k ((hlt _ _).1 hv') hk, ho]

/-- Also if one of the files can't be written, the others are the only ones that change. -/
theorem writeAll_others {d d' : Disk} {ws : List (Str × Str)} {e : End} (h : d.writeAll ws = (e, d')) (k : Place)
    (hk : ∀ w ∈ ws, ¬ LeadsTo d 40 (d.place w.1) k) : d'.node k = d.node k := by
  induction ws generalizing d with
  | nil => cases h; rfl
  | cons w ws ih =>
    obtain ⟨p, text⟩ := w
    unfold Disk.writeAll at h
    cases hw : d.write p text with
    | none => rw [hw] at h; cases h; rfl
    | some d1 =>
      rw [hw] at h
      have hlt : ∀ q k, LeadsTo d1 40 (d1.place q) k ↔ LeadsTo d 40 (d.place q) k := by
        intro q k
        rw [place_congr (write_cwd hw), leadsTo_congr (write_link hw)]
      rw [ih h fun w hw' hl => hk w (by simp [hw']) ((hlt _ _).1 hl)]
      obtain ⟨_, l, hl, hput⟩ := (write_iff _ _ _ _).1 hw
      have hne : k ≠ l := by
        rintro rfl
        exact hk (p, text) (by simp) hl
      rcases hput with ⟨t, o, _, rfl⟩ | ⟨_, _, rfl⟩ <;> exact put_other _ _ _ hne

/-- Files without links in a directory are written. -/
theorem writeAll_free {d : Disk} {k : Place} (hk : ∃ o, d.node k = some (.directory o true)) (ws : List (Str × Str))
    (hw : ∀ w ∈ ws, w.1 ≠ [] ∧ (∃ n, d.place w.1 = k ++ [n]) ∧ Free d (d.place w.1)) :
    ∃ d', d.writeAll ws = (.ok, d') := by
  induction ws generalizing d with
  | nil => exact ⟨d, rfl⟩
  | cons w ws ih =>
    obtain ⟨p, text⟩ := w
    obtain ⟨hp, ⟨n, hn⟩, hf⟩ := hw (p, text) (by simp)
    simp only at hp hn hf
    have hd : ∃ d1, d.write p text = some d1 := by
      have hle : LeadsTo d 40 (d.place p) (d.place p) := .here _ _ (by
        rcases hf with h | ⟨t, o, h⟩ <;> simp [h])
      rcases hf with h | ⟨t, o, h⟩
      · exact ⟨_, (write_iff _ _ _ _).2 ⟨hp, _, hle, .inr ⟨h, by rw [hn, List.dropLast_concat]; exact hk, rfl⟩⟩⟩
      · exact ⟨_, (write_iff _ _ _ _).2 ⟨hp, _, hle, .inl ⟨t, o, h, rfl⟩⟩⟩
    obtain ⟨d1, hd1⟩ := hd
    obtain ⟨_, l, hl, hput⟩ := (write_iff _ _ _ _).1 hd1
    have hfree : ∀ k', Free d k' → Free d1 k' := by
      intro k' hf'
      by_cases he : k' = l
      · subst he
        rcases hput with ⟨t, o, _, rfl⟩ | ⟨_, _, rfl⟩
        · exact .inr ⟨_, _, put_self _ _ _⟩
        · exact .inr ⟨_, _, put_self _ _ _⟩
      · have : d1.node k' = d.node k' := by
          rcases hput with ⟨t, o, _, rfl⟩ | ⟨_, _, rfl⟩ <;> exact put_other _ _ _ he
        rcases hf' with h | ⟨t, o, h⟩
        · exact .inl (this.trans h)
        · exact .inr ⟨t, o, this.trans h⟩
    have hdir : ∃ o, d1.node k = some (.directory o true) := by
      obtain ⟨o, ho⟩ := hk
      have hne : k ≠ l := by
        rintro rfl
        rcases hput with ⟨t, o', h, _⟩ | ⟨h, _, _⟩ <;> simp [h] at ho
      refine ⟨o, ?_⟩
      rcases hput with ⟨t, o, _, rfl⟩ | ⟨_, _, rfl⟩ <;> rw [put_other _ _ _ hne, ho]
    obtain ⟨d2, hd2⟩ := ih hdir fun w hw' => by
      obtain ⟨h1, h2, h3⟩ := hw w (by simp [hw'])
      rw [place_congr (write_cwd hd1)]
      exact ⟨h1, h2, hfree _ h3⟩
    refine ⟨d2, ?_⟩
    unfold Disk.writeAll
    rw [hd1]
    exact hd2

end Fern.Compiler
