import Verif.Spec.FloatMode
import Mathlib.Data.List.Dedup
import Mathlib.Data.List.Perm.Basic
import Mathlib.Tactic.Linarith

namespace Fern.FloatMode

open Fern Fern.Domains
open _root_.Fern.FloatMode.Spec

/-- The values in a table. -/
def expand (t : Table) : List Flt := t.flatMap fun p => List.replicate p.2 p.1

/-- The keys that are numbers. -/
def keys (t : Table) : List Flt := (t.map (·.1)).filter (· ≠ .nan)

structure Good (t : Table) : Prop where
  nodup : (keys t).Nodup
  pos : ∀ p ∈ t, 0 < p.2
  nans : ∀ p ∈ t, p.1 = .nan → p.2 = 1

theorem expand_bump (v : Flt) (n : Nat) (t : Table) : (expand (bump v n t)).Perm (expand t ++ List.replicate n v) := by
  induction t with
  | nil => simp [bump, expand]
  | cons p t ih =>
    obtain ⟨w, k⟩ := p
    unfold bump
    split_ifs with h
    · have : w = v := by
        unfold equal at h
        simp only [Bool.and_eq_true, beq_iff_eq] at h
        exact h.2
      subst this
      show (List.replicate (k + n) w ++ expand t).Perm (List.replicate k w ++ expand t ++ List.replicate n w)
      rw [List.replicate_add, List.append_assoc, List.append_assoc]
      exact List.Perm.append_left _ List.perm_append_comm
    · show (List.replicate k w ++ expand (bump v n t)).Perm (List.replicate k w ++ expand t ++ List.replicate n v)
      rw [List.append_assoc]
      exact List.Perm.append_left _ ih

theorem mem_keys_bump {v : Flt} {n : Nat} {t : Table} {x : Flt} (h : x ∈ keys (bump v n t)) : x = v ∨ x ∈ keys t := by
  induction t with
  | nil =>
    simp only [bump, keys, List.map_cons, List.map_nil, List.mem_filter, List.mem_singleton] at h
    exact Or.inl h.1
  | cons p t ih =>
    obtain ⟨w, k⟩ := p
    unfold bump at h
    split_ifs at h with hw
    · right
      simpa [keys] using h
    · simp only [keys, List.map_cons, List.mem_filter, List.mem_cons] at h ih ⊢
      rcases h with ⟨rfl | h, hx⟩
      · exact Or.inr ⟨Or.inl rfl, hx⟩
      · rcases ih ⟨h, hx⟩ with e | e
        · exact Or.inl e
        · exact Or.inr ⟨Or.inr e.1, hx⟩

theorem keys_cons (p : Flt × Nat) (t : Table) : keys (p :: t) = if p.1 = .nan then keys t else p.1 :: keys t := by
  unfold keys
  rw [List.map_cons, List.filter_cons]
  by_cases h : p.1 = .nan <;> simp [h]

theorem nodup_bump (v : Flt) (n : Nat) (t : Table) (h : (keys t).Nodup) : (keys (bump v n t)).Nodup := by
  induction t with
  | nil =>
    unfold bump
    rw [keys_cons]
    split_ifs <;> simp [keys]
  | cons p t ih =>
    obtain ⟨w, k⟩ := p
    unfold bump
    split_ifs with hw
    · simpa [keys_cons] using h
    · rw [keys_cons] at h ⊢
      split_ifs at h ⊢ with hn
      · exact ih h
      · rw [List.nodup_cons] at h ⊢
        refine ⟨fun hm => ?_, ih h.2⟩
        rcases mem_keys_bump hm with e | e
        · simp only at e hn
          refine hw ?_
          subst e
          unfold equal
          simp [hn]
        · exact h.1 e

theorem good_bump {v : Flt} {n : Nat} {t : Table} (h : Good t) (hn : 0 < n) (hv : v = .nan → n = 1) : Good (bump v n t) := by
  refine ⟨nodup_bump v n t h.nodup, ?_, ?_⟩
  · have hp := h.pos
    clear h hv
    induction t with
    | nil => simpa [bump] using hn
    | cons p t ih =>
      obtain ⟨w, k⟩ := p
      have hk := hp (w, k) (by simp)
      have ht := ih fun p hm => hp p (List.mem_cons_of_mem _ hm)
      unfold bump
      split_ifs with hw
      · intro p hm
        rcases List.mem_cons.1 hm with rfl | hm
        · exact Nat.add_pos_left hk n
        · exact hp p (List.mem_cons_of_mem _ hm)
      · intro p hm
        rcases List.mem_cons.1 hm with rfl | hm
        · exact hk
        · exact ht p hm
  · have hp := h.nans
    clear h
    induction t with
    | nil => simpa [bump] using hv
    | cons p t ih =>
      obtain ⟨w, k⟩ := p
      have hk := hp (w, k) (by simp)
      have ht := ih fun p hm => hp p (List.mem_cons_of_mem _ hm)
      unfold bump
      split_ifs with hw
      · intro p hm
        rcases List.mem_cons.1 hm with rfl | hm
        · intro e
          simp only at e
          subst e
          simp [equal] at hw
        · exact hp p (List.mem_cons_of_mem _ hm)
      · intro p hm
        rcases List.mem_cons.1 hm with rfl | hm
        · exact hk
        · exact ht p hm

theorem expand_perm {t t' : Table} (h : t.Perm t') : (expand t).Perm (expand t') := h.flatMap_right _

theorem merge_good (l t : Table) (hl : ∀ p ∈ l, 0 < p.2 ∧ (p.1 = .nan → p.2 = 1)) (h : Good t) :
    Good (l.foldl (fun t p => bump p.1 p.2 t) t) ∧
      (expand (l.foldl (fun t p => bump p.1 p.2 t) t)).Perm (expand t ++ expand l) := by
  induction l generalizing t with
  | nil => exact ⟨h, by simp [expand]⟩
  | cons p l ih =>
    have hp := hl p (by simp)
    obtain ⟨i1, i2⟩ := ih (bump p.1 p.2 t) (fun q hq => hl q (List.mem_cons_of_mem _ hq)) (good_bump h hp.1 hp.2)
    refine ⟨i1, i2.trans ?_⟩
    have : expand (p :: l) = List.replicate p.2 p.1 ++ expand l := rfl
    rw [this, ← List.append_assoc]
    exact List.Perm.append_right _ (expand_bump _ _ _)

theorem built_good {n : Nat} {vs : List Flt} {s : Table} (h : Built n vs s) :
    Good s ∧ (expand s).Perm (List.replicate n (.fin 0) ++ vs) := by
  induction h with
  | default => exact ⟨⟨by simp [modeAcc, keys], by simp [modeAcc], by simp [modeAcc]⟩, by simp [modeAcc, expand]⟩
  | value v =>
    refine ⟨⟨nodup_bump v 1 [] (by simp [keys]), by simp [modeOfValue], by simp [modeOfValue]⟩, by simp [modeOfValue, expand]⟩
  | add order n vs s s' v ok _ hs ih =>
    simp only [modeAcc, Option.some.injEq, Prod.mk.injEq] at hs
    obtain ⟨rfl, -⟩ := hs
    refine ⟨good_bump ih.1 Nat.one_pos fun _ => rfl, (expand_bump v 1 s).trans ?_⟩
    rw [← List.append_assoc]
    exact List.Perm.append_right _ ih.2
  | merge order ho n n' vs vs' s s' s'' ok _ _ hs ih ih' =>
    simp only [modeAcc, Option.some.injEq, Prod.mk.injEq] at hs
    obtain ⟨rfl, -⟩ := hs
    obtain ⟨m1, m2⟩ := merge_good (order s') s (fun p hp => by
      have := (ho s').mem_iff.1 hp
      exact ⟨ih'.1.pos p this, ih'.1.nans p this⟩) ih.1
    refine ⟨m1, m2.trans ?_⟩
    refine (List.Perm.append ih.2 ((expand_perm (ho s')).trans ih'.2)).trans ?_
    rw [List.replicate_add, List.append_assoc, List.append_assoc]
    refine List.Perm.append_left _ ?_
    rw [← List.append_assoc, ← List.append_assoc]
    exact List.Perm.append_right _ List.perm_append_comm

theorem built_ne {n : Nat} {vs : List Flt} {s : Table} (h : Built n vs s) : List.replicate n (.fin 0) ++ vs ≠ [] := by
  induction h with
  | default => simp
  | value v => simp
  | add => simp
  | merge _ _ n n' vs vs' _ _ _ _ _ _ _ ih _ =>
    intro e
    obtain ⟨e1, e2⟩ := List.append_eq_nil_iff.1 e
    have e1 : n + n' = 0 := by simpa using congrArg List.length e1
    obtain rfl : n = 0 := by omega
    exact ih (by simpa using (List.append_eq_nil_iff.1 e2).1)

theorem mem_expand {t : Table} (h : Good t) {v : Flt} : v ∈ expand t ↔ ∃ p ∈ t, p.1 = v := by
  unfold expand
  rw [List.mem_flatMap]
  constructor
  · rintro ⟨p, hp, hv⟩
    exact ⟨p, hp, (List.eq_of_mem_replicate hv).symm⟩
  · rintro ⟨p, hp, rfl⟩
    exact ⟨p, hp, List.mem_replicate.2 ⟨(h.pos p hp).ne', rfl⟩⟩

theorem mem_keys {t : Table} {p : Flt × Nat} (hp : p ∈ t) (hn : p.1 ≠ .nan) : p.1 ∈ keys t := by
  unfold keys
  exact List.mem_filter.2 ⟨List.mem_map_of_mem hp, by simpa using hn⟩

/-- The frequency of a number is how often it occurs. -/
theorem count_expand {t : Table} (h : (keys t).Nodup) {p : Flt × Nat} (hp : p ∈ t) (hn : p.1 ≠ .nan) :
    (expand t).count p.1 = p.2 := by
  have absent : ∀ (t : Table) (v : Flt), v ≠ .nan → v ∉ keys t → (expand t).count v = 0 := by
    intro t v hv hk
    refine List.count_eq_zero.2 fun hm => ?_
    obtain ⟨q, hq, he⟩ := List.mem_flatMap.1 hm
    have := List.eq_of_mem_replicate he
    subst this
    exact hk (mem_keys hq hv)
  induction t with
  | nil => cases hp
  | cons q t ih =>
    have e : expand (q :: t) = List.replicate q.2 q.1 ++ expand t := rfl
    rw [e, List.count_append]
    rw [keys_cons] at h
    by_cases hq : q.1 = .nan
    · rw [if_pos hq] at h
      rcases List.mem_cons.1 hp with rfl | hp
      · exact absurd hq hn
      · rw [ih h hp, List.count_eq_zero.2, Nat.zero_add]
        intro hm
        have := List.eq_of_mem_replicate hm
        exact hn (this.trans hq)
    · rw [if_neg hq, List.nodup_cons] at h
      rcases List.mem_cons.1 hp with rfl | hp
      · rw [absent t _ hn h.1, List.count_replicate_self, Nat.add_zero]
      · have hne : p.1 ≠ q.1 := by
          intro e
          exact h.1 (e ▸ mem_keys hp hn)
        rw [ih h.2 hp, List.count_eq_zero.2, Nat.zero_add]
        intro hm
        exact hne (List.eq_of_mem_replicate hm)

theorem frequency {t : Table} (h : Good t) {vs : List Flt} (hv : (expand t).Perm vs) {p : Flt × Nat} (hp : p ∈ t) :
    p.2 = occurrences vs p.1 := by
  unfold occurrences
  split_ifs with hn
  · exact h.nans p hp hn
  · rw [← hv.count_eq, count_expand h.nodup hp hn]

theorem fold_max (t : Table) (p : Flt × Nat) : t.foldl (fun m p => if m.2 < p.2 then p else m) p ∈ p :: t ∧
    ∀ q ∈ p :: t, q.2 ≤ (t.foldl (fun m p => if m.2 < p.2 then p else m) p).2 := by
  induction t generalizing p with
  | nil => simp
  | cons q t ih =>
    rw [List.foldl_cons]
    obtain ⟨i1, i2⟩ := ih (if p.2 < q.2 then q else p)
    constructor
    · rcases List.mem_cons.1 i1 with e | e
      · rw [e]
        split_ifs <;> simp
      · exact List.mem_cons_of_mem _ (List.mem_cons_of_mem _ e)
    · have h0 := i2 _ (List.mem_cons_self ..)
      intro r hr
      rcases List.mem_cons.1 hr with rfl | hr
      · refine le_trans ?_ h0
        split_ifs <;> omega
      · rcases List.mem_cons.1 hr with rfl | hr
        · refine le_trans ?_ h0
          split_ifs <;> omega
        · exact i2 r (List.mem_cons_of_mem _ hr)

theorem fold_first (t : Table) (p : Flt × Nat) (h : ∀ q ∈ t, q.2 ≤ p.2) :
    t.foldl (fun m p => if m.2 < p.2 then p else m) p = p := by
  induction t with
  | nil => rfl
  | cons q t ih =>
    rw [List.foldl_cons, if_neg (by have := h q (by simp); omega)]
    exact ih fun r hr => h r (List.mem_cons_of_mem _ hr)

theorem length_keys (t : Table) : t.length = (keys t).length + ((t.map (·.1)).count .nan) := by
  induction t with
  | nil => rfl
  | cons p t ih =>
    rw [keys_cons, List.map_cons, List.length_cons, ih]
    by_cases h : p.1 = .nan
    · rw [if_pos h, h, List.count_cons_self]; omega
    · rw [if_neg h, List.count_cons_of_ne h, List.length_cons]; omega

theorem count_nan {t : Table} (h : ∀ p ∈ t, p.1 = .nan → p.2 = 1) : (expand t).count .nan = (t.map (·.1)).count .nan := by
  induction t with
  | nil => rfl
  | cons p t ih =>
    have e : expand (p :: t) = List.replicate p.2 p.1 ++ expand t := rfl
    rw [e, List.count_append, ih fun q hq => h q (List.mem_cons_of_mem _ hq), List.map_cons]
    by_cases hp : p.1 = .nan
    · rw [hp, h p (by simp) hp, List.count_cons_self, List.count_replicate_self]; omega
    · rw [List.count_cons_of_ne hp, List.count_eq_zero.2, Nat.zero_add]
      intro hm
      exact hp (List.eq_of_mem_replicate hm).symm

end Fern.FloatMode
