import Verif.Model.Print
import Verif.Spec.Print

/-!
# Printing of expressions: unique readability
-/

namespace Fern

open Spec

/-! ## Prefixes -/

/-- A list splits in one way at the first element without a property. -/
theorem span_unique {α : Type} (p : α → Bool) : ∀ {n n' r r' : List α}, (∀ c ∈ n, p c = true) →
    (∀ c ∈ n', p c = true) → (∀ c, r.head? = some c → p c = false) →
    (∀ c, r'.head? = some c → p c = false) → n ++ r = n' ++ r' → n = n' ∧ r = r'
  | [], [], _, _, _, _, _, _, h => ⟨rfl, h⟩
  | [], a :: n', r, r', _, h2, h3, _, h => by
    simp only [List.nil_append, List.cons_append] at h
    subst h
    have := h3 a rfl
    rw [h2 a (by simp)] at this
    exact absurd this (by simp)
  | a :: n, [], r, r', h1, _, _, h4, h => by
    simp only [List.nil_append, List.cons_append] at h
    subst h
    have := h4 a rfl
    rw [h1 a (by simp)] at this
    exact absurd this (by simp)
  | a :: n, b :: n', r, r', h1, h2, h3, h4, h => by
    simp only [List.cons_append, List.cons.injEq] at h
    obtain ⟨rfl, h⟩ := h
    obtain ⟨h5, h6⟩ := span_unique p (fun c hc => h1 c (by simp [hc])) (fun c hc => h2 c (by simp [hc]))
      h3 h4 h
    exact ⟨by rw [h5], h6⟩

/-- What can come behind an expression. -/
def Follow (r : Str) : Prop := ∀ c, r.head? = some c → c ∈ [')', ']', ',', ':', '\n']

theorem follow_cons {c : Char} {r : Str} (h : c ∈ [')', ']', ',', ':', '\n']) : Follow (c :: r) := by
  intro d hd
  simp only [List.head?_cons, Option.some.injEq] at hd
  exact hd ▸ h

theorem Follow.not_name {r : Str} (h : Follow r) : ∀ c, r.head? = some c → nameChar c = false := by
  intro c hc
  have := h c hc
  simp only [List.mem_cons, List.not_mem_nil, or_false] at this
  rcases this with rfl | rfl | rfl | rfl | rfl <;> rfl

/-! ## First characters -/

/-- The kinds of expressions that can be told apart by the first two characters. -/
def textClass : Str → Nat
  | [] => 9
  | c :: r =>
    if c == '"' then 0
    else if c == '(' then 1
    else if c.isDigit then 3
    else if nameChar c then 2
    else if c == '-' then (match r with | d :: _ => if d.isDigit then 3 else 4 | [] => 4)
    else if ['~', '!', '+'].contains c then 4
    else 9

def exprClass : Expr → Nat
  | .name _ _ => 2
  | .number _ _ => 3
  | .string _ _ => 0
  | .call _ _ _ => 2
  | .operator _ _ [_] => 4
  | .operator _ _ _ => 1
  | .subscript _ _ _ => 1
  | .attribute _ _ _ => 1

theorem isDigit_nameChar {c : Char} (h : c.isDigit = true) : nameChar c = true := by
  simp [nameChar, Char.isAlphanum, h]

theorem textClass_name {n r : Str} (h : Identifier n) : textClass (n ++ r) = 2 := by
  obtain ⟨h1, h2, h3⟩ := h
  cases n with
  | nil => exact absurd rfl h1
  | cons c n =>
    have hc := h2 c (by simp)
    have hd := h3 c rfl
    have e1 : c ≠ '"' := by rintro rfl; exact absurd hc (by decide)
    have e2 : c ≠ '(' := by rintro rfl; exact absurd hc (by decide)
    simp [textClass, e1, e2, hc, hd]

theorem digits_head (n : Nat) : ∃ c l, Nat.toDigits 10 n = c :: l ∧ c.isDigit = true := by
  cases h : Nat.toDigits 10 n with
  | nil => exact absurd h Nat.toDigits_ne_nil
  | cons c l =>
    have hc : c ∈ Nat.toDigits 10 n := by rw [h]; simp
    exact ⟨c, l, rfl, Nat.isDigit_of_mem_toDigits (by decide) (by decide) hc⟩

theorem textClass_digits (n : Nat) (r : Str) : textClass (Nat.toDigits 10 n ++ r) = 3 := by
  obtain ⟨c, l, h, hc⟩ := digits_head n
  have e1 : c ≠ '"' := by rintro rfl; exact absurd hc (by decide)
  have e2 : c ≠ '(' := by rintro rfl; exact absurd hc (by decide)
  simp [h, textClass, e1, e2, hc]

theorem textClass_int (v : Int) (r : Str) : textClass (formatInt v ++ r) = 3 := by
  unfold formatInt
  split
  · obtain ⟨c, l, h, hc⟩ := digits_head v.natAbs
    simp only [h, List.cons_append, textClass]
    rw [if_neg (by decide), if_neg (by decide), if_neg (by decide), if_neg (by decide), if_pos (by decide),
      if_pos hc]
  · exact textClass_digits _ _

theorem unarySymbol_cases {n sym : Str} (h : nameToSymbol n 1 = some sym) :
    ∃ c, sym = [c] ∧ c ∈ ['~', '!', '+', '-'] := by
  simp only [nameToSymbol, unarySymbols, List.lookup] at h
  split at h
  · exact ⟨'~', by simpa using h.symm, by simp⟩
  split at h
  · exact ⟨'!', by simpa using h.symm, by simp⟩
  split at h
  · exact ⟨'+', by simpa using h.symm, by simp⟩
  split at h
  · exact ⟨'-', by simpa using h.symm, by simp⟩
  · simp at h

theorem lookup_mem {n sym : Str} {l : List (Str × Str)} (h : l.lookup n = some sym) :
    (n, sym) ∈ l := by
  induction l with
  | nil => simp at h
  | cons a l ih =>
    obtain ⟨k, v⟩ := a
    simp only [List.lookup] at h
    split at h
    · rename_i hk
      simp only [Option.some.injEq] at h
      simp only [beq_iff_eq] at hk
      subst hk h
      simp
    · exact List.mem_cons_of_mem _ (ih h)

theorem unarySymbol_inj {n n' sym : Str} (h : nameToSymbol n 1 = some sym)
    (h' : nameToSymbol n' 1 = some sym) : n = n' := by
  have key : ∀ x ∈ unarySymbols, ∀ y ∈ unarySymbols, x.2 = y.2 → x.1 = y.1 := by decide
  exact key _ (lookup_mem h) _ (lookup_mem h') rfl

theorem binarySymbol_inj {n n' sym : Str} (h : nameToSymbol n 2 = some sym)
    (h' : nameToSymbol n' 2 = some sym) : n = n' := by
  have key : ∀ x ∈ binarySymbols, ∀ y ∈ binarySymbols, x.2 = y.2 → x.1 = y.1 := by decide +kernel
  exact key _ (lookup_mem h) _ (lookup_mem h') rfl

theorem binarySymbol_nospace {n sym : Str} (h : nameToSymbol n 2 = some sym) :
    ∀ c ∈ sym, (c != ' ') = true := by
  have key : ∀ x ∈ binarySymbols, ∀ c ∈ x.2, (c != ' ') = true := by decide +kernel
  exact key _ (lookup_mem h)

theorem plain_class {fmt : FloatFormat} {e : Expr} {a : Str} (hp : PlainExpr e)
    (h : printExpr fmt e = some a) (r : Str) : textClass (a ++ r) = exprClass e := by
  match e with
  | .name _ n =>
    simp only [printExpr, Option.some.injEq] at h
    subst h
    exact textClass_name hp
  | .number _ n =>
    simp only [printExpr, Option.some.injEq] at h
    subst h
    match n, hp with
    | .int t v, hp =>
      obtain ⟨h1, h2, _⟩ := hp
      cases t <;> first | exact absurd rfl h1 | exact absurd rfl h2 |
        (simp only [printNumber, List.append_assoc]; exact textClass_int _ _)
  | .string _ s =>
    simp only [printExpr, Option.some.injEq] at h
    subst h
    rfl
  | .call _ n es =>
    simp only [printExpr, Option.map_eq_some_iff] at h
    obtain ⟨b, _, rfl⟩ := h
    simp only [List.append_assoc]
    exact textClass_name hp.1
  | .operator _ n [x] =>
    simp only [printExpr, Option.map_eq_some_iff, Option.bind_eq_some_iff] at h
    obtain ⟨sym, hs, b, _, rfl⟩ := h
    obtain ⟨c, rfl, hc⟩ := unarySymbol_cases hs
    simp only [List.mem_cons, List.not_mem_nil, or_false] at hc
    rcases hc with rfl | rfl | rfl | rfl <;> rfl
  | .operator _ n [x, y] =>
    simp only [printExpr, Option.map_eq_some_iff, Option.bind_eq_some_iff] at h
    obtain ⟨sym, hs, b, _, b', _, rfl⟩ := h
    rfl
  | .operator _ n [] => simp [printExpr] at h
  | .operator _ n (x :: y :: z :: l) => simp [printExpr] at h
  | .subscript _ e s =>
    simp only [printExpr, Option.map_eq_some_iff, Option.bind_eq_some_iff] at h
    obtain ⟨b, _, b', _, rfl⟩ := h
    rfl
  | .attribute _ e m =>
    simp only [printExpr, Option.map_eq_some_iff] at h
    obtain ⟨b, _, rfl⟩ := h
    rfl

theorem exprClass_lt (e : Expr) : exprClass e < 5 := by
  match e with
  | .name _ _ => simp [exprClass]
  | .number _ _ => simp [exprClass]
  | .string _ _ => simp [exprClass]
  | .call _ _ _ => simp [exprClass]
  | .operator _ _ [] => simp [exprClass]
  | .operator _ _ [_] => simp [exprClass]
  | .operator _ _ (_ :: _ :: _) => simp [exprClass]
  | .subscript _ _ _ => simp [exprClass]
  | .attribute _ _ _ => simp [exprClass]

theorem textClass_close (r : Str) : ¬ textClass ([] ++ ')' :: r) < 5 := by
  have : textClass ([] ++ ')' :: r) = 9 := rfl
  omega

/-! ## Numbers -/

theorem formatInt_unique {v v' : Int} {r r' : Str} (hr : ∀ c, r.head? = some c → c.isDigit = false)
    (hr' : ∀ c, r'.head? = some c → c.isDigit = false) (h : formatInt v ++ r = formatInt v' ++ r') :
    v = v' ∧ r = r' := by
  have key : ∀ {n n' : Nat}, Nat.toDigits 10 n ++ r = Nat.toDigits 10 n' ++ r' → n = n' ∧ r = r' := by
    intro n n' h
    obtain ⟨h1, h2⟩ := span_unique Char.isDigit
      (fun c hc => Nat.isDigit_of_mem_toDigits (by decide) (by decide) hc)
      (fun c hc => Nat.isDigit_of_mem_toDigits (by decide) (by decide) hc) hr hr' h
    refine ⟨?_, h2⟩
    rw [← Nat.ofDigitChars_ten_toDigits (n := n), h1, Nat.ofDigitChars_ten_toDigits]
  unfold formatInt at h
  split at h <;> split at h
  · rename_i h1 h2
    simp only [List.cons_append, List.cons.injEq, true_and] at h
    obtain ⟨h3, h4⟩ := key h
    exact ⟨by omega, h4⟩
  · obtain ⟨c, l, hd, hc⟩ := digits_head v'.natAbs
    rw [hd] at h
    simp only [List.cons_append, List.cons.injEq] at h
    rw [← h.1] at hc
    exact absurd hc (by decide)
  · obtain ⟨c, l, hd, hc⟩ := digits_head v.natAbs
    rw [hd] at h
    simp only [List.cons_append, List.cons.injEq] at h
    rw [h.1] at hc
    exact absurd hc (by decide)
  · rename_i h1 h2
    obtain ⟨h3, h4⟩ := key h
    exact ⟨by omega, h4⟩

theorem not_digit_of_not_name {r : Str} (h : ∀ c, r.head? = some c → nameChar c = false) :
    ∀ c, r.head? = some c → c.isDigit = false := by
  intro c hc
  cases hd : c.isDigit with
  | false => rfl
  | true =>
    have := h c hc
    rw [isDigit_nameChar hd] at this
    exact absurd this (by simp)

theorem printNumber_int {fmt : FloatFormat} {t : IntTy} {v : Int} (h1 : t ≠ .i8) (h2 : t ≠ .u8) :
    printNumber fmt (.int t v) = formatInt v ++ if t.signed then [] else ['U'] := by
  cases t <;> first | exact absurd rfl h1 | exact absurd rfl h2 | simp [printNumber, IntTy.signed]

theorem number_unique {fmt : FloatFormat} {n n' : Number} {r r' : Str} (hn : PlainNumber n)
    (hn' : PlainNumber n') (hr : Follow r) (hr' : Follow r')
    (h : printNumber fmt n ++ r = printNumber fmt n' ++ r') : bareNumber n = bareNumber n' ∧ r = r' := by
  match n, hn, n', hn' with
  | .int t v, hn, .int t' v', hn' =>
    rw [printNumber_int hn.1 hn.2.1, printNumber_int hn'.1 hn'.2.1] at h
    simp only [List.append_assoc] at h
    have d := not_digit_of_not_name hr.not_name
    have d' := not_digit_of_not_name hr'.not_name
    have key : ∀ {b : Bool} {q : Str}, (∀ c, q.head? = some c → c.isDigit = false) →
        ∀ c, ((if b = true then [] else ['U']) ++ q : Str).head? = some c → c.isDigit = false := by
      intro b q hq c hc
      cases b
      · simp only [Bool.false_eq_true, if_false, List.cons_append, List.head?_cons,
          Option.some.injEq] at hc
        subst hc
        decide
      · exact hq c (by simpa using hc)
    obtain ⟨h1, h2⟩ := formatInt_unique (key d) (key d') h
    subst h1
    have hU : ∀ {q : Str}, Follow q → ∀ x : Str, q ≠ 'U' :: x := by
      rintro q hq x rfl
      exact absurd (hq 'U' rfl) (by decide)
    unfold bareNumber
    cases ht : t.signed <;> cases ht' : t'.signed <;> simp [ht, ht'] at h2 ⊢
    · exact h2
    · exact hU hr' _ h2.symm
    · exact hU hr _ h2
    · exact h2

/-! ## Expressions -/

theorem bareExprs_one (x : Expr) : bareExprs [x] = [bareExpr x] := by simp [bareExprs]

theorem bareExprs_two (x y : Expr) : bareExprs [x, y] = [bareExpr x, bareExpr y] := by
  simp [bareExprs]

mutual

/-- The text of an expression, followed by something that can follow it, determines the expression and
what follows. -/
theorem expr_unique {fmt : FloatFormat} : ∀ (e : Expr) {e' : Expr} {a a' r r' : Str}, PlainExpr e →
    PlainExpr e' → printExpr fmt e = some a → printExpr fmt e' = some a' → Follow r → Follow r' →
    a ++ r = a' ++ r' → bareExpr e = bareExpr e' ∧ r = r'
  | e, e', a, a', r, r', hp, hp', ha, ha', hr, hr', h => by
    have hcls : exprClass e = exprClass e' := by
      rw [← plain_class hp ha r, ← plain_class hp' ha' r', h]
    match e with
    | .name _ n =>
      simp only [printExpr, Option.some.injEq] at ha
      subst ha
      match e' with
      | .name _ n' =>
        simp only [printExpr, Option.some.injEq] at ha'
        subst ha'
        obtain ⟨h1, h2⟩ := span_unique nameChar hp.2.1 hp'.2.1 hr.not_name hr'.not_name h
        exact ⟨by simp [bareExpr, h1], h2⟩
      | .call _ n' es' =>
        simp only [printExpr, Option.map_eq_some_iff] at ha'
        obtain ⟨b', _, rfl⟩ := ha'
        simp only [List.append_assoc] at h
        obtain ⟨h1, h2⟩ := span_unique nameChar hp.2.1 hp'.1.2.1 hr.not_name
          (by intro c hc; simp only [List.cons_append, List.head?_cons, Option.some.injEq] at hc
              subst hc; decide) h
        exact absurd (hr '(' (by rw [h2]; rfl)) (by decide)
      | .number _ _ => simp [exprClass] at hcls
      | .string _ _ => simp [exprClass] at hcls
      | .operator _ _ [] => simp [printExpr] at ha'
      | .operator _ _ [_] => simp [exprClass] at hcls
      | .operator _ _ (_ :: _ :: _) => simp [exprClass] at hcls
      | .subscript _ _ _ => simp [exprClass] at hcls
      | .attribute _ _ _ => simp [exprClass] at hcls
    | .number _ n =>
      simp only [printExpr, Option.some.injEq] at ha
      subst ha
      match e' with
      | .number _ n' =>
        simp only [printExpr, Option.some.injEq] at ha'
        subst ha'
        obtain ⟨h1, h2⟩ := number_unique hp hp' hr hr' h
        exact ⟨by simp [bareExpr, h1], h2⟩
      | .name _ _ => simp [exprClass] at hcls
      | .call _ _ _ => simp [exprClass] at hcls
      | .string _ _ => simp [exprClass] at hcls
      | .operator _ _ [] => simp [printExpr] at ha'
      | .operator _ _ [_] => simp [exprClass] at hcls
      | .operator _ _ (_ :: _ :: _) => simp [exprClass] at hcls
      | .subscript _ _ _ => simp [exprClass] at hcls
      | .attribute _ _ _ => simp [exprClass] at hcls
    | .string _ s =>
      simp only [printExpr, Option.some.injEq] at ha
      subst ha
      match e' with
      | .string _ s' =>
        simp only [printExpr, Option.some.injEq] at ha'
        subst ha'
        simp only [List.append_assoc, List.cons_append, List.nil_append, List.cons.injEq, true_and] at h
        have q : ∀ {s : Str}, '"' ∉ s → ∀ c ∈ s, (c != '"') = true := by
          intro s hs c hc
          simp only [bne_iff_ne, ne_eq]
          rintro rfl
          exact hs hc
        have q' : ∀ {x : Str} (c : Char), ('"' :: x).head? = some c → (c != '"') = false := by
          intro x c hc
          simp only [List.head?_cons, Option.some.injEq] at hc
          subst hc
          rfl
        obtain ⟨h1, h2⟩ := span_unique (· != '"') (q hp) (q hp') q' q' h
        simp only [List.cons.injEq, true_and] at h2
        exact ⟨by simp [bareExpr, h1], h2⟩
      | .name _ _ => simp [exprClass] at hcls
      | .call _ _ _ => simp [exprClass] at hcls
      | .number _ _ => simp [exprClass] at hcls
      | .operator _ _ [] => simp [printExpr] at ha'
      | .operator _ _ [_] => simp [exprClass] at hcls
      | .operator _ _ (_ :: _ :: _) => simp [exprClass] at hcls
      | .subscript _ _ _ => simp [exprClass] at hcls
      | .attribute _ _ _ => simp [exprClass] at hcls
    | .call _ n es =>
      simp only [printExpr, Option.map_eq_some_iff] at ha
      obtain ⟨b, hb, rfl⟩ := ha
      have par : ∀ {x : Str} (c : Char), (['('] ++ x).head? = some c → nameChar c = false := by
        intro x c hc
        simp only [List.cons_append, List.head?_cons, Option.some.injEq] at hc
        subst hc
        decide
      simp only [List.append_assoc] at h
      match e' with
      | .call _ n' es' =>
        simp only [printExpr, Option.map_eq_some_iff] at ha'
        obtain ⟨b', hb', rfl⟩ := ha'
        simp only [List.append_assoc] at h
        obtain ⟨h1, h2⟩ := span_unique nameChar hp.1.2.1 hp'.1.2.1 par par h
        simp only [List.cons_append, List.nil_append, List.cons.injEq, true_and] at h2
        obtain ⟨h3, h4⟩ := exprs_unique es hp.2 hp'.2 hb hb' h2
        exact ⟨by simp [bareExpr, h1, h3], h4⟩
      | .name _ n' =>
        simp only [printExpr, Option.some.injEq] at ha'
        subst ha'
        obtain ⟨h1, h2⟩ := span_unique nameChar hp.1.2.1 hp'.2.1 par hr'.not_name h
        exact absurd (hr' '(' (by rw [← h2]; rfl)) (by decide)
      | .number _ _ => simp [exprClass] at hcls
      | .string _ _ => simp [exprClass] at hcls
      | .operator _ _ [] => simp [printExpr] at ha'
      | .operator _ _ [_] => simp [exprClass] at hcls
      | .operator _ _ (_ :: _ :: _) => simp [exprClass] at hcls
      | .subscript _ _ _ => simp [exprClass] at hcls
      | .attribute _ _ _ => simp [exprClass] at hcls
    | .operator _ n [x] =>
      simp only [printExpr, Option.map_eq_some_iff, Option.bind_eq_some_iff] at ha
      obtain ⟨sym, hs, b, hb, rfl⟩ := ha
      match e' with
      | .operator _ n' [x'] =>
        simp only [printExpr, Option.map_eq_some_iff, Option.bind_eq_some_iff] at ha'
        obtain ⟨sym', hs', b', hb', rfl⟩ := ha'
        obtain ⟨c, rfl, _⟩ := unarySymbol_cases hs
        obtain ⟨c', rfl, _⟩ := unarySymbol_cases hs'
        simp only [List.append_assoc, List.cons_append, List.nil_append, List.cons.injEq, true_and] at h
        obtain ⟨rfl, h⟩ := h
        obtain ⟨h1, h2⟩ := expr_unique x hp.1 hp'.1 hb hb' (follow_cons (by simp))
          (follow_cons (by simp)) h
        simp only [List.cons.injEq, true_and] at h2
        exact ⟨by simp [bareExpr, bareExprs, h1, unarySymbol_inj hs hs'], h2⟩
      | .name _ _ => simp [exprClass] at hcls
      | .call _ _ _ => simp [exprClass] at hcls
      | .number _ _ => simp [exprClass] at hcls
      | .string _ _ => simp [exprClass] at hcls
      | .operator _ _ [] => simp [printExpr] at ha'
      | .operator _ _ (_ :: _ :: _) => simp [exprClass] at hcls
      | .subscript _ _ _ => simp [exprClass] at hcls
      | .attribute _ _ _ => simp [exprClass] at hcls
    | .operator _ n [x, y] =>
      simp only [printExpr, Option.map_eq_some_iff, Option.bind_eq_some_iff] at ha
      obtain ⟨sym, hs, b, hb, d, hd, rfl⟩ := ha
      simp only [List.append_assoc, List.cons_append, List.nil_append] at h
      match e' with
      | .operator _ n' [x', y'] =>
        simp only [printExpr, Option.map_eq_some_iff, Option.bind_eq_some_iff] at ha'
        obtain ⟨sym', hs', b', hb', d', hd', rfl⟩ := ha'
        simp only [List.append_assoc, List.cons_append, List.nil_append, List.cons.injEq, true_and] at h
        obtain ⟨h1, h2⟩ := expr_unique x hp.1 hp'.1 hb hb' (follow_cons (by simp))
          (follow_cons (by simp)) h
        simp only [List.cons.injEq, true_and] at h2
        have sp : ∀ {x : Str} (c : Char), (' ' :: x).head? = some c → (c != ' ') = false := by
          intro x c hc
          simp only [List.head?_cons, Option.some.injEq] at hc
          subst hc
          rfl
        obtain ⟨h3, h4⟩ := span_unique (· != ' ') (binarySymbol_nospace hs) (binarySymbol_nospace hs')
          sp sp h2
        subst h3
        simp only [List.cons.injEq, true_and] at h4
        obtain ⟨h5, h6⟩ := expr_unique y hp.2.1 hp'.2.1 hd hd' (follow_cons (by simp))
          (follow_cons (by simp)) h4
        simp only [List.cons.injEq, true_and] at h6
        exact ⟨by simp [bareExpr, bareExprs, h1, h5, binarySymbol_inj hs hs'], h6⟩
      | .subscript _ x' s' =>
        simp only [printExpr, Option.map_eq_some_iff, Option.bind_eq_some_iff] at ha'
        obtain ⟨b', hb', d', hd', rfl⟩ := ha'
        simp only [List.append_assoc, List.cons_append, List.nil_append, List.cons.injEq, true_and] at h
        obtain ⟨h1, h2⟩ := expr_unique x hp.1 hp'.1 hb hb' (follow_cons (by simp))
          (follow_cons (by simp)) h
        simp at h2
      | .attribute _ x' m' =>
        simp only [printExpr, Option.map_eq_some_iff] at ha'
        obtain ⟨b', hb', rfl⟩ := ha'
        simp only [List.append_assoc, List.cons_append, List.nil_append, List.cons.injEq, true_and] at h
        obtain ⟨h1, h2⟩ := expr_unique x hp.1 hp'.1 hb hb' (follow_cons (by simp))
          (follow_cons (by simp)) h
        simp at h2
      | .name _ _ => simp [exprClass] at hcls
      | .call _ _ _ => simp [exprClass] at hcls
      | .number _ _ => simp [exprClass] at hcls
      | .string _ _ => simp [exprClass] at hcls
      | .operator _ _ [] => simp [printExpr] at ha'
      | .operator _ _ [_] => simp [exprClass] at hcls
      | .operator _ _ (_ :: _ :: _ :: _) => simp [printExpr] at ha'
    | .operator _ n [] => simp [printExpr] at ha
    | .operator _ n (x :: y :: z :: l) => simp [printExpr] at ha
    | .subscript _ x s =>
      simp only [printExpr, Option.map_eq_some_iff, Option.bind_eq_some_iff] at ha
      obtain ⟨b, hb, d, hd, rfl⟩ := ha
      simp only [List.append_assoc, List.cons_append, List.nil_append] at h
      match e' with
      | .operator _ n' [x', y'] =>
        simp only [printExpr, Option.map_eq_some_iff, Option.bind_eq_some_iff] at ha'
        obtain ⟨sym', hs', b', hb', d', hd', rfl⟩ := ha'
        simp only [List.append_assoc, List.cons_append, List.nil_append, List.cons.injEq, true_and] at h
        obtain ⟨h1, h2⟩ := expr_unique x hp.1 hp'.1 hb hb' (follow_cons (by simp))
          (follow_cons (by simp)) h
        simp at h2
      | .subscript _ x' s' =>
        simp only [printExpr, Option.map_eq_some_iff, Option.bind_eq_some_iff] at ha'
        obtain ⟨b', hb', d', hd', rfl⟩ := ha'
        simp only [List.append_assoc, List.cons_append, List.nil_append, List.cons.injEq, true_and] at h
        obtain ⟨h1, h2⟩ := expr_unique x hp.1 hp'.1 hb hb' (follow_cons (by simp))
          (follow_cons (by simp)) h
        simp only [List.cons.injEq, true_and] at h2
        obtain ⟨h3, h4⟩ := expr_unique s hp.2 hp'.2 hd hd' (follow_cons (by simp))
          (follow_cons (by simp)) h2
        simp only [List.cons.injEq, true_and] at h4
        exact ⟨by simp [bareExpr, h1, h3], h4⟩
      | .attribute _ x' m' =>
        simp only [printExpr, Option.map_eq_some_iff] at ha'
        obtain ⟨b', hb', rfl⟩ := ha'
        simp only [List.append_assoc, List.cons_append, List.nil_append, List.cons.injEq, true_and] at h
        obtain ⟨h1, h2⟩ := expr_unique x hp.1 hp'.1 hb hb' (follow_cons (by simp))
          (follow_cons (by simp)) h
        simp at h2
      | .name _ _ => simp [exprClass] at hcls
      | .call _ _ _ => simp [exprClass] at hcls
      | .number _ _ => simp [exprClass] at hcls
      | .string _ _ => simp [exprClass] at hcls
      | .operator _ _ [] => simp [printExpr] at ha'
      | .operator _ _ [_] => simp [exprClass] at hcls
      | .operator _ _ (_ :: _ :: _ :: _) => simp [printExpr] at ha'
    | .attribute _ x m =>
      simp only [printExpr, Option.map_eq_some_iff] at ha
      obtain ⟨b, hb, rfl⟩ := ha
      simp only [List.append_assoc, List.cons_append, List.nil_append] at h
      match e' with
      | .operator _ n' [x', y'] =>
        simp only [printExpr, Option.map_eq_some_iff, Option.bind_eq_some_iff] at ha'
        obtain ⟨sym', hs', b', hb', d', hd', rfl⟩ := ha'
        simp only [List.append_assoc, List.cons_append, List.nil_append, List.cons.injEq, true_and] at h
        obtain ⟨h1, h2⟩ := expr_unique x hp.1 hp'.1 hb hb' (follow_cons (by simp))
          (follow_cons (by simp)) h
        simp at h2
      | .subscript _ x' s' =>
        simp only [printExpr, Option.map_eq_some_iff, Option.bind_eq_some_iff] at ha'
        obtain ⟨b', hb', d', hd', rfl⟩ := ha'
        simp only [List.append_assoc, List.cons_append, List.nil_append, List.cons.injEq, true_and] at h
        obtain ⟨h1, h2⟩ := expr_unique x hp.1 hp'.1 hb hb' (follow_cons (by simp))
          (follow_cons (by simp)) h
        simp at h2
      | .attribute _ x' m' =>
        simp only [printExpr, Option.map_eq_some_iff] at ha'
        obtain ⟨b', hb', rfl⟩ := ha'
        simp only [List.append_assoc, List.cons_append, List.nil_append, List.cons.injEq, true_and] at h
        obtain ⟨h1, h2⟩ := expr_unique x hp.1 hp'.1 hb hb' (follow_cons (by simp))
          (follow_cons (by simp)) h
        simp only [List.cons.injEq, true_and] at h2
        obtain ⟨h3, h4⟩ := span_unique nameChar hp.2.2.1 hp'.2.2.1 hr.not_name hr'.not_name h2
        exact ⟨by simp [bareExpr, h1, h3], h4⟩
      | .name _ _ => simp [exprClass] at hcls
      | .call _ _ _ => simp [exprClass] at hcls
      | .number _ _ => simp [exprClass] at hcls
      | .string _ _ => simp [exprClass] at hcls
      | .operator _ _ [] => simp [printExpr] at ha'
      | .operator _ _ [_] => simp [exprClass] at hcls
      | .operator _ _ (_ :: _ :: _ :: _) => simp [printExpr] at ha'

/-- The same for the arguments of a call, up to the closing parenthesis. -/
theorem exprs_unique {fmt : FloatFormat} : ∀ (es : List Expr) {es' : List Expr} {a a' r r' : Str},
    PlainExprs es → PlainExprs es' → printExprs fmt es = some a → printExprs fmt es' = some a' →
    a ++ ')' :: r = a' ++ ')' :: r' → bareExprs es = bareExprs es' ∧ r = r'
  | [], es', a, a', r, r', _, hp', ha, ha', h => by
    simp only [printExprs, Option.some.injEq] at ha
    subst ha
    match es' with
    | [] =>
      simp only [printExprs, Option.some.injEq] at ha'
      subst ha'
      simp only [List.nil_append, List.cons.injEq, true_and] at h
      exact ⟨rfl, h⟩
    | [y] =>
      have := plain_class hp'.1 ha' (')' :: r')
      rw [← h] at this
      have h9 := exprClass_lt y
      rw [← this] at h9
      exact absurd h9 (textClass_close _)
    | y :: z :: l =>
      simp only [printExprs, Option.map_eq_some_iff, Option.bind_eq_some_iff] at ha'
      obtain ⟨b, hb, d, _, rfl⟩ := ha'
      have := plain_class hp'.1 hb ([',', ' '] ++ d ++ ')' :: r')
      simp only [List.append_assoc] at this h
      rw [← h] at this
      have h9 := exprClass_lt y
      rw [← this] at h9
      exact absurd h9 (textClass_close _)
  | [x], es', a, a', r, r', hp, hp', ha, ha', h => by
    match es' with
    | [] =>
      simp only [printExprs, Option.some.injEq] at ha'
      subst ha'
      have := plain_class hp.1 ha (')' :: r)
      rw [h] at this
      have h9 := exprClass_lt x
      rw [← this] at h9
      exact absurd h9 (textClass_close _)
    | [y] =>
      obtain ⟨h1, h2⟩ := expr_unique x hp.1 hp'.1 ha ha' (follow_cons (by simp))
        (follow_cons (by simp)) h
      simp only [List.cons.injEq, true_and] at h2
      exact ⟨by simp [bareExprs, h1], h2⟩
    | y :: z :: l =>
      simp only [printExprs, Option.map_eq_some_iff, Option.bind_eq_some_iff] at ha'
      obtain ⟨b, hb, d, _, rfl⟩ := ha'
      simp only [List.append_assoc, List.cons_append, List.nil_append] at h
      obtain ⟨h1, h2⟩ := expr_unique x hp.1 hp'.1 ha hb (follow_cons (by simp))
        (follow_cons (by simp)) h
      simp at h2
  | x :: x2 :: es, es', a, a', r, r', hp, hp', ha, ha', h => by
    simp only [printExprs, Option.map_eq_some_iff, Option.bind_eq_some_iff] at ha
    obtain ⟨b, hb, d, hd, rfl⟩ := ha
    simp only [List.append_assoc, List.cons_append, List.nil_append] at h
    match es' with
    | [] =>
      simp only [printExprs, Option.some.injEq] at ha'
      subst ha'
      have := plain_class hp.1 hb (',' :: ' ' :: (d ++ ')' :: r))
      rw [h] at this
      have h9 := exprClass_lt x
      rw [← this] at h9
      exact absurd h9 (textClass_close _)
    | [y] =>
      obtain ⟨h1, h2⟩ := expr_unique x hp.1 hp'.1 hb ha' (follow_cons (by simp))
        (follow_cons (by simp)) h
      simp at h2
    | y :: z :: l =>
      simp only [printExprs, Option.map_eq_some_iff, Option.bind_eq_some_iff] at ha'
      obtain ⟨b', hb', d', hd', rfl⟩ := ha'
      simp only [List.append_assoc, List.cons_append, List.nil_append] at h
      obtain ⟨h1, h2⟩ := expr_unique x hp.1 hp'.1 hb hb' (follow_cons (by simp))
        (follow_cons (by simp)) h
      simp only [List.cons.injEq, true_and] at h2
      obtain ⟨h3, h4⟩ := exprs_unique (x2 :: es) hp.2 hp'.2 hd hd' h2
      refine ⟨?_, h4⟩
      rw [bareExprs, h1, h3, ← bareExprs]

end

end Fern
