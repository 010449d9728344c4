import Verif.Lemmas.DotText
import Verif.Props.Flow

/-!
# C101: the texts of graphs
-/

namespace Fern.Dot

open Fern.Spec Spec

variable {V : Type} {addr : Vid → Str} {fmt : FloatFormat} {t : Links} {source : Str} {cfg uses : Bool}
  {m : Module} {k : Nat} {i : List Item}

/-- The first lines of the graph of the syntax tree. -/
def astHeader : Str := "digraph G {\nordering=out;\nrankdir=TB;\n".toList

/-- The first lines of the graph of the flow of data. -/
def flowHeader : Str := "digraph G {\nordering=out;\nrankdir=LR;\npenwidth=0.25;\n".toList

theorem readGraph_text (h : Addresses addr) (header : Str) (ht : AllTame i) :
    readGraph header (header ++ (textOf addr i ++ "}\n".toList)) = some (i.map (shown addr) ++ [.close]) := by
  have e : textOf addr i ++ "}\n".toList = textOf addr (i ++ [.close]) := by
    simp only [textOf, List.flatMap_append, List.flatMap_cons, List.flatMap_nil, List.append_nil]
    rfl
  rw [readGraph, expect_append, Option.bind_some, e,
    readItems_text h _ _ (ht.append (.one (x := .close) trivial)) (Nat.le_refl _), List.map_append]
  rfl

/-- The text of the graph of the syntax tree can be read: one finds the vertices, edges and boxes that were
drawn, and a last brace. -/
theorem C101_ast (h : Addresses addr) (hs : closed source = true) (hw : ClosedWords fmt m) (s : Str)
    (he : astScript fmt t addr source cfg uses m = some s) :
    ∃ i, astItems fmt t source cfg uses m = some i ∧
      readGraph astHeader s = some (i.map (shown addr) ++ [.close]) := by
  obtain ⟨i, hi, rfl⟩ := Option.map_eq_some_iff.1 he
  exact ⟨i, hi, readGraph_text h astHeader (astItems_tame hi hs hw)⟩

/-- The same for the flow of data. -/
theorem C101_flow (h : Addresses addr) (hw : ClosedFlowWords fmt m) (s : Str)
    (he : flowScript fmt t addr k m = some s) :
    ∃ i, flowItems fmt t k m = some i ∧ readGraph flowHeader s = some (i.map (shown addr) ++ [.close]) := by
  obtain ⟨i, hi, rfl⟩ := Option.map_eq_some_iff.1 he
  exact ⟨i, hi, readGraph_text h flowHeader (flowItems_tame hi hw)⟩

theorem digits_injective {n k : Nat} (h : Nat.toDigits 10 n = Nat.toDigits 10 k) : n = k := by
  rw [← Nat.ofDigitChars_ten_toDigits (n := n), h, Nat.ofDigitChars_ten_toDigits]

theorem shown_injective (h : Addresses addr) {x y : Item} (e : shown addr x = shown addr y) : x = y := by
  cases x <;> cases y <;> simp only [shown, Shown.node.injEq, Shown.edge.injEq, Shown.cluster.injEq,
    Shown.box.injEq, reduceCtorEq] at e ⊢
  case node.node => obtain ⟨a, rfl, rfl⟩ := e; rw [h.different _ _ a]
  case edge.edge => obtain ⟨a, b, rfl⟩ := e; rw [h.different _ _ a, h.different _ _ b]
  case cluster.cluster => obtain ⟨a, rfl⟩ := e; rw [h.different _ _ a]
  case box.box => rw [digits_injective e]

/-- What is found determines what was drawn: two readable graphs with the same text are the same graph. -/
theorem C101_injective (h : Addresses addr) (t' : Links) (source' : Str) (cfg' uses' : Bool) (m' : Module)
    (hs : closed source = true) (hs' : closed source' = true) (hw : ClosedWords fmt m)
    (hw' : ClosedWords fmt m') (s : Str) (he : astScript fmt t addr source cfg uses m = some s)
    (he' : astScript fmt t' addr source' cfg' uses' m' = some s) :
    astItems fmt t source cfg uses m = astItems fmt t' source' cfg' uses' m' := by
  obtain ⟨i, hi, hr⟩ := C101_ast h hs hw s he
  obtain ⟨j, hj, hr'⟩ := C101_ast h hs' hw' s he'
  rw [hr, Option.some.injEq] at hr'
  rw [hi, hj, List.map_injective_iff.2 (fun _ _ e => shown_injective h e) (List.append_cancel_right hr')]

/-- A label is closed exactly if what it shows is: for strings. -/
theorem C101_string_iff (s : Str) : closed ("\\\"".toList ++ s ++ "\\\"".toList) = closed s := by
  cases h : closed s with
  | true => exact string_closed h
  | false =>
    rw [List.append_assoc, closed_append "\\\"".toList _ (by decide +kernel)]
    exact closed_false s [] h

/-- How addresses are written: as `0x` and digits. -/
def exampleAddress (v : Vid) : Str := '0' :: 'x' :: Nat.toDigits 10 v

theorem exampleAddress_ok : Addresses exampleAddress := by
  refine ⟨fun v c hc => ?_, fun a b h => ?_⟩
  · rcases List.mem_cons.1 hc with rfl | hc
    · decide
    · rcases List.mem_cons.1 hc with rfl | hc
      · decide
      · have := Nat.isDigit_of_mem_toDigits (by decide) (by decide) hc
        refine ⟨?_, ?_, ?_⟩ <;> (rintro rfl; revert this; decide)
  · exact digits_injective (List.cons.inj (List.cons.inj h).2).2

example : ClosedWords exampleFormat exampleModule := by
  refine ⟨by decide +kernel, by decide +kernel⟩

example : ClosedFlowWords exampleFormat exampleModule := by
  refine ⟨by decide +kernel, by decide +kernel⟩

/-- A module with all kinds of labels. -/
example : (astScript exampleFormat exampleLinks exampleAddress "m".toList true true exampleModule).any
    fun s => decide ((readGraph astHeader s).any fun l => decide (10 < l.length)) := by decide +kernel

example : closed "a\\\\b\\\"c".toList = true ∧ closed "a\"".toList = false ∧ closed "a\\".toList = false := by
  decide +kernel

/-- A string with a quote: the text of the graph cannot be read. -/
theorem C101_quote_false : ∃ m s, m.vids.Nodup ∧
    m.statements = [.expr (.string 3 "a\"b".toList)] ∧
    flowScript exampleFormat exampleLinks exampleAddress 0 m = some s ∧ readGraph flowHeader s = none :=
  ⟨⟨0, 1, 2, [.expr (.string 3 "a\"b".toList)]⟩, _, by decide +kernel, rfl, rfl, by decide +kernel⟩

/-- The same for a string that ends with a backslash. -/
theorem C101_backslash_false : ∃ m s, m.vids.Nodup ∧
    m.statements = [.expr (.string 3 "a\\".toList)] ∧
    flowScript exampleFormat exampleLinks exampleAddress 0 m = some s ∧ readGraph flowHeader s = none :=
  ⟨⟨0, 1, 2, [.expr (.string 3 "a\\".toList)]⟩, _, by decide +kernel, rfl, rfl, by decide +kernel⟩

/-- The same for an 8 bit number that is the code of a quote, and for a file name with a quote. -/
theorem C101_byte_false : ∃ m s, m.vids.Nodup ∧ m.statements = [.expr (.number 3 (.int .i8 34))] ∧
    flowScript exampleFormat exampleLinks exampleAddress 0 m = some s ∧ readGraph flowHeader s = none :=
  ⟨⟨0, 1, 2, [.expr (.number 3 (.int .i8 34))]⟩, _, by decide +kernel, rfl, rfl, by decide +kernel⟩

/-- A string can be so that the text can be read as another graph: the vertex with the string has another
label and one attribute more. -/
theorem C101_injected_false : ∃ m s,
    m.statements = [.expr (.string 3 "x\", color=red, y=\"".toList)] ∧
    flowScript exampleFormat exampleLinks exampleAddress 0 m = some s ∧
    readGraph flowHeader s = some [.node "0x3".toList "\\\"x".toList
      ", color=red, y=\"\\\"\", fontname=courier, shape=box".toList, .close] :=
  ⟨⟨0, 1, 2, [.expr (.string 3 "x\", color=red, y=\"".toList)]⟩, _, rfl, rfl, by decide +kernel⟩

@[inherit_doc C101_byte_false]
theorem C101_source_false : ∃ m s, m.vids.Nodup ∧ m.statements = [] ∧
    astScript exampleFormat exampleLinks exampleAddress "a\"b".toList false false m = some s ∧
    readGraph astHeader s = none :=
  ⟨⟨0, 1, 2, []⟩, _, by decide +kernel, rfl, rfl, by decide +kernel⟩

end Fern.Dot
