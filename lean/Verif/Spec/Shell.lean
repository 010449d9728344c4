import Verif.Model.Shell
import Verif.Spec.Accepted
import Verif.Spec.Thread

/-!
# What an interactive session shows

In terms of the meaning of the lines: the types and the values of names, without stacks, tables and annotations.
-/

namespace Fern.Shell.Spec

open Fern Fern.Spec

variable {V : Type}

/-- The values of a straight-line module are computed without data sources. -/
def plain (c : InterpreterContext V) : ExecuteContext V := executionContext c [] [] []

/-- The session `ls`, given the types and values of names, shows `out` and complains `err`. -/
inductive Session (T : Tools V) : (Str → ExpressionType) → (Str → Option V) → List Str → Str → Str → Prop
  | nil (types : Str → ExpressionType) (env : Str → Option V) : Session T types env [] [] []
  /-- What cannot be parsed gives a message. -/
  | unparsed (types : Str → ExpressionType) (env : Str → Option V) (l : Str) (ls : List Str) (message out err : Str)
      (hp : T.parse l = .fernError message) (h : Session T types env ls out err) :
      Session T types env (l :: ls) out (message ++ ['\n'] ++ err)
  | unexpected (types : Str → ExpressionType) (env : Str → Option V) (l : Str) (ls : List Str) (what out err : Str)
      (hp : T.parse l = .otherError what) (h : Session T types env ls out err) :
      Session T types env (l :: ls) out ("TODO: unhandled exception: ".toList ++ what ++ ['\n'] ++ err)
  /-- What is not well-typed gives the text of a problem. -/
  | refused (types : Str → ExpressionType) (env : Str → Option V) (l : Str) (ls : List Str) (m : Module) (p : Problem)
      (out err : Str) (hp : T.parse l = .tree m) (hf : ¬ FineStmts T.context.ops types m.statements)
      (h : Session T types env ls out err) :
      Session T types env (l :: ls) out (T.problem p ++ ['\n'] ++ err)
  /-- The values of the statements that are expressions are shown, the last one first. -/
  | done (types : Str → ExpressionType) (env env' : Str → Option V) (l : Str) (ls : List Str) (m : Module)
      (values : List V) (texts : List Str) (out err : Str) (hp : T.parse l = .tree m)
      (hf : FineStmts T.context.ops types m.statements)
      (hv : evalStmts (plain T.context) env m.statements = some (env', values))
      (ht : List.Forall₂ (fun x s => T.text x = some s) values.reverse texts)
      (h : Session T (typesAfter T.context.ops types m.statements) env' ls out err) :
      Session T types env (l :: ls) (texts.flatten ++ out) err

/-- No name is assigned to. -/
def AssignsNothing (l : List Stmt) : Prop := ∀ t ∈ l, ∃ e, t = .expr e

/-- Each line that is parsed is a straight-line module, and it is well-typed or assigns nothing. -/
def Careful (T : Tools V) (types : Str → ExpressionType) : List Str → Prop
  | [] => True
  | l :: ls =>
    (∀ m, T.parse l = .tree m → StraightLine m.statements ∧ m.vids.Nodup ∧
      (∀ t ∈ m.statements, ¬ AssignsAttribute t) ∧
      (FineStmts T.context.ops types m.statements ∨ AssignsNothing m.statements) ∧
      Careful T (typesAfter T.context.ops types m.statements) ls) ∧
    ((∀ m, T.parse l ≠ .tree m) → Careful T types ls)

/-- What happens in the session `ls`, given the types and values of names, also if lines that are refused assign names: these get
a type, and keep the value they have, if any. `none`: the program ends. -/
inductive Conversation (T : Tools V) :
    (Str → ExpressionType) → (Str → Option V) → List Str → Option (Str × Str) → Prop
  | nil (types : Str → ExpressionType) (env : Str → Option V) : Conversation T types env [] (some ([], []))
  | unparsed (types : Str → ExpressionType) (env : Str → Option V) (l : Str) (ls : List Str) (message : Str)
      (r : Option (Str × Str)) (hp : T.parse l = .fernError message) (h : Conversation T types env ls r) :
      Conversation T types env (l :: ls) (r.map fun r => (r.1, message ++ ['\n'] ++ r.2))
  | unexpected (types : Str → ExpressionType) (env : Str → Option V) (l : Str) (ls : List Str) (what : Str)
      (r : Option (Str × Str)) (hp : T.parse l = .otherError what) (h : Conversation T types env ls r) :
      Conversation T types env (l :: ls) (r.map fun r => (r.1, "TODO: unhandled exception: ".toList ++ what ++ ['\n'] ++ r.2))
  | refused (types : Str → ExpressionType) (env : Str → Option V) (l : Str) (ls : List Str) (m : Module) (p : Problem)
      (r : Option (Str × Str)) (hp : T.parse l = .tree m) (hf : ¬ FineStmts T.context.ops types m.statements)
      (h : Conversation T (typesAfter T.context.ops types m.statements) env ls r) :
      Conversation T types env (l :: ls) (r.map fun r => (r.1, T.problem p ++ ['\n'] ++ r.2))
  | done (types : Str → ExpressionType) (env env' : Str → Option V) (l : Str) (ls : List Str) (m : Module)
      (values : List V) (texts : List Str) (r : Option (Str × Str)) (hp : T.parse l = .tree m)
      (hf : FineStmts T.context.ops types m.statements)
      (hv : evalStmts (plain T.context) env m.statements = some (env', values))
      (ht : List.Forall₂ (fun x s => T.text x = some s) values.reverse texts)
      (h : Conversation T (typesAfter T.context.ops types m.statements) env' ls r) :
      Conversation T types env (l :: ls) (r.map fun r => (texts.flatten ++ r.1, r.2))
  /-- A value cannot be computed: some name has a type and no value, or an operation fails. -/
  | fails (types : Str → ExpressionType) (env : Str → Option V) (l : Str) (ls : List Str) (m : Module)
      (hp : T.parse l = .tree m) (hf : FineStmts T.context.ops types m.statements)
      (hv : evalStmts (plain T.context) env m.statements = none) : Conversation T types env (l :: ls) none
  /-- A value cannot be shown. -/
  | unshown (types : Str → ExpressionType) (env env' : Str → Option V) (l : Str) (ls : List Str) (m : Module)
      (values : List V) (hp : T.parse l = .tree m) (hf : FineStmts T.context.ops types m.statements)
      (hv : evalStmts (plain T.context) env m.statements = some (env', values))
      (ht : ∃ x ∈ values, T.text x = none) : Conversation T types env (l :: ls) none

/-- Each line that is parsed is a straight-line module. -/
def StraightLines (T : Tools V) (ls : List Str) : Prop :=
  ∀ l ∈ ls, ∀ m, T.parse l = .tree m → StraightLine m.statements ∧ m.vids.Nodup ∧ ∀ t ∈ m.statements, ¬ AssignsAttribute t

end Fern.Shell.Spec
