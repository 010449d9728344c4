import Verif.Model.ThreadSafeQueue
/-
Linearizability of a queue: a history of calls and returns can be completed by inserting, for each
call that returned and possibly for calls that did not return yet, a moment between call and return
at which the call takes effect, such that the effects, one after the other, are those of a FIFO
queue. Independent of the model's state and steps.
-/
namespace Fern.Spec

variable {V : Type}

/-- A history with the moments at which calls take effect. -/
inductive Moment (V : Type) where
  | call (thread : Nat) (c : QueueCall V)
  | effect (thread : Nat) (c : QueueCall V) (r : QueueResult V)
  | ret (thread : Nat) (r : QueueResult V)

/-- What the callers see of it. -/
def seen (m : List (Moment V)) : List (QueueEvent V) :=
  m.filterMap (fun e => match e with
    | .call t c => some (.call t c)
    | .effect _ _ _ => none
    | .ret t r => some (.ret t r))

/-- Where a thread is, according to the history. -/
inductive Phase (V : Type) where
  | outside
  | called (c : QueueCall V)
  | effected (r : QueueResult V)

/-- For each thread the moments are call, effect, return, and so on, and the result returned is
that of the effect. `Follows t m p`: thread `t` is in phase `p` at the end. -/
inductive Follows (t : Nat) : List (Moment V) → Phase V → Prop
  | nil : Follows t [] .outside
  | call {m : List (Moment V)} (c : QueueCall V) : Follows t m .outside →
      Follows t (m ++ [.call t c]) (.called c)
  | effect {m : List (Moment V)} (c : QueueCall V) (r : QueueResult V) : Follows t m (.called c) →
      Follows t (m ++ [.effect t c r]) (.effected r)
  | ret {m : List (Moment V)} (r : QueueResult V) : Follows t m (.effected r) →
      Follows t (m ++ [.ret t r]) .outside
  | otherCall {m : List (Moment V)} {p : Phase V} (u : Nat) (c : QueueCall V) : u ≠ t →
      Follows t m p → Follows t (m ++ [.call u c]) p
  | otherEffect {m : List (Moment V)} {p : Phase V} (u : Nat) (c : QueueCall V)
      (r : QueueResult V) : u ≠ t → Follows t m p → Follows t (m ++ [.effect u c r]) p
  | otherRet {m : List (Moment V)} {p : Phase V} (u : Nat) (r : QueueResult V) : u ≠ t →
      Follows t m p → Follows t (m ++ [.ret u r]) p

/-- The effect of a call on a FIFO queue holding `q`: its result and the queue's new contents. -/
inductive Fifo : List V → QueueCall V → QueueResult V → List V → Prop
  | push (q : List V) (v : V) : Fifo q (.push v) .pushed (q ++ [v])
  | pop (q : List V) (v : V) : Fifo (v :: q) .tryPop (.popped (some v)) q
  | popEmpty : Fifo [] .tryPop (.popped none) []
  | isEmpty : Fifo [] .empty (.empty true) []
  | notEmpty (v : V) (q : List V) : Fifo (v :: q) .empty (.empty false) (v :: q)

/-- The effects in the history are those of a FIFO queue that is empty at first and holds `q` at
the end. -/
inductive FifoRun : List (Moment V) → List V → Prop
  | nil : FifoRun [] []
  | effect {m : List (Moment V)} {q q' : List V} (t : Nat) (c : QueueCall V) (r : QueueResult V) :
      FifoRun m q → Fifo q c r q' → FifoRun (m ++ [.effect t c r]) q'
  | call {m : List (Moment V)} {q : List V} (t : Nat) (c : QueueCall V) :
      FifoRun m q → FifoRun (m ++ [.call t c]) q
  | ret {m : List (Moment V)} {q : List V} (t : Nat) (r : QueueResult V) :
      FifoRun m q → FifoRun (m ++ [.ret t r]) q

/-- The history of calls and returns is that of a FIFO queue whose operations take effect at once,
between call and return. -/
def Linearizable (h : List (QueueEvent V)) : Prop :=
  ∃ m : List (Moment V), seen m = h ∧ (∀ t, ∃ p, Follows t m p) ∧ ∃ q, FifoRun m q

/-- The values pushed, in the order in which the calls took effect. -/
def pushedValues (m : List (Moment V)) : List V :=
  m.filterMap (fun e => match e with | .effect _ (.push v) _ => some v | _ => none)

/-- The values popped, in the order in which the calls took effect. -/
def poppedValues (m : List (Moment V)) : List V :=
  m.filterMap (fun e => match e with | .effect _ _ (.popped (some v)) => some v | _ => none)

end Fern.Spec
