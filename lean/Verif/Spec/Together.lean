import Verif.Spec.Stateful
/-
Parses that run at the same time, and share what their function objects share.

The library has no variables that outlive a call (there is no `static` or `mutable` data in `include/` but constants),
and its functions only read the input.  So all that threads can do to each other is to call function objects with a
common state.  A history is the list of these calls in the order in which they took effect, whichever threads made them;
a thread is a `parse` that got, one after the other, the answers the history has for it.
-/

namespace Tok3n

/-- a call of the user's code (`constant` and `defaulted` call none) -/
def Call.own (c : Call) : Bool :=
  match c.fn with
  | .user _ | .construct _ => true
  | _ => false

namespace Stateful

variable {σ α β : Type}

/-- What a call answers in a state, and the state it leaves. -/
def Callbacks.reply (U : Callbacks σ) (c : Call) (st : σ) : Except Nat Val × σ :=
  match c.fn with
  | .user k => U.fnCall k c.args st
  | .construct t => U.ctor t c.args st
  | _ => (.ok .unit, st)

/-- Function objects that ignore their arguments and give the answers `a 0`, `a 1`, … -/
def answering (a : Nat → Except Nat Val) : Callbacks Nat where
  fnCall _ _ n := (a n, n + 1)
  ctor _ _ n := (a n, n + 1)

/-- Forget the state. -/
def outcome (m : M Call (R × σ)) : M Call R := M.bind m fun x => M.pure x.1

/-- A call, the thread that made it and the answer it got. -/
structure Event where
  thread : Nat
  call : Call
  answer : Except Nat Val

/-- The calls of `h` take place one after the other from the state `st` on, each answered by the function objects of
its thread, and leave `st'`. -/
inductive Happens (U : Nat → Callbacks σ) : σ → List Event → σ → Prop where
  | nil {st} : Happens U st [] st
  | cons {st e st1 h st'} : (U e.thread).reply e.call st = (e.answer, st1) → Happens U st1 h st' →
      Happens U st (e :: h) st'

/-- what thread `i` did -/
def eventsOf (i : Nat) (h : List Event) : List Event := h.filter (·.thread == i)

/-- What thread `i` did in `h` is one whole `p.parse(s)`, which called `log` and ended as `r` says: with the answers the
thread got, one after the other, `parse` makes these calls and has this outcome. -/
structure Thread (C : Ctx α β) (p : Parser α) (s : Span) (i : Nat) (h : List Event) (log : List Call) (r : Res R) : Prop where
  calls : (eventsOf i h).map (·.call) = log.filter Call.own
  run : outcome (Parse C (answering fun n => ((eventsOf i h).map (·.answer)).getD n (.error 0)) p s 0) = .done log r

end Stateful

end Tok3n
