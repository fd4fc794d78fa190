import Verif.Model.Interrupted
import Verif.Spec.Stateful
/-
What happens if an operation on elements or values throws: vocabulary of C82.
-/

namespace Tok3n.Interrupted

open Stateful (SRun Callbacks)

variable {σ τ α β A : Type}

/-- `P::parse(input)` in an environment, started in states of the environment and of the user's function objects. -/
noncomputable def Parse (F : Env α β τ) (C : Ctx α β) (U : Callbacks σ) (p : Parser α) (s : Span) (x : τ × σ) :
    M Call (R × τ × σ) :=
  lim fun n => (sem F C U n p).parse s x

/-- `P::lookahead(input)` in an environment. -/
noncomputable def Look (F : Env α β τ) (C : Ctx α β) (U : Callbacks σ) (p : Parser α) (s : Span) (x : τ × σ) :
    M Call (R × τ × σ) :=
  lim fun n => (sem F C U n p).look s x

/-- What a run does, one after the other: operations that can throw and calls of the user's function objects. -/
inductive Event (α β : Type) where
  | op (o : Op α β)
  | call (c : Call)
  deriving DecidableEq, Repr

/-- the calls among them -/
def calls : List (Event α β) → List Call
  | [] => []
  | .op _ :: ev => calls ev
  | .call c :: ev => c :: calls ev

/-- the operations among them -/
def ops : List (Event α β) → List (Op α β)
  | [] => []
  | .op o :: ev => o :: ops ev
  | .call _ :: ev => ops ev

/-- The events one after the other, then the result `r`; an operation that throws ends it. -/
def play (F : Env α β τ) : τ → List (Event α β) → Res (A × σ) → M Call (A × τ × σ)
  | t, [], .ok (a, st) => .done [] (.ok (a, t, st))
  | _, [], .err e => .done [] (.err e)
  | t, .op o :: ev, r => match F o t with
    | .ok t => play F t ev r
    | .error e => .done [] (.err (.exn e))
  | t, .call c :: ev, r => (play F t ev r).after [c]

/-- Nothing throws. -/
def calm : Env α β Unit := fun _ t => .ok t

/-- The operation with number `n` (counted from 0) throws `e`; the state is the number of operations done. -/
def nth (n e : Nat) : Env α β Nat := fun _ k => if k = n then .error e else .ok (k + 1)

/-- Each operation is recorded and may throw or not, depending on what was done before. -/
def recording (f : List (Op α β) → Option Nat) : Env α β (List (Op α β)) := fun o l =>
  match f (l ++ [o]) with
  | some e => .error e
  | none => .ok (l ++ [o])

end Tok3n.Interrupted
