import Verif.Model.Stateful
import Verif.Model.Denote
import Verif.Spec.Values
import Verif.Spec.Recorded
import Verif.Spec.Modify
/-
Runs with stateful callbacks, without fuel, and the vocabulary for stating properties of
them.
-/

namespace Tok3n.Stateful

variable {σ α β : Type}

/-- `P::parse(input)` started in state `st`: its result and the state it leaves behind;
`diverge` = does not return. -/
noncomputable def Parse (C : Ctx α β) (U : Callbacks σ) (p : Parser α) (s : Span) (st : σ) :
    M Call (R × σ) :=
  lim fun n => (sem C U n p).parse s st

/-- `P::lookahead(input)` started in state `st`. -/
noncomputable def Look (C : Ctx α β) (U : Callbacks σ) (p : Parser α) (s : Span) (st : σ) :
    M Call (R × σ) :=
  lim fun n => (sem C U n p).look s st

section
variable (C : Ctx α β) (U : Callbacks σ)

/-- `p.parse(s)`, started in state `st`, returns a success with value `v` and
`remaining() = s'`, having run the callbacks `log` in that order; they leave the state `st'`. -/
def Parses (p : Parser α) (s : Span) (st : σ) (log : List Call) (v : Val) (s' : Span) (st' : σ) : Prop :=
  Parse C U p s st = .done log (.ok (⟨some v, s'⟩, st'))
/-- The same for a failure. -/
def ParseFails (p : Parser α) (s : Span) (st : σ) (log : List Call) (s' : Span) (st' : σ) : Prop :=
  Parse C U p s st = .done log (.ok (⟨none, s'⟩, st'))
/-- `p.parse(s)` ends with the error `e` (`exn`: a callback threw), having run `log`. -/
def ParseErr (p : Parser α) (s : Span) (st : σ) (log : List Call) (e : Err) : Prop :=
  Parse C U p s st = .done log (.err e)
/-- `p.parse(s)` never ends. -/
def ParseLoops (p : Parser α) (s : Span) (st : σ) : Prop := Parse C U p s st = .diverge

end

/-- The user's code as it behaves in one state: a context whose functions have no state. -/
def freeze (C : Ctx α β) (U : Callbacks σ) (st : σ) : Ctx α β :=
  { C with
    fnCall := fun k args => (U.fnCall k args st).1
    ctor := fun t args => (U.ctor t args st).1 }

/-- Callbacks that pay no attention to the state: the functions of `C`. -/
def Callbacks.ofCtx (C : Ctx α β) : Callbacks σ where
  fnCall k args st := (C.fnCall k args, st)
  ctor t args st := (C.ctor t args, st)

/-- Calling the function object `f` with `args` in state `st` calls the user's code once, as
the call `c`, which answers `x` and leaves `st'`: the user's own functions and constructors
answer as `U` does, `constant` with its value and `defaulted` with the default value, whatever
the state; `apply` takes its argument apart. -/
inductive Called (C : Ctx α β) (U : Callbacks σ) : Fn → List Val → σ → Call → Except Nat Val → σ → Prop where
  | user {k args st x st'} : U.fnCall k args st = (x, st') → Called C U (.user k) args st ⟨.user k, args⟩ x st'
  | construct {t args st x st'} : U.ctor t args st = (x, st') →
      Called C U (.construct t) args st ⟨.construct t, args⟩ x st'
  | const {k args st} : Called C U (.const k) args st ⟨.const k, args⟩ (.ok (C.constVal k)) st
  | deflt {t args st v} : defaultVal C t = some v → Called C U (.deflt t) args st ⟨.deflt t, args⟩ (.ok v) st
  | apply {f v vs st c x st'} : Components v vs → Called C U f vs st c x st' → Called C U (.apply f) [v] st c x st'

/-- Called with the same arguments in states that correspond, the function object `f` answers the same to the callbacks
`U` and to the callbacks `W`, and the states it leaves correspond again. -/
def Corresponds {τ : Type} (S : σ → τ → Prop) (U : Callbacks σ) (W : Callbacks τ) : Fn → Prop
  | .user k => ∀ args st st', S st st' →
      (U.fnCall k args st).1 = (W.fnCall k args st').1 ∧ S (U.fnCall k args st).2 (W.fnCall k args st').2
  | .construct t => ∀ args st st', S st st' →
      (U.ctor t args st).1 = (W.ctor t args st').1 ∧ S (U.ctor t args st).2 (W.ctor t args st').2
  | .apply f => Corresponds S U W f
  | .const _ | .deflt _ => True

/-- What one logged call answers in a state and the state it leaves: `constant` and
`defaulted` run no user code with state. -/
def Callbacks.on (U : Callbacks σ) (c : Call) (st : σ) : Except Nat Unit × σ :=
  match c.fn with
  | .user k => ((U.fnCall k c.args st).1.map fun _ => (), (U.fnCall k c.args st).2)
  | .construct t => ((U.ctor t c.args st).1.map fun _ => (), (U.ctor t c.args st).2)
  | _ => (.ok (), st)

/-- `st` leads to `st'` by the given calls, one after the other, none of which throws. -/
inductive Replays (U : Callbacks σ) : σ → List Call → σ → Prop where
  | nil {st} : Replays U st [] st
  | cons {st c st' cs st''} : U.on c st = (.ok (), st') → Replays U st' cs st'' →
      Replays U st (c :: cs) st''

/-- The calls of `log` are made one after the other from `st` on; the last one throws `e`, the
others do not throw. -/
def Throws (U : Callbacks σ) (st : σ) (log : List Call) (e : Nat) : Prop :=
  ∃ cs c st', log = cs ++ [c] ∧ Replays U st cs st' ∧ (U.on c st').1 = .error e

/-- Change the value of a success, nothing else. -/
def mapVal (f : Val → Val) (m : SRun σ R) : SRun σ R := m >>= fun r => SRun.pure ⟨r.val.map f, r.rem⟩

section
variable (C : Ctx α β) (U : Callbacks σ)

/-- A part of a choice or sequence is parsed; one without value is only looked ahead
(finding 2). -/
noncomputable def partRun (p : Parser α) (s : Span) : SRun σ R :=
  if resultFor C p = .void then Look C U p s else Parse C U p s

/-- How a choice runs an alternative: as `Tok3n.recordedRun`, with the state. -/
noncomputable def recordedRun (us : List Ty) (d : Val) (s : Span) (p : Parser α) : Option Nat → SRun σ R
  | none => mapVal (fun _ => d) (Look C U p s)
  | some i => mapVal (fun v => match us with
    | [_] => v
    | us => .var i (converted C (resultFor C p) (us.getD i .void) v)) (Parse C U p s)

end

/-- The runs in order, each in the state the failed ones before it left, up to the first success; a
failure on `s` if there is none. -/
def firstOf (s : Span) : List (SRun σ R) → SRun σ R
  | [] => SRun.pure ⟨none, s⟩
  | m :: ms => SRun.bind m fun r => if r.val.isSome then SRun.pure r else firstOf s ms

/-- All runs fail, each started in the state the one before left; `log` is what they called, in
order. -/
inductive AllFail : List (SRun σ R) → σ → List Call → σ → Prop where
  | nil {st} : AllFail [] st [] st
  | cons {m ms st l s' st1 log st'} : m st = .done l (.ok (⟨none, s'⟩, st1)) → AllFail ms st1 log st' →
      AllFail (m :: ms) st (l ++ log) st'

/-- The runs succeed one after the other, each on what the one before left and in the state it
left; `log` is what they called, in order, `vs` their values. -/
inductive InTurn : List (Span → SRun σ R) → Span → σ → List Call → List Val → Span → σ → Prop where
  | nil {s st} : InTurn [] s st [] [] s st
  | cons {m ms s st l v s1 st1 log vs s' st'} : m s st = .done l (.ok (⟨some v, s1⟩, st1)) →
      InTurn ms s1 st1 log vs s' st' → InTurn (m :: ms) s st (l ++ log) (v :: vs) s' st'

/-- Elements `vs` separated by delimiters `ds`: an element, and as often as there are delimiters a
delimiter and another element. -/
inductive Delimited (P D : Span → SRun σ R) : Span → σ → List Call → List Val → List Val → Span → σ → Prop where
  | one {s st l v s' st'} : P s st = .done l (.ok (⟨some v, s'⟩, st')) → Delimited P D s st l [v] [] s' st'
  | more {s st l v s1 st1 l' d s2 st2 log vs ds s' st'} : P s st = .done l (.ok (⟨some v, s1⟩, st1)) →
      D s1 st1 = .done l' (.ok (⟨some d, s2⟩, st2)) → Delimited P D s2 st2 log vs ds s' st' →
      Delimited P D s st (l ++ (l' ++ log)) (v :: vs) (d :: ds) s' st'

/-- No further delimiter, or one that no element follows. -/
inductive NoMore (P D : Span → SRun σ R) (s : Span) (st : σ) : List Call → σ → Prop where
  | delimiter {log s1 st'} : D s st = .done log (.ok (⟨none, s1⟩, st')) → NoMore P D s st log st'
  | element {l v s1 st1 log s2 st'} : D s st = .done l (.ok (⟨some v, s1⟩, st1)) →
      P s1 st1 = .done log (.ok (⟨none, s2⟩, st')) → NoMore P D s st (l ++ log) st'

end Tok3n.Stateful
