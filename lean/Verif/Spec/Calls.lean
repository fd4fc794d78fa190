import Verif.Spec.Outcome
/-
Vocabulary for the order in which user code is called.
-/

namespace Tok3n

variable {α β : Type} (C : Ctx α β)

/-- A parser was tried at `s`: parsed, or only looked ahead, which calls nothing. -/
inductive Tried (p : Parser α) (s : Span) : List Call → Res R → Prop where
  | parsed {log r} : Parse C p s = .done log r → Tried p s log r
  | looked {r} : Look C p s = .done [] r → Tried p s [] r

/-- The parsers succeeded one after the other, each where the one before ended; `log` is
what they called, in that order. -/
inductive Succession : List (Parser α) → Span → List Call → Span → Prop where
  | nil {s} : Succession [] s [] s
  | cons {p ps s l v s1 log s'} : Tried C p s l (.ok ⟨some v, s1⟩) → Succession ps s1 log s' →
      Succession (p :: ps) s (l ++ log) s'

/-- The parsers were tried at `s` in turn until one did something else than fail, or to the
end; `log` is what they called, in that order. -/
inductive Attempts (s : Span) : List (Parser α) → List Call → Prop where
  | nil : Attempts s [] []
  | last {p ps log r} : Tried C p s log r → (∀ s', r ≠ .ok ⟨none, s'⟩) → Attempts s (p :: ps) log
  | next {p ps l s' log} : Tried C p s l (.ok ⟨none, s'⟩) → Attempts s ps log → Attempts s (p :: ps) (l ++ log)

/-- The exception the call throws, if it does: only functions and constructors of the user can. -/
def Ctx.throws (c : Call) : Option Nat :=
  match c.fn with
  | .user k => match C.fnCall k c.args with | .error e => some e | .ok _ => none
  | .construct t => match C.ctor t c.args with | .error e => some e | .ok _ => none
  | _ => none

end Tok3n
