import Verif.Model.Written
import Verif.Spec.Outcome
import Verif.Spec.Values
/-
Vocabulary for C77: what a hand-written parser class should do, and what calls of parsers do in a program
with hand-written classes.
-/

namespace Tok3n

variable {α β : Type}

namespace Written

/-! ### What a hand-written class promises -/

/-- A failure gives the input back and a success leaves an end of the input, in `parse` and in `lookahead`. -/
structure Protocol (S : Sub) : Prop where
  fails : ∀ s log s', S.parse s = .done log (.ok ⟨none, s'⟩) → s' = s
  consumes : ∀ s log v s', S.parse s = .done log (.ok ⟨some v, s'⟩) → s'.SuffixOf s
  lookFails : ∀ s log s', S.look s = .done log (.ok ⟨none, s'⟩) → s' = s
  lookConsumes : ∀ s log v s', S.look s = .done log (.ok ⟨some v, s'⟩) → s'.SuffixOf s

/-- `lookahead` returns no value, runs no callbacks and on readable input does not end with an error; on
unreadable input its only error is undefined behaviour. -/
structure Quiet (C : Ctx α β) (S : Sub) : Prop extends Protocol S where
  value : ∀ s log v s', S.look s = .done log (.ok ⟨some v, s'⟩) → v = .unit
  log : ∀ s log r, S.look s = .done log r → log = []
  err : ∀ s log e, S.look s = .done log (.err e) → e = .ub ∧ ¬ s.Valid C.mem

/-- … and the values have the announced type `t`, their spans are from the text that was consumed, and `parse`
has undefined behaviour on unreadable input only. -/
structure Delivers (C : Ctx α β) (t : Ty) (S : Sub) : Prop extends Quiet C S where
  hasTy : ∀ s log v s', S.parse s = .done log (.ok ⟨some v, s'⟩) → HasTy t v
  spans : ∀ s log v s', S.parse s = .done log (.ok ⟨some v, s'⟩) → ∀ x ∈ v.spans, InRegion s s' x
  parseErr : ∀ s log e, S.parse s = .done log (.err e) → e ≠ .ill ∧ (s.Valid C.mem → e ≠ .ub)

/-- `lookahead` says what `parse` says (unless `parse` throws). -/
structure Truthful (S : Sub) : Prop where
  success : ∀ s log v s', S.parse s = .done log (.ok ⟨some v, s'⟩) → S.look s = .done [] (.ok ⟨some .unit, s'⟩)
  failure : ∀ s log s', S.parse s = .done log (.ok ⟨none, s'⟩) → S.look s = .done [] (.ok ⟨none, s'⟩)
  loops : ∀ s, S.parse s = .diverge → S.look s = .diverge

/-! ### Calls in a program with hand-written classes -/

variable (C : Ctx α β) (W : Written)

/-- `p.parse(s)` succeeds with the value `v` and `remaining() = s'`, having run `log`. -/
def Parses (p : Parser α) (s : Span) (log : List Call) (v : Val) (s' : Span) : Prop :=
  Parse C W p s = .done log (.ok ⟨some v, s'⟩)
/-- `p.parse(s)` returns a failure with `remaining() = s'`, having run `log`. -/
def ParseFails (p : Parser α) (s : Span) (log : List Call) (s' : Span) : Prop :=
  Parse C W p s = .done log (.ok ⟨none, s'⟩)
/-- `p.parse(s)` ends with the error `e` (`exn`: a callback threw), having run `log`. -/
def ParseErr (p : Parser α) (s : Span) (log : List Call) (e : Err) : Prop := Parse C W p s = .done log (.err e)
/-- `p.parse(s)` never ends. -/
def ParseLoops (p : Parser α) (s : Span) : Prop := Parse C W p s = .diverge
/-- The same for `lookahead`. -/
def Looks (p : Parser α) (s : Span) (log : List Call) (s' : Span) : Prop :=
  Look C W p s = .done log (.ok ⟨some .unit, s'⟩)
def LookFails (p : Parser α) (s : Span) (log : List Call) (s' : Span) : Prop :=
  Look C W p s = .done log (.ok ⟨none, s'⟩)
def LookErr (p : Parser α) (s : Span) (log : List Call) (e : Err) : Prop := Look C W p s = .done log (.err e)
def LookLoops (p : Parser α) (s : Span) : Prop := Look C W p s = .diverge

end Written

end Tok3n
