import Verif.Model.Denote
/-
Vocabulary for stating properties of `parse()` and `lookahead()`.
-/

namespace Tok3n

variable {α β : Type} (C : Ctx α β)

/-- `p.parse(s)` returns a success with value `v` and `remaining() = s'`, having run the
callbacks `log` in that order. -/
def Parses (p : Parser α) (s : Span) (log : List Call) (v : Val) (s' : Span) : Prop :=
  Parse C p s = .done log (.ok ⟨some v, s'⟩)

/-- `p.parse(s)` returns a failure with `remaining() = s'`, having run `log`. -/
def ParseFails (p : Parser α) (s : Span) (log : List Call) (s' : Span) : Prop :=
  Parse C p s = .done log (.ok ⟨none, s'⟩)

/-- `p.parse(s)` ends with the error `e` (`exn`: a callback threw), having run `log`. -/
def ParseErr (p : Parser α) (s : Span) (log : List Call) (e : Err) : Prop :=
  Parse C p s = .done log (.err e)

/-- `p.parse(s)` never ends. -/
def ParseLoops (p : Parser α) (s : Span) : Prop := Parse C p s = .diverge

/-- The same for `p.lookahead(s)`, a `result<void, V>`: its value is the unit value. -/
def Looks (p : Parser α) (s : Span) (log : List Call) (s' : Span) : Prop :=
  Look C p s = .done log (.ok ⟨some .unit, s'⟩)
def LookFails (p : Parser α) (s : Span) (log : List Call) (s' : Span) : Prop :=
  Look C p s = .done log (.ok ⟨none, s'⟩)
def LookErr (p : Parser α) (s : Span) (log : List Call) (e : Err) : Prop :=
  Look C p s = .done log (.err e)
def LookLoops (p : Parser α) (s : Span) : Prop := Look C p s = .diverge

/-- `s'` is what is left of `s` after its first `k` elements: it starts `k` elements
later and ends at the same place. -/
structure Span.Advanced (s : Span) (k : Nat) (s' : Span) : Prop where
  size : k + s'.len = s.len
  start : (k = 0 ∧ s'.ptr = s.ptr) ∨ ∃ b o, s.ptr = .at b o ∧ s'.ptr = .at b (o + k)

/-- `s'` is a suffix of `s`. -/
def Span.SuffixOf (s' s : Span) : Prop := ∃ k, s.Advanced k s'

end Tok3n
