import Verif.Spec.Order
import Verif.Spec.Replace
import Verif.Spec.Language
/-
Repetitions that give nothing back: the vocabulary of C88.
-/

namespace Tok3n

variable {α β : Type}

/-- Wherever `lookahead` of `r` stops on readable input, that of `p` fails. -/
def Exhausts (C : Ctx α β) (r p : Parser α) : Prop :=
  ∀ s : Span, s.Valid C.mem → ∀ log s', Looks C r s log s' → ∃ l, LookFails C p s' l s'

/-- The same for `r` and `p` as parts of a sequence that is parsed (a part without value is looked ahead). -/
def ExhaustsPart (C : Ctx α β) (r p : Parser α) : Prop :=
  ∀ s : Span, s.Valid C.mem → ∀ log v s', partRun C r s = .done log (.ok ⟨some v, s'⟩) → AltRejects C s' p

/-- As parts of a sequence that is parsed: every readable input that `q` accepts is accepted by `p` too. -/
def CoversPart (C : Ctx α β) (p q : Parser α) : Prop :=
  ∀ s : Span, s.Valid C.mem → AltAccepts C s q → AltAccepts C s p

end Tok3n
