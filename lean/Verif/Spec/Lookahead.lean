import Verif.Spec.Outcome
import Verif.Spec.Values
/-
When `lookahead()` tells what `parse()` does.
-/

namespace Tok3n

variable {α β : Type} (C : Ctx α β)

/-- On readable input, `p.lookahead` tells what `p.parse` does: success for success and failure for failure,
with the same remaining input; no return for no return. -/
structure LookaheadTells (p : Parser α) : Prop where
  success : ∀ s, s.Valid C.mem → ∀ log v s', Parses C p s log v s' → Looks C p s [] s'
  failure : ∀ s, s.Valid C.mem → ∀ log s', ParseFails C p s log s' → LookFails C p s [] s'
  loop : ∀ s, s.Valid C.mem → ParseLoops C p s → LookLoops C p s

/-- On readable input, no `filter` and no `join` in `p` ever fails where the parser in it succeeds, and no custom parser
in it succeeds where its body fails (other than below `ignore`; custom parsers are looked into). -/
structure NeverOverrules (p : Parser α) : Prop where
  rejects : ∀ q, ParseReach C p q → ∀ r, (q = .join r ∨ ∃ f, q = .filter r f) → ∀ s, s.Valid C.mem →
    ∀ log v s', Parses C r s log v s' → ∀ log' s'', ¬ ParseFails C q s log' s''
  pretends : ∀ k, ParseReach C p (.custom k) → ∀ s, s.Valid C.mem →
    ∀ log s', ParseFails C (C.custom k).body s log s' → ∀ log' v s'', ¬ Parses C (.custom k) s log' v s''

end Tok3n
