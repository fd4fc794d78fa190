import Verif.Model.Parse
/-
The fuel-free meaning of `parse` and `lookahead`.

`sem C n p` gives up (`diverge`) when the fuel `n` is used up.  A C++ call returns iff
some amount of fuel suffices, and then more fuel does not change what it returns
(proved in `Proof/Lim.lean`, `sem_mono`).  So the call's outcome is the limit.
-/

namespace Tok3n

variable {α β L A : Type}

open Classical in
/-- Nothing in /repo corresponds to fuel.  The limit of outcomes for more and more fuel: `diverge` only if no fuel
suffices. -/
noncomputable def lim (m : Nat → M L A) : M L A :=
  if h : ∃ n, m n ≠ .diverge then m h.choose else .diverge

/-- `P::parse(input)` (of each file in detail/parsers/, see `step` in Model/Parse.lean): `diverge` = does not return. -/
noncomputable def Parse (C : Ctx α β) (p : Parser α) (s : Span) : Run R :=
  lim fun n => (sem C n p).parse s

/-- `P::lookahead(input)` (of each file in detail/parsers/, see `step` in Model/Parse.lean): `diverge` = does not
return. -/
noncomputable def Look (C : Ctx α β) (p : Parser α) (s : Span) : Run R :=
  lim fun n => (sem C n p).look s

end Tok3n
