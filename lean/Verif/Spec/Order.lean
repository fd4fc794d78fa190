import Verif.Spec.Terminate
import Verif.Spec.Combinators
/-
When the order of alternatives does not matter: the vocabulary of C69.
-/

namespace Tok3n

variable {α β : Type}

/-- No readable input is accepted by both. -/
def Apart (C : Ctx α β) (p q : Parser α) : Prop :=
  ∀ s : Span, s.Valid C.mem → ¬ ((∃ log s', Looks C p s log s') ∧ ∃ log s', Looks C q s log s')

/-- Every readable input that `q` accepts (perhaps more of it) is accepted by `p` too. -/
def Covers (C : Ctx α β) (p q : Parser α) : Prop :=
  ∀ s : Span, s.Valid C.mem → (∃ log s', Looks C q s log s') → ∃ log s', Looks C p s log s'

/-- `lookahead` returns, on every readable input. -/
def LookReturns (C : Ctx α β) (p : Parser α) : Prop := ∀ s : Span, s.Valid C.mem → ¬ LookLoops C p s

/-- The alternative `p` of a choice accepts `s`. -/
def AltAccepts (C : Ctx α β) (s : Span) (p : Parser α) : Prop :=
  ∃ log v s', partRun C p s = .done log (.ok ⟨some v, s'⟩)

/-- The alternative `p` of a choice does not accept `s`. -/
def AltRejects (C : Ctx α β) (s : Span) (p : Parser α) : Prop :=
  ∃ log s', partRun C p s = .done log (.ok ⟨none, s'⟩)

/-! ### A check that can be run on a grammar -/

mutual
/-- Can what `p` consumes begin with the element `x`?  A conservative answer; `null` and `begin'` give it for custom
parsers. -/
def Parser.begins (eqv : α → β → Bool) (null : Nat → Bool) (begin' : Nat → β → Bool) (x : β) : Parser α → Bool
  | .anyOf arr => arr.any (eqv · x)
  | .noneOf arr => !arr.any (eqv · x)
  | .allOf arr => match arr with
    | [] => false
    | a :: _ => eqv a x
  | .anything => true
  | .epsilon => false
  | .choice ps => someBegins eqv null begin' x ps
  | .sequence ps => sequenceBegins eqv null begin' x ps
  | .delimit p d => p.begins eqv null begin' x || (p.nullable null && d.begins eqv null begin' x)
  | .maybe p | .exactly p _ | .oneOrMore p | .zeroOrMore p | .ignore p | .complete p | .join p | .map p _ | .filter p _
  | .named p _ => p.begins eqv null begin' x
  | .custom k => begin' k x
def someBegins (eqv : α → β → Bool) (null : Nat → Bool) (begin' : Nat → β → Bool) (x : β) : List (Parser α) → Bool
  | [] => false
  | p :: ps => p.begins eqv null begin' x || someBegins eqv null begin' x ps
def sequenceBegins (eqv : α → β → Bool) (null : Nat → Bool) (begin' : Nat → β → Bool) (x : β) : List (Parser α) → Bool
  | [] => false
  | p :: ps => p.begins eqv null begin' x || (p.nullable null && sequenceBegins eqv null begin' x ps)
end

/-- `null` and `begin'` are right about the custom parsers. -/
structure BeginTable (C : Ctx α β) (null : Nat → Bool) (begin' : Nat → β → Bool) : Prop where
  nulls : ∀ k, (C.custom k).body.nullable null = true → null k = true
  begins : ∀ k x, (C.custom k).body.begins C.eqv null begin' x = true → begin' k x = true

end Tok3n
