import Verif.Model.BasicApi
/-
What the basic parsers are supposed to accept, as a relation on lists of elements.
-/

namespace Tok3n

variable {α β : Type}

/-- The parsers that match elements directly. -/
def IsBasic : Parser α → Prop
  | .anyOf _ | .noneOf _ | .allOf _ | .anything => True
  | _ => False

/-- The first `k` elements of `xs` are what the basic parser matches. -/
def Matches (eqv : α → β → Bool) (p : Parser α) (xs : List β) (k : Nat) : Prop :=
  match p with
  | .anyOf arr => k = 1 ∧ ∃ x rest, xs = x :: rest ∧ ∃ a ∈ arr, eqv a x = true
  | .noneOf arr => k = 1 ∧ ∃ x rest, xs = x :: rest ∧ ∀ a ∈ arr, eqv a x = false
  | .anything => k = 1 ∧ ∃ x rest, xs = x :: rest
  | .allOf arr => k = arr.length ∧
      ∃ front rest, xs = front ++ rest ∧ List.Forall₂ (fun a x => eqv a x = true) arr front
  | _ => False

end Tok3n
