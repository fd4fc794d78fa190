import Verif.Spec.Values
import Verif.Spec.Outcome
/-
Lifetimes: spans that point into objects of the user's types, which are destroyed when `parse`
returns, unless they are part of the result.
-/

namespace Tok3n

variable {α β : Type}

/-- The span points into memory owned by an object of a user type.  `owned` says of each array
whether it is inside such an object (as the characters of a `std::string` are). -/
def Span.IntoObject (owned : Nat → Bool) (t : Span) : Prop := ∃ b o, t.ptr = .at b o ∧ owned b = true

/-- No span in the value points into an object of a user type. -/
def Val.Outside (owned : Nat → Bool) (v : Val) : Prop := ∀ t ∈ v.spans, ¬ t.IntoObject owned

/-- The user's code keeps no pointers into its objects: given spans that point elsewhere, it makes
no others.  (A user type may still be *convertible* to a span into itself.) -/
structure KeepsNone (owned : Nat → Bool) (C : Ctx α β) (p : Parser α) : Prop where
  maps : ∀ q f, ParseReach C p (.map q f) → ∀ args log v, (∀ a ∈ args, a.Outside owned) →
    invoke C f args = .done log (.ok v) → v.Outside owned
  conv : ∀ a b f v, C.conv a b = some f → v.Outside owned → (f v).Outside owned
  convOpt : ∀ a b f o, C.convOpt a b = some f → (Val.opt o).Outside owned → (f o).Outside owned
  dflt : ∀ k v, C.userDefault k = some v → v.Outside owned

/-- What is joined in `p` are views only: the values of `q`, for each `join(q)` in `p`, are made of
spans, and of user values convertible to spans, that do not point into the user's objects. -/
def JoinsViews (owned : Nat → Bool) (C : Ctx α β) (p : Parser α) : Prop :=
  ∀ q, ParseReach C p (.join q) → ∀ s log v s', Parses C q s log v s' → v.Outside owned →
    ∀ t ∈ joinLeaves C v, ¬ t.IntoObject owned

end Tok3n
