import Verif.Spec.Recorded
import Verif.Spec.Terminate
import Mathlib.Logic.Relation
/-
Which functions a run calls, and where; what makes a run go on for ever.
-/

namespace Tok3n

variable {α β : Type}

/-- `p.parse(s)` (`true`) or `p.lookahead(s)` (`false`). -/
noncomputable def RunIn (C : Ctx α β) : Bool → Parser α → Span → Run R
  | true, p, s => Parse C p s
  | false, p, s => Look C p s

/-- The function succeeds on `s` and leaves `t`. -/
def Takes (C : Ctx α β) (m : Bool) (p : Parser α) (s t : Span) : Prop :=
  ∃ log v, RunIn C m p s = .done log (.ok ⟨some v, t⟩)

/-- The function fails on `s`. -/
def Declines (C : Ctx α β) (m : Bool) (p : Parser α) (s : Span) : Prop :=
  ∃ log t, RunIn C m p s = .done log (.ok ⟨none, t⟩)

/-- Functions that succeed one after the other, each on what the one before left. -/
inductive TakesAll (C : Ctx α β) : List (Bool × Parser α) → Span → Span → Prop where
  | nil {s} : TakesAll C [] s s
  | cons {m p ps s t u} : Takes C m p s t → TakesAll C ps t u → TakesAll C ((m, p) :: ps) s u

/-- A delimiter and an element, one after the other. -/
def TakesBoth (C : Ctx α β) (m : Bool) (d p : Parser α) (s t : Span) : Prop :=
  ∃ u, Takes C m d s u ∧ Takes C m p u t

/-- One call: of `parse` (`parsing`) or of `lookahead`, of which parser, on what. -/
structure Visit (α : Type) where
  parsing : Bool
  what : Parser α
  place : Span

open Relation (ReflTransGen TransGen)

/-- `Tries C v w`: the call `v` makes the call `w`.
* An alternative of a choice is called where the choice is, after those before it failed; it is only looked ahead if the
  choice is, or if no index is recorded for it.
* A part of a sequence is called after those before it succeeded, on what they left; it is only looked ahead if the
  sequence is, or if it has no value.
* What is repeated is called on the input and on what any number of successes left. -/
inductive Tries (C : Ctx α β) : Visit α → Visit α → Prop where
  | choice {m ps s is before m' p after} : Recorded (ps.map (resultFor C)) is →
      (is.map fun i => m && i.isSome).zip ps = before ++ (m', p) :: after →
      (∀ x ∈ before, Declines C x.1 x.2 s) → Tries C ⟨m, .choice ps, s⟩ ⟨m', p, s⟩
  | sequence {m ps s before m' p after t} :
      (ps.map fun p => (m && decide (resultFor C p ≠ .void), p)) = before ++ (m', p) :: after →
      TakesAll C before s t → Tries C ⟨m, .sequence ps, s⟩ ⟨m', p, t⟩
  | maybe {m p s} : Tries C ⟨m, .maybe p, s⟩ ⟨m, p, s⟩
  | exactly {m p n s i t} : i < n → TakesAll C (List.replicate i (m, p)) s t → Tries C ⟨m, .exactly p n, s⟩ ⟨m, p, t⟩
  | oneOrMore {m p s t} : ReflTransGen (Takes C m p) s t → Tries C ⟨m, .oneOrMore p, s⟩ ⟨m, p, t⟩
  | zeroOrMore {m p s t} : ReflTransGen (Takes C m p) s t → Tries C ⟨m, .zeroOrMore p, s⟩ ⟨m, p, t⟩
  | first {m p d s} : Tries C ⟨m, .delimit p d, s⟩ ⟨m, p, s⟩
  | delimiter {m p d s t u} : Takes C m p s t → ReflTransGen (TakesBoth C m d p) t u →
      Tries C ⟨m, .delimit p d, s⟩ ⟨m, d, u⟩
  | next {m p d s t u u'} : Takes C m p s t → ReflTransGen (TakesBoth C m d p) t u → Takes C m d u u' →
      Tries C ⟨m, .delimit p d, s⟩ ⟨m, p, u'⟩
  | ignore {m p s} : Tries C ⟨m, .ignore p, s⟩ ⟨false, p, s⟩
  | complete {m p s} : Tries C ⟨m, .complete p, s⟩ ⟨m, p, s⟩
  | join {m p s} : Tries C ⟨m, .join p, s⟩ ⟨m, p, s⟩
  | map {m p f s} : Tries C ⟨m, .map p f, s⟩ ⟨m, p, s⟩
  | filter {m p f s} : Tries C ⟨m, .filter p f, s⟩ ⟨m, p, s⟩
  | named {m p n s} : Tries C ⟨m, .named p n, s⟩ ⟨m, p, s⟩
  | custom {m k s} : Tries C ⟨m, .custom k, s⟩ ⟨m, (C.custom k).body, s⟩

/-- A repetition that gets to a place where what it repeats succeeds without consuming anything. -/
inductive Spins (C : Ctx α β) : Visit α → Prop where
  | oneOrMore {m p s t} : ReflTransGen (Takes C m p) s t → Takes C m p t t → Spins C ⟨m, .oneOrMore p, s⟩
  | zeroOrMore {m p s t} : ReflTransGen (Takes C m p) s t → Takes C m p t t → Spins C ⟨m, .zeroOrMore p, s⟩
  | delimit {m p d s t u} : Takes C m p s t → ReflTransGen (TakesBoth C m d p) t u → TakesBoth C m d p u u →
      Spins C ⟨m, .delimit p d, s⟩

/-- The same function of a custom parser is called again, on the same input, while it runs. -/
def Reenters (C : Ctx α β) (v : Visit α) : Prop := (∃ k, v.what = .custom k) ∧ TransGen (Tries C) v v

end Tok3n
