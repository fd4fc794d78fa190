import Verif.Spec.Terminate
import Verif.Model.Denote
/-
How deep the calls of a parse nest: the vocabulary of C64.
-/

namespace Tok3n

variable {α β : Type}

/-- `parse` and `lookahead` when calls may nest at most `d` deep: the functions of `p` take one call, and leave
`d - 1` to the functions they call in turn.  A call that nests deeper has some other outcome `o` (it overflows the
stack). -/
noncomputable def budget (C : Ctx α β) (o : Sub) : Nat → Parser α → Sub
  | 0, _ => o
  | d + 1, p => ⟨fun s => lim fun k => (step C (budget C o d) k p).parse s,
      fun s => lim fun k => (step C (budget C o d) k p).look s⟩

/-- The calls of `p` on `s` nest at most `d` deep: with room for that many, what happens to deeper ones makes no
difference. -/
def NestsAtMost (C : Ctx α β) (d : Nat) (p : Parser α) (s : Span) : Prop :=
  ∀ d' ≥ d, ∀ o, (budget C o d' p).parse s = Parse C p s ∧ (budget C o d' p).look s = Look C p s

/-- The same for one of the two functions. -/
def ParseNestsAtMost (C : Ctx α β) (d : Nat) (p : Parser α) (s : Span) : Prop :=
  ∀ d' ≥ d, ∀ o, (budget C o d' p).parse s = Parse C p s
def LookNestsAtMost (C : Ctx α β) (d : Nat) (p : Parser α) (s : Span) : Prop :=
  ∀ d' ≥ d, ∀ o, (budget C o d' p).look s = Look C p s

mutual
/-- The height of an expression; custom parsers are not looked into. -/
def Parser.height : Parser α → Nat
  | .anyOf _ | .noneOf _ | .allOf _ | .anything | .epsilon | .custom _ => 1
  | .choice ps | .sequence ps => heights ps + 1
  | .maybe p | .exactly p _ | .oneOrMore p | .zeroOrMore p | .ignore p | .complete p | .join p | .map p _
  | .filter p _ | .named p _ => p.height + 1
  | .delimit p d => max p.height d.height + 1
def heights : List (Parser α) → Nat
  | [] => 0
  | p :: ps => max p.height (heights ps)
end

/-- The expression is at most `d` high when custom parsers are looked into. -/
inductive Fits (C : Ctx α β) : Nat → Parser α → Prop where
  | intro {d p} : (∀ q ∈ p.parts, Fits C d q) → (∀ k, p = .custom k → Fits C d (C.custom k).body) → Fits C (d + 1) p

/-- Custom parsers are ranked below `R`, and what one reaches before anything is consumed has lower rank.  Their
bodies and `p` are at most `h` high. -/
structure Ranked (C : Ctx α β) (rank : Nat → Nat) (R h : Nat) (p : Parser α) : Prop where
  below : ∀ k, Uses C p (.custom k) → rank k < R
  lower : ∀ j k, Uses C p (.custom j) → Reaches C (C.custom j).body k → rank k < rank j
  height : p.height ≤ h
  bodies : ∀ k, Uses C p (.custom k) → (C.custom k).body.height ≤ h

end Tok3n
