import Verif.Spec.Language
/-
Grammars where one element tells what to do (LL(1) grammars), for C85.
-/

namespace Tok3n

variable {α β : Type}

mutual
/-- One element tells what to do, if `F` can come behind the parser.  Of alternatives, only the last may match nothing, and
one does not begin with what a later one begins with, or what comes behind a later one that may match nothing.  What is
repeated or may be left out matches something, and does not begin with what comes behind it. -/
def OneAhead (C : Ctx α β) (null : Nat → Bool) (begin' : Nat → β → Bool) (follow : Nat → β → Prop) :
    Parser α → (β → Prop) → Prop
  | .anyOf _, _ | .noneOf _, _ | .allOf _, _ | .anything, _ | .epsilon, _ => True
  | .choice ps, F => oneAheadAll C null begin' follow ps F ∧ ps.Pairwise fun p q => p.nullable null = false ∧
      ∀ x, (q.begins C.eqv null begin' x = true ∨ (q.nullable null = true ∧ F x)) → p.begins C.eqv null begin' x = false
  | .sequence ps, F => oneAheadParts C null begin' follow ps F
  | .maybe p, F => OneAhead C null begin' follow p F ∧ p.nullable null = false ∧ ∀ x, F x → p.begins C.eqv null begin' x = false
  | .exactly p _, F => OneAhead C null begin' follow p fun x => p.begins C.eqv null begin' x = true ∨ F x
  | .zeroOrMore p, F | .oneOrMore p, F =>
    (OneAhead C null begin' follow p fun x => p.begins C.eqv null begin' x = true ∨ F x) ∧
    p.nullable null = false ∧ ∀ x, F x → p.begins C.eqv null begin' x = false
  | .delimit p d, F =>
    (OneAhead C null begin' follow p fun x => sequenceBegins C.eqv null begin' x [d, p] = true ∨ F x) ∧
    (OneAhead C null begin' follow d
      (behind C null begin' [p] fun x => sequenceBegins C.eqv null begin' x [d, p] = true ∨ F x)) ∧
    allNullable null [d, p] = false ∧ ∀ x, F x → sequenceBegins C.eqv null begin' x [d, p] = false
  | .complete p, F => OneAhead C null begin' follow p F ∧ ∀ x, ¬ F x
  | .ignore p, F | .join p, F | .map p _, F | .filter p _, F | .named p _, F => OneAhead C null begin' follow p F
  | .custom k, F => ∀ x, F x → follow k x
def oneAheadAll (C : Ctx α β) (null : Nat → Bool) (begin' : Nat → β → Bool) (follow : Nat → β → Prop) :
    List (Parser α) → (β → Prop) → Prop
  | [], _ => True
  | p :: ps, F => OneAhead C null begin' follow p F ∧ oneAheadAll C null begin' follow ps F
def oneAheadParts (C : Ctx α β) (null : Nat → Bool) (begin' : Nat → β → Bool) (follow : Nat → β → Prop) :
    List (Parser α) → (β → Prop) → Prop
  | [], _ => True
  | p :: ps, F => OneAhead C null begin' follow p (behind C null begin' ps F) ∧ oneAheadParts C null begin' follow ps F
end

/-- The tables are right about the custom parsers, one element tells what to do in each of them, and each is productive
(C39). -/
structure OneAheadTable [LinearOrder α] (C : Ctx α β) (null : Nat → Bool) (begin' : Nat → β → Bool)
    (follow : Nat → β → Prop) : Prop extends BeginTable C null begin' where
  ahead : ∀ k, OneAhead C null begin' follow (C.custom k).body (follow k)
  returns : ∀ k, ∃ ks null' rank, productive C ks null' rank (.custom k) = true

end Tok3n
