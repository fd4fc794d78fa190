import Verif.Spec.Cut
import Verif.Spec.Effort
/-
Grammars in which the next element decides: vocabulary of C81.
-/

namespace Tok3n

variable {α β : Type}

mutual
/-- without repetitions and custom parsers -/
def Parser.flat : Parser α → Bool
  | .anyOf _ | .noneOf _ | .allOf _ | .anything | .epsilon => true
  | .choice ps | .sequence ps => allFlat ps
  | .maybe p | .exactly p _ | .ignore p | .complete p | .join p | .map p _ | .filter p _ | .named p _ => p.flat
  | .oneOrMore _ | .zeroOrMore _ | .delimit _ _ | .custom _ => false
def allFlat : List (Parser α) → Bool
  | [] => true
  | p :: ps => p.flat && allFlat ps
end

/-- What is known of how a parser gives up.  It does so late if it has read some of the text, with a repetition or a
custom parser, before it fails. -/
structure Predicts (β : Type) where
  /-- nothing in it is tried where something else was given up late -/
  ok : Prop
  /-- it may fail late -/
  late : Prop
  /-- it may succeed after a part of it was given up late, and the next element is then one of these -/
  stuck : β → Prop

/-- of what fails at once -/
def Predicts.atOnce : Predicts β := ⟨True, False, fun _ => False⟩

/-- First `a`, then `b`; the rest says of `b` that it can match nothing, what it begins with and that it never fails, and
of both that they are `flat`.  Where `a` was stuck `b` does not begin. -/
def Predicts.andThen (a b : Predicts β) (nullable : Bool) (begins : β → Bool) (certain flat : Bool) : Predicts β where
  ok := a.ok ∧ b.ok ∧ ∀ x, a.stuck x → begins x = false
  late := a.late ∨ (certain = false ∧ flat = false)
  stuck x := b.stuck x ∨ (nullable = true ∧ a.stuck x)

/-- `a`, else `b`; the rest says what they begin with and that `b` can match nothing.  Where `a` may have failed late `b`
does not begin. -/
def Predicts.orElse (a b : Predicts β) (begins begins' : β → Bool) (nullable' : Bool) : Predicts β where
  ok := a.ok ∧ b.ok ∧ (a.late → ∀ x, begins x = true → begins' x = false)
  late := a.late ∨ b.late
  stuck x := a.stuck x ∨ b.stuck x ∨ (a.late ∧ begins x = true ∧ nullable' = true)

/-- `a`, if possible. -/
def Predicts.optional (a : Predicts β) (begins : β → Bool) : Predicts β where
  ok := a.ok
  late := False
  stuck x := a.stuck x ∨ (a.late ∧ begins x = true)

/-- `a`, as often as possible.  Where it was stuck it does not begin again. -/
def Predicts.repeated (a : Predicts β) (begins : β → Bool) : Predicts β where
  ok := a.ok ∧ ∀ x, a.stuck x → begins x = false
  late := False
  stuck x := a.stuck x ∨ (a.late ∧ begins x = true)

section
variable (eqv : α → β → Bool) (null : Nat → Bool) (begin' : Nat → β → Bool) (tab : Nat → Predicts β)

/-- `n` times `p`, of which `a` is known. -/
def exactlyPredicts (p : Parser α) (a : Predicts β) : Nat → Predicts β
  | 0 => .atOnce
  | n + 1 => a.andThen (exactlyPredicts p a n) ((Parser.exactly p n).nullable null)
      (fun x => (Parser.exactly p n).begins eqv null begin' x) (Parser.exactly p n).certain p.flat

mutual
/-- What is known of a parser; `null`, `begin'` (see C69) and `tab` tell it of custom parsers. -/
def Parser.predicts : Parser α → Predicts β
  | .anyOf _ | .noneOf _ | .allOf _ | .anything | .epsilon => .atOnce
  | .choice ps => choicePredicts ps
  | .sequence ps => sequencePredicts ps
  | .maybe p => p.predicts.optional fun x => p.begins eqv null begin' x
  | .zeroOrMore p => p.predicts.repeated fun x => p.begins eqv null begin' x
  | .oneOrMore p => p.predicts.andThen (p.predicts.repeated fun x => p.begins eqv null begin' x) true
      (fun x => p.begins eqv null begin' x) true false
  | .exactly p n => exactlyPredicts eqv null begin' p p.predicts n
  | .delimit p d =>
    p.predicts.andThen
      ((d.predicts.andThen p.predicts (p.nullable null) (fun x => p.begins eqv null begin' x) p.certain
          (d.flat && p.flat)).repeated
        fun x => d.begins eqv null begin' x || (d.nullable null && p.begins eqv null begin' x))
      true (fun x => d.begins eqv null begin' x || (d.nullable null && p.begins eqv null begin' x)) true false
  | .complete p => ⟨p.predicts.ok, p.flat = false, fun _ => False⟩
  | .ignore p | .join p | .map p _ | .filter p _ | .named p _ => p.predicts
  | .custom k => tab k
def choicePredicts : List (Parser α) → Predicts β
  | [] => .atOnce
  | p :: ps => p.predicts.orElse (choicePredicts ps) (fun x => p.begins eqv null begin' x)
      (fun x => someBegins eqv null begin' x ps) (someNullable null ps)
def sequencePredicts : List (Parser α) → Predicts β
  | [] => .atOnce
  | p :: ps => p.predicts.andThen (sequencePredicts ps) (allNullable null ps)
      (fun x => sequenceBegins eqv null begin' x ps) (allCertain ps) (p.flat && allFlat ps)
end
end

/-- The tables are right about the custom parsers: they say no more than follows for the `get_parser()`. -/
structure PredictTable (C : Ctx α β) (null : Nat → Bool) (begin' : Nat → β → Bool) (tab : Nat → Predicts β) : Prop
    extends BeginTable C null begin' where
  ok : ∀ k, (tab k).ok → ((C.custom k).body.predicts C.eqv null begin' tab).ok
  late : ∀ k, ((C.custom k).body.predicts C.eqv null begin' tab).late → (tab k).late
  stuck : ∀ k x, ((C.custom k).body.predicts C.eqv null begin' tab).stuck x → (tab k).stuck x

end Tok3n
