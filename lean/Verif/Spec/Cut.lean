import Verif.Spec.Order
/-
The text behind a match: vocabulary of C78.
-/

namespace Tok3n

variable {α β : Type}

/-- The first `n` elements of `s`. -/
def Span.cut (s : Span) (n : Nat) : Span := ⟨s.ptr, min n s.len⟩

/-- `lookahead` succeeds, with the first `k` elements consumed. -/
def LooksAt (C : Ctx α β) (p : Parser α) (s : Span) (k : Nat) : Prop := ∃ log s', Looks C p s log s' ∧ s.Advanced k s'

/-- `parse` succeeds, with the first `k` elements consumed. -/
def ParsesAt (C : Ctx α β) (p : Parser α) (s : Span) (k : Nat) : Prop :=
  ∃ log v s', Parses C p s log v s' ∧ s.Advanced k s'

/-! ### A check that can be made of a grammar -/

mutual
/-- The parser never fails (a conservative answer). -/
def Parser.certain : Parser α → Bool
  | .epsilon | .maybe _ | .zeroOrMore _ => true
  | .allOf arr => arr.isEmpty
  | .choice ps => someCertain ps
  | .sequence ps => allCertain ps
  | .ignore p | .join p | .map p _ | .filter p _ | .named p _ | .oneOrMore p | .delimit p _ => p.certain
  | .exactly p n => n == 0 || p.certain
  | _ => false
def someCertain : List (Parser α) → Bool
  | [] => false
  | p :: ps => p.certain || someCertain ps
def allCertain : List (Parser α) → Bool
  | [] => true
  | p :: ps => p.certain && allCertain ps
end

/-- What is known of a parser on a text of which the end is cut off. -/
structure AtCut (β : Type) where
  /-- if the end is cut off behind a match, this makes no difference -/
  steady : Prop
  /-- if the whole text does not match, what is left does not match -/
  hopeless : Prop
  /-- if the end is cut off inside a match, and something is left, it still matches something -/
  ready : Prop
  /-- if the end is cut off inside a match, and what is left still matches, but not to its end, then the first element
  that is not matched is one of these -/
  short : β → Prop

/-- of what matches nothing, or never matches -/
def AtCut.trivial : AtCut β := ⟨True, True, True, fun _ => False⟩

/-- of what nothing is known -/
def AtCut.unknown : AtCut β := ⟨False, False, False, fun _ => True⟩

/-- First `a`, then `b`; the rest says of `b` that it can match nothing, what it begins with and that it never fails. -/
def AtCut.andThen (a b : AtCut β) (nullable : Bool) (begins : β → Bool) (certain : Bool) : AtCut β where
  steady := a.steady ∧ b.steady
  hopeless := a.hopeless ∧
    (certain = true ∨ (a.steady ∧ b.hopeless ∧ ∀ x, a.short x → nullable = false ∧ begins x = false))
  ready := a.ready ∧ a.steady ∧ certain = true
  short x := b.short x ∨ (nullable = true ∧ a.short x) ∨ ¬ a.steady ∨ ∃ y, a.short y ∧ begins y = true

/-- `a`, if possible; `begins` says what it begins with. -/
def AtCut.optional (a : AtCut β) (begins : β → Bool) : AtCut β where
  steady := a.steady ∧ a.hopeless
  hopeless := True
  ready := True
  short x := a.short x ∨ (¬ a.ready ∧ begins x = true)

/-- `a`, as often as possible. -/
def AtCut.repeated (a : AtCut β) (begins : β → Bool) : AtCut β where
  steady := a.steady ∧ a.hopeless
  hopeless := True
  ready := True
  short x := a.short x ∨ (¬ a.ready ∧ begins x = true) ∨ ¬ a.steady ∨ ∃ y, a.short y ∧ begins y = true

/-- `a`, else `b`; `apart` says that no text is begun by both. -/
def AtCut.orElse (a b : AtCut β) (apart : Prop) : AtCut β where
  steady := a.steady ∧ b.steady ∧ (a.hopeless ∨ apart)
  hopeless := a.hopeless ∧ b.hopeless
  ready := a.ready ∧ b.ready
  short x := a.short x ∨ b.short x ∨ ¬ ((a.ready ∨ apart) ∧ (a.hopeless ∨ apart))

section
variable (eqv : α → β → Bool) (null : Nat → Bool) (begin' : Nat → β → Bool) (cuts : Nat → AtCut β)

/-- `n` times `p`, of which `a` is known. -/
def exactlyCut (p : Parser α) (a : AtCut β) : Nat → AtCut β
  | 0 => .trivial
  | n + 1 => a.andThen (exactlyCut p a n) ((Parser.exactly p n).nullable null)
      (fun x => (Parser.exactly p n).begins eqv null begin' x) (Parser.exactly p n).certain

mutual
/-- What is known of a parser; `null`, `begin'` (see C69) and `cuts` tell it of custom parsers. -/
def Parser.atCut : Parser α → AtCut β
  | .anyOf _ | .noneOf _ | .anything | .epsilon => .trivial
  | .allOf arr => ⟨True, True, arr.length ≤ 1, fun _ => False⟩
  | .choice ps => choiceCut ps
  | .sequence ps => sequenceCut ps
  | .maybe p => p.atCut.optional fun x => p.begins eqv null begin' x
  | .zeroOrMore p => p.atCut.repeated fun x => p.begins eqv null begin' x
  | .oneOrMore p => p.atCut.andThen (p.atCut.repeated fun x => p.begins eqv null begin' x) true
      (fun x => p.begins eqv null begin' x) true
  | .exactly p n => exactlyCut eqv null begin' p p.atCut n
  | .delimit p d =>
    p.atCut.andThen
      ((d.atCut.andThen (p.atCut.andThen .trivial true (fun _ => false) true) (allNullable null [p])
          (fun x => sequenceBegins eqv null begin' x [p]) (allCertain [p])).repeated
        fun x => sequenceBegins eqv null begin' x [d, p])
      true (fun x => sequenceBegins eqv null begin' x [d, p]) true
  | .complete _ => ⟨True, False, False, fun _ => False⟩
  | .ignore p | .join p | .map p _ | .filter p _ | .named p _ => p.atCut
  | .custom k => cuts k
def choiceCut : List (Parser α) → AtCut β
  | [] => .trivial
  | p :: ps => p.atCut.orElse (choiceCut ps)
      (ps = [] ∨ (p.nullable null = false ∧ someNullable null ps = false ∧
        ∀ x, ¬ (p.begins eqv null begin' x = true ∧ someBegins eqv null begin' x ps = true)))
def sequenceCut : List (Parser α) → AtCut β
  | [] => .trivial
  | p :: ps => p.atCut.andThen (sequenceCut ps) (allNullable null ps)
      (fun x => sequenceBegins eqv null begin' x ps) (allCertain ps)
end
end

/-- The tables are right about the custom parsers: they say no more than follows for the `get_parser()`. -/
structure CutTable (C : Ctx α β) (null : Nat → Bool) (begin' : Nat → β → Bool) (cuts : Nat → AtCut β) : Prop
    extends BeginTable C null begin' where
  steady : ∀ k, (cuts k).steady → ((C.custom k).body.atCut C.eqv null begin' cuts).steady
  hopeless : ∀ k, (cuts k).hopeless → ((C.custom k).body.atCut C.eqv null begin' cuts).hopeless
  ready : ∀ k, (cuts k).ready → ((C.custom k).body.atCut C.eqv null begin' cuts).ready
  short : ∀ k x, ((C.custom k).body.atCut C.eqv null begin' cuts).short x → (cuts k).short x

end Tok3n
