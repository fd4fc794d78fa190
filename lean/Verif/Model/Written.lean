import Verif.Model.Denote
/-
Hand-written parser classes: classes with their own `parse` and `lookahead` that satisfy the concept
`parser_for` (/repo/include/k3/tok3n/detail/parser.h:67-90) without deriving from `custom_parser`.

The library does nothing with such a class but call its two functions and ask for its `result_for`: the
only place where a parser's `family` matters besides its own class is the modifiers `join`, `complete` and
the like, which ask for their own family (e.g. modifiers/join.h:18).  So a hand-written class is a number
`k` in the table of custom parsers whose two functions are not those of custom.h but arbitrary.

The table of custom parsers says which type `k` announces (`(C.custom k).ty`).  It has to name a body too;
of a hand-written class the body is the class itself (`(C.custom k).body = .custom k`): the library sees
nothing inside it.
-/

namespace Tok3n

variable {α β : Type}

/-- Which custom parsers are hand-written (any class that meets the concept `parser`, parser.h:68-89), and what their
`parse` and `lookahead` do.  They may call whatever
they like, also parsers of the library and even the grammar they are part of: `Sub` is what comes out. -/
abbrev Written := Nat → Option Sub

namespace Written

variable (C : Ctx α β) (W : Written)

/-- `P::parse` and `P::lookahead`, given those of the parsers `P` is made of: a hand-written class
(parser.h:80-89) does what it does, all others are as in the library (`step`, Model/Parse.lean). -/
def step (rec : Parser α → Sub) (fuel : Nat) : Parser α → Sub
  | .custom k => (W k).getD (Tok3n.step C rec fuel (.custom k))
  | p => Tok3n.step C rec fuel p

/-- `parse` and `lookahead` with a bound on the number of nested calls (as `sem`, Model/Parse.lean). -/
def sem : Nat → Parser α → Sub
  | 0, _ => ⟨fun _ => .diverge, fun _ => .diverge⟩
  | n + 1, p => step C W (sem n) n p

/-- `P::parse(input)` in a program with hand-written classes (parser.h:85). -/
noncomputable def Parse (p : Parser α) (s : Span) : Run R := lim fun n => (sem C W n p).parse s

/-- `P::lookahead(input)` in a program with hand-written classes (parser.h:86). -/
noncomputable def Look (p : Parser α) (s : Span) : Run R := lim fun n => (sem C W n p).look s

end Written

end Tok3n
