import Verif.Model.Denote
/-
Vocabulary for C62: parsers that cannot be told apart, and a place inside a parser.
-/

namespace Tok3n

variable {α β : Type}

/-- On every readable input `p` and `q` look ahead in the same way. -/
def SameLookahead (C : Ctx α β) (p q : Parser α) : Prop :=
  ∀ s : Span, s.Valid C.mem → Look C p s = Look C q s

/-- `p` and `q` cannot be told apart: their values have the same type, and on every readable input parsing and
looking ahead have the same outcome: success, failure, exception or running forever, value, remaining input, and
callbacks with their arguments. -/
structure Interchangeable (C : Ctx α β) (p q : Parser α) : Prop where
  type : resultFor C p = resultFor C q
  parse : ∀ s : Span, s.Valid C.mem → Parse C p s = Parse C q s
  look : SameLookahead C p q

/-- The place of one part inside a parser. -/
inductive Frame (α : Type) where
  | choice (before after : List (Parser α))
  | sequence (before after : List (Parser α))
  | maybe
  | exactly (n : Nat)
  | oneOrMore
  | zeroOrMore
  | element (d : Parser α)
  | delimiter (p : Parser α)
  | ignore
  | complete
  | join
  | map (f : Fn)
  | filter (f : Fn)
  | named (n : Name)

/-- The parser with `p` at that place. -/
def Frame.fill : Frame α → Parser α → Parser α
  | .choice before after, p => .choice (before ++ p :: after)
  | .sequence before after, p => .sequence (before ++ p :: after)
  | .maybe, p => .maybe p
  | .exactly n, p => .exactly p n
  | .oneOrMore, p => .oneOrMore p
  | .zeroOrMore, p => .zeroOrMore p
  | .element d, p => .delimit p d
  | .delimiter q, p => .delimit q p
  | .ignore, p => .ignore p
  | .complete, p => .complete p
  | .join, p => .join p
  | .map f, p => .map p f
  | .filter f, p => .filter p f
  | .named n, p => .named p n

/-- A place at any depth: the frames around it, the outermost first. -/
def plug : List (Frame α) → Parser α → Parser α
  | [], p => p
  | f :: fs, p => f.fill (plug fs p)

end Tok3n
