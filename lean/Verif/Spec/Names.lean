import Verif.Model.Modifiers
/-
Names in a parser expression.
-/

namespace Tok3n

variable {α : Type}

mutual
/-- The names given in a parser expression, outer before inner, left to right. -/
def Parser.names : Parser α → List Name
  | .named p n => n :: p.names
  | .choice ps | .sequence ps => Parser.namesAll ps
  | .maybe p | .exactly p _ | .oneOrMore p | .zeroOrMore p | .ignore p | .complete p | .join p
  | .map p _ | .filter p _ => p.names
  | .delimit p d => p.names ++ d.names
  | .anyOf _ | .noneOf _ | .allOf _ | .anything | .epsilon | .custom _ => []
def Parser.namesAll : List (Parser α) → List Name
  | [] => []
  | p :: ps => p.names ++ Parser.namesAll ps
end

mutual
/-- The names that occur below a name of another character type than `c`. -/
def Parser.hidden (c : Nat) : Parser α → List Name
  | .named p m => if m.char = c then p.hidden c else p.names
  | .choice ps | .sequence ps => Parser.hiddenAll c ps
  | .maybe p | .exactly p _ | .oneOrMore p | .zeroOrMore p | .ignore p | .complete p | .join p
  | .map p _ | .filter p _ => p.hidden c
  | .delimit p d => p.hidden c ++ d.hidden c
  | .anyOf _ | .noneOf _ | .allOf _ | .anything | .epsilon | .custom _ => []
def Parser.hiddenAll (c : Nat) : List (Parser α) → List Name
  | [] => []
  | p :: ps => p.hidden c ++ Parser.hiddenAll c ps
end

mutual
/-- What README.md says of `sub(name<n> = m)`: `f`, what `m` does, is applied to each
sub-parser named `n`, inner ones first, instead of the name; all else stays. -/
def Parser.replaceNamed (n : Name) (f : Parser α → Parser α) : Parser α → Parser α
  | .named p m => if m = n then f (p.replaceNamed n f) else .named (p.replaceNamed n f) m
  | .choice ps => .choice (Parser.replaceNamedAll n f ps)
  | .sequence ps => .sequence (Parser.replaceNamedAll n f ps)
  | .maybe p => .maybe (p.replaceNamed n f)
  | .exactly p k => .exactly (p.replaceNamed n f) k
  | .oneOrMore p => .oneOrMore (p.replaceNamed n f)
  | .zeroOrMore p => .zeroOrMore (p.replaceNamed n f)
  | .ignore p => .ignore (p.replaceNamed n f)
  | .complete p => .complete (p.replaceNamed n f)
  | .join p => .join (p.replaceNamed n f)
  | .map p g => .map (p.replaceNamed n f) g
  | .filter p g => .filter (p.replaceNamed n f) g
  | .delimit p d => .delimit (p.replaceNamed n f) (d.replaceNamed n f)
  | .anyOf l => .anyOf l
  | .noneOf l => .noneOf l
  | .allOf l => .allOf l
  | .anything => .anything
  | .epsilon => .epsilon
  | .custom k => .custom k
def Parser.replaceNamedAll (n : Name) (f : Parser α → Parser α) : List (Parser α) → List (Parser α)
  | [] => []
  | p :: ps => p.replaceNamed n f :: Parser.replaceNamedAll n f ps
end

mutual
/-- The expression without its names. -/
def Parser.unnamed : Parser α → Parser α
  | .named p _ => p.unnamed
  | .choice ps => .choice (Parser.unnamedAll ps)
  | .sequence ps => .sequence (Parser.unnamedAll ps)
  | .maybe p => .maybe p.unnamed
  | .exactly p k => .exactly p.unnamed k
  | .oneOrMore p => .oneOrMore p.unnamed
  | .zeroOrMore p => .zeroOrMore p.unnamed
  | .ignore p => .ignore p.unnamed
  | .complete p => .complete p.unnamed
  | .join p => .join p.unnamed
  | .map p g => .map p.unnamed g
  | .filter p g => .filter p.unnamed g
  | .delimit p d => .delimit p.unnamed d.unnamed
  | .anyOf l => .anyOf l
  | .noneOf l => .noneOf l
  | .allOf l => .allOf l
  | .anything => .anything
  | .epsilon => .epsilon
  | .custom k => .custom k
def Parser.unnamedAll : List (Parser α) → List (Parser α)
  | [] => []
  | p :: ps => p.unnamed :: Parser.unnamedAll ps
end

end Tok3n
