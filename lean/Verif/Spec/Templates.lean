import Verif.Model.Templates
import Verif.Spec.Names
/-
How a class template uses its arguments.
-/

namespace Tok3n

variable {α : Type}

mutual
/-- The expression with `σ i` for custom parser `i`. -/
def Parser.withArgs (σ : Nat → Parser α) : Parser α → Parser α
  | .anyOf a => .anyOf a
  | .noneOf a => .noneOf a
  | .allOf a => .allOf a
  | .anything => .anything
  | .epsilon => .epsilon
  | .choice ps => .choice (Parser.withArgsAll σ ps)
  | .sequence ps => .sequence (Parser.withArgsAll σ ps)
  | .maybe p => .maybe (p.withArgs σ)
  | .exactly p k => .exactly (p.withArgs σ) k
  | .oneOrMore p => .oneOrMore (p.withArgs σ)
  | .zeroOrMore p => .zeroOrMore (p.withArgs σ)
  | .delimit p d => .delimit (p.withArgs σ) (d.withArgs σ)
  | .ignore p => .ignore (p.withArgs σ)
  | .complete p => .complete (p.withArgs σ)
  | .join p => .join (p.withArgs σ)
  | .map p f => .map (p.withArgs σ) f
  | .filter p f => .filter (p.withArgs σ) f
  | .named p n => .named (p.withArgs σ) n
  | .custom k => σ k
def Parser.withArgsAll (σ : Nat → Parser α) : List (Parser α) → List (Parser α)
  | [] => []
  | p :: ps => p.withArgs σ :: Parser.withArgsAll σ ps
end

/-- `get_parser()` of a template written with `.custom 0`, `.custom 1`, … for its parameters; what is not a parameter
stays. -/
def Parser.instantiate (shape : Parser α) (args : List (Parser α)) : Parser α :=
  shape.withArgs fun i => args.getD i (.custom i)

end Tok3n
