import Verif.Model.ValueType
import Verif.Spec.Compile
/-
Which element types a parser expression uses: the vocabulary of C68.
-/

namespace Tok3n

variable {E : Type} {α : E → Type}

/-- `q` is an operand of `p`, or what `p`'s `get_parser()` returns. -/
inductive Mixed.Part (T : Customs E α) : Mixed E α → Mixed E α → Prop where
  | choice {ps q} : q ∈ ps → Part T (.choice ps) q
  | sequence {ps q} : q ∈ ps → Part T (.sequence ps) q
  | wrap {w p} : Part T (.wrap w p) p
  | element {p d} : Part T (.delimit p d) p
  | delimiter {p d} : Part T (.delimit p d) d
  | custom {k} : Part T (.custom k) (T.body k)

/-- `q` is `p`, or somewhere inside it, inside of custom parsers included. -/
abbrev Mixed.Uses (T : Customs E α) (p q : Mixed E α) : Prop := Relation.ReflTransGen (Mixed.Part T) p q

/-- The element type a parser class is given: that of the literal's elements, `ValueType` of `anything`,
`epsilon` and `custom_parser`. -/
inductive Mixed.Names (T : Customs E α) : Mixed E α → E → Prop where
  | leaf {e l} : Names T (.leaf e l) e
  | custom {k} : Names T (.custom k) (T.declared k)

/-- no choice and no sequence of nothing -/
def Mixed.NonEmpty : Mixed E α → Prop
  | .choice ps | .sequence ps => ps ≠ []
  | _ => True

/-- The program compiles, as far as element types go: all constraints in the parser hold, and the
assertions of all custom parsers it uses, with the constraints in them. -/
structure Mixed.Accepted [DecidableEq E] (T : Customs E α) (p : Mixed E α) : Prop where
  instantiable : p.instantiable T = true
  asserted : ∀ k, p.Uses T (.custom k) → T.asserted k = true

mutual
/-- A parser of the main model, whose literals all have elements of type `e`. -/
def Parser.withType (e : E) : Parser (α e) → Mixed E α
  | .anyOf a => .leaf e (.anyOf a)
  | .noneOf a => .leaf e (.noneOf a)
  | .allOf a => .leaf e (.allOf a)
  | .anything => .leaf e .anything
  | .epsilon => .leaf e .epsilon
  | .choice ps => .choice (Parser.withTypes e ps)
  | .sequence ps => .sequence (Parser.withTypes e ps)
  | .maybe p => .wrap .maybe (p.withType e)
  | .exactly p n => .wrap (.exactly n) (p.withType e)
  | .oneOrMore p => .wrap .oneOrMore (p.withType e)
  | .zeroOrMore p => .wrap .zeroOrMore (p.withType e)
  | .delimit p d => .delimit (p.withType e) (d.withType e)
  | .ignore p => .wrap .ignore (p.withType e)
  | .complete p => .wrap .complete (p.withType e)
  | .join p => .wrap .join (p.withType e)
  | .map p f => .wrap (.map f) (p.withType e)
  | .filter p f => .wrap (.filter f) (p.withType e)
  | .named p n => .wrap (.named n) (p.withType e)
  | .custom k => .custom k
def Parser.withTypes (e : E) : List (Parser (α e)) → List (Mixed E α)
  | [] => []
  | p :: ps => p.withType e :: Parser.withTypes e ps
end

/-- No pack in a parser of the main model is empty, and all custom parsers in it are declared with the
element type `e`. -/
structure Parser.FitsType (T : Customs E α) (e : E) (q : Parser (α e)) : Prop where
  packs : ∀ ps, q.Contains (.choice ps) ∨ q.Contains (.sequence ps) → ps ≠ []
  customs : ∀ k, q.Contains (.custom k) → T.declared k = e

end Tok3n
