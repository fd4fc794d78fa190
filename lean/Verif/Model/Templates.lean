import Verif.Model.Modifiers
/-
Substitution in parser classes that a user's class template makes: `template <class P> struct list_of :
custom_parser<list_of<P>> { ... }`.  The custom parsers of the model are numbered; here some of these numbers are
specialisations of templates.
-/

namespace Tok3n

variable {α : Type}

/-- Which classes are specialisations of a user's class template, `list<Ts...>` in sub.h:30-40: `some (t, args)` for
`t<args...>`.  Different
specialisations are different classes.  A type argument that is not a parser is, in the model, a class as well; one that is
not a specialisation, unless it is (`std::vector<P>`), since `substitute_one` makes no difference between them. -/
structure Templates (α : Type) where
  of : Nat → Option (Nat × List (Parser α))
  inj : ∀ k k' t args, of k = some (t, args) → of k' = some (t, args) → k = k'

mutual
/-- `substitute_one<T, Sub>::type` is `q` (sub.h:16-40), with users' class templates; `n` is `Sub::name`, `mod` the call
operator of `Sub::mod`.  Without them it is `substituteOne` (Model/Modifiers.lean), where the cases are explained. -/
inductive SubstOne (T : Templates α) (n : Name) (mod : Parser α → Option (Term α)) : Parser α → Parser α → Prop where
  | here {p p' q} : SubstOne T n mod p p' → mod p' = some (.parser q) → SubstOne T n mod (.named p n) q   -- 22-27
  | other {p p' m} : n.char = m.char → n ≠ m → SubstOne T n mod p p' →
      SubstOne T n mod (.named p m) (.named p' m)                                                            -- 29-34
  | otherChar {p m} : n.char ≠ m.char → SubstOne T n mod (.named p m) (.named p m)                           -- 16-20
  | anyOf {a} : SubstOne T n mod (.anyOf a) (.anyOf a)                                                       -- 16-20
  | noneOf {a} : SubstOne T n mod (.noneOf a) (.noneOf a)
  | allOf {a} : SubstOne T n mod (.allOf a) (.allOf a)
  | anything : SubstOne T n mod .anything .anything                                                          -- 36-40
  | epsilon : SubstOne T n mod .epsilon .epsilon
  | choice {ps qs} : SubstMany T n mod ps qs → SubstOne T n mod (.choice ps) (.choice qs)
  | sequence {ps qs} : SubstMany T n mod ps qs → SubstOne T n mod (.sequence ps) (.sequence qs)
  | maybe {p q} : SubstOne T n mod p q → SubstOne T n mod (.maybe p) (.maybe q)
  | exactly {p q k} : SubstOne T n mod p q → SubstOne T n mod (.exactly p k) (.exactly q k)
  | oneOrMore {p q} : SubstOne T n mod p q → SubstOne T n mod (.oneOrMore p) (.oneOrMore q)
  | zeroOrMore {p q} : SubstOne T n mod p q → SubstOne T n mod (.zeroOrMore p) (.zeroOrMore q)
  | delimit {p q d e} : SubstOne T n mod p q → SubstOne T n mod d e → SubstOne T n mod (.delimit p d) (.delimit q e)
  | ignore {p q} : SubstOne T n mod p q → SubstOne T n mod (.ignore p) (.ignore q)
  | complete {p q} : SubstOne T n mod p q → SubstOne T n mod (.complete p) (.complete q)
  | join {p q} : SubstOne T n mod p q → SubstOne T n mod (.join p) (.join q)
  | map {p q f} : SubstOne T n mod p q → SubstOne T n mod (.map p f) (.map q f)
  | filter {p q f} : SubstOne T n mod p q → SubstOne T n mod (.filter p f) (.filter q f)
  /-- a class that is no specialisation -/
  | custom {k} : T.of k = none → SubstOne T n mod (.custom k) (.custom k)                                    -- 16-20
  /-- `Template<Args...>` becomes `Template<typename substitute_one<Args, Sub>::type...>` -/
  | template {k k' t args args'} : T.of k = some (t, args) → SubstMany T n mod args args' →
      T.of k' = some (t, args') → SubstOne T n mod (.custom k) (.custom k')                                  -- 36-40
/-- `typename substitute_one<Args, Sub>::type...` (sub.h:39) -/
inductive SubstMany (T : Templates α) (n : Name) (mod : Parser α → Option (Term α)) :
    List (Parser α) → List (Parser α) → Prop where
  | nil : SubstMany T n mod [] []
  | cons {p q ps qs} : SubstOne T n mod p q → SubstMany T n mod ps qs → SubstMany T n mod (p :: ps) (q :: qs)
end

end Tok3n
