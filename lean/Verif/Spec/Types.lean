import Verif.Spec.Compile
/-
The type of the value of a parser, as the documentation gives it.
-/

namespace Tok3n

variable {α β : Type}

/-- Nothing if there is no value to hold, otherwise `u`. -/
def unlessVoid : Ty → Ty → Ty
  | .void, _ => .void
  | _, u => u

/-- Elements and delimiters: a pair of vectors, or the vector of those that have a value. -/
def delimitedType : Ty → Ty → Ty
  | .void, .void => .void
  | t, .void => .vec t
  | .void, u => .vec u
  | t, u => .pair (.vec t) (.vec u)

mutual
/-- The parser's value is a `t`.  No `t` is one if a callback in it can't be called with what it
is given, or a filter's answer isn't a `bool`. -/
inductive ResultType (C : Ctx α β) : Parser α → Ty → Prop where
  | anyOf {arr} : ResultType C (.anyOf arr) .span
  | noneOf {arr} : ResultType C (.noneOf arr) .span
  | allOf {arr} : ResultType C (.allOf arr) .span
  | anything : ResultType C .anything .span
  | epsilon : ResultType C .epsilon .void
  | choice {ps ts} : ResultTypes C ps ts → ResultType C (.choice ps) (choiceType ts)
  | sequence {ps ts} : ResultTypes C ps ts → ResultType C (.sequence ps) (sequenceType ts)
  | maybe {p t} : ResultType C p t → ResultType C (.maybe p) (unlessVoid t (.opt t))
  | exactly {p n t} : ResultType C p t → ResultType C (.exactly p n) (unlessVoid t (.arr t n))
  | oneOrMore {p t} : ResultType C p t → ResultType C (.oneOrMore p) (unlessVoid t (.vec t))
  | zeroOrMore {p t} : ResultType C p t → ResultType C (.zeroOrMore p) (unlessVoid t (.vec t))
  | delimit {p d t u} : ResultType C p t → ResultType C d u → ResultType C (.delimit p d) (delimitedType t u)
  | ignore {p} : ResultType C (.ignore p) .void
  | complete {p t} : ResultType C p t → ResultType C (.complete p) t
  | join {p} : ResultType C (.join p) .span
  | map {p f u ts t} : ResultType C p u → Given u ts → Returns C f ts t → ResultType C (.map p f) t
  | filter {p f u ts t} : ResultType C p u → Given u ts → Returns C f ts t → C.boolTy t = true →
      ResultType C (.filter p f) u
  | named {p n t} : ResultType C p t → ResultType C (.named p n) t
  | custom {k} : ResultType C (.custom k) (C.custom k).ty
/-- The types of the parts, in order. -/
inductive ResultTypes (C : Ctx α β) : List (Parser α) → List Ty → Prop where
  | nil : ResultTypes C [] []
  | cons {p ps t ts} : ResultType C p t → ResultTypes C ps ts → ResultTypes C (p :: ps) (t :: ts)
end

end Tok3n
