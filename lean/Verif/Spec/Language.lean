import Verif.Spec.Order
import Verif.Spec.Peg
/-
A parser expression read as a context-free grammar: the words it describes, with alternatives in no particular order and
repetitions that may stop anywhere.  And a condition, to be checked of a grammar, under which `parse` reads it like that.
-/

namespace Tok3n

variable {α β : Type}

/-- `Word eqv body p w`: the word `w` is in the language of `p`, where `body k` is what custom parser `k` stands for. -/
inductive Word (eqv : α → β → Bool) (body : Nat → Parser α) : Parser α → List β → Prop where
  /-- literals and character classes -/
  | basic {p w} : IsBasic p → Matches eqv p w w.length → Word eqv body p w
  | epsilon : Word eqv body .epsilon []
  /-- any alternative -/
  | choice {p ps w} : p ∈ ps → Word eqv body p w → Word eqv body (.choice ps) w
  | sequenceNil : Word eqv body (.sequence []) []
  | sequenceMore {p ps u v} : Word eqv body p u → Word eqv body (.sequence ps) v →
      Word eqv body (.sequence (p :: ps)) (u ++ v)
  | maybeNot {p} : Word eqv body (.maybe p) []
  | maybe {p w} : Word eqv body p w → Word eqv body (.maybe p) w
  | exactlyNil {p} : Word eqv body (.exactly p 0) []
  | exactlyMore {p n u v} : Word eqv body p u → Word eqv body (.exactly p n) v → Word eqv body (.exactly p (n + 1)) (u ++ v)
  /-- any number of words -/
  | zeroNil {p} : Word eqv body (.zeroOrMore p) []
  | zeroMore {p u v} : Word eqv body p u → Word eqv body (.zeroOrMore p) v → Word eqv body (.zeroOrMore p) (u ++ v)
  | oneOrMore {p u v} : Word eqv body p u → Word eqv body (.zeroOrMore p) v → Word eqv body (.oneOrMore p) (u ++ v)
  /-- `p (d p)*` -/
  | delimit {p d u v} : Word eqv body p u → Word eqv body (.zeroOrMore (.sequence [d, p])) v →
      Word eqv body (.delimit p d) (u ++ v)
  /-- these make no difference -/
  | complete {p w} : Word eqv body p w → Word eqv body (.complete p) w
  | ignore {p w} : Word eqv body p w → Word eqv body (.ignore p) w
  | join {p w} : Word eqv body p w → Word eqv body (.join p) w
  | map {p f w} : Word eqv body p w → Word eqv body (.map p f) w
  | filter {p f w} : Word eqv body p w → Word eqv body (.filter p f) w
  | named {p n w} : Word eqv body p w → Word eqv body (.named p n) w
  | custom {k w} : Word eqv body (body k) w → Word eqv body (.custom k) w

/-- The text is at its end, or goes on with an element of `F`. -/
def GoesOn (F : β → Prop) (xs : List β) : Prop := ∀ x ∈ xs.head?, F x

/-- What can come behind a part, if the parts `ps` come behind it and `F` behind these. -/
def behind (C : Ctx α β) (null : Nat → Bool) (begin' : Nat → β → Bool) (ps : List (Parser α)) (F : β → Prop) (x : β) :
    Prop :=
  sequenceBegins C.eqv null begin' x ps = true ∨ (allNullable null ps = true ∧ F x)

/-- `p` does not match where `F` comes. -/
def Refuses (C : Ctx α β) (p : Parser α) (F : β → Prop) : Prop :=
  ∀ xs, GoesOn F xs → Peg C.eqv (fun k => (C.custom k).body) p xs none

/-- `p` does not match where a word of `q` comes, and `F` behind it. -/
def Leaves (C : Ctx α β) (F : β → Prop) (p q : Parser α) : Prop :=
  ∀ w xs, Word C.eqv (fun k => (C.custom k).body) q w → GoesOn F xs →
    Peg C.eqv (fun k => (C.custom k).body) p (w ++ xs) none

mutual
/-- Wherever `F` comes behind the parser, there is no choice to make: an alternative does not match where a later one is
meant, and what may be repeated or left out does not match where something else is meant.  `follow k` is what may come
behind custom parser `k`; `null`, `begin'` are as for C69. -/
def Clear (C : Ctx α β) (null : Nat → Bool) (begin' : Nat → β → Bool) (follow : Nat → β → Prop) :
    Parser α → (β → Prop) → Prop
  | .anyOf _, _ | .noneOf _, _ | .allOf _, _ | .anything, _ | .epsilon, _ => True
  | .choice ps, F => clearAll C null begin' follow ps F ∧ ps.Pairwise (Leaves C F)
  | .sequence ps, F => clearParts C null begin' follow ps F
  | .maybe p, F => Clear C null begin' follow p F ∧ Refuses C p F
  | .exactly p _, F => Clear C null begin' follow p fun x => p.begins C.eqv null begin' x = true ∨ F x
  | .zeroOrMore p, F | .oneOrMore p, F =>
    (Clear C null begin' follow p fun x => p.begins C.eqv null begin' x = true ∨ F x) ∧ Refuses C p F
  | .delimit p d, F =>
    (Clear C null begin' follow p fun x => sequenceBegins C.eqv null begin' x [d, p] = true ∨ F x) ∧
    (Clear C null begin' follow d (behind C null begin' [p] fun x => sequenceBegins C.eqv null begin' x [d, p] = true ∨ F x)) ∧
    Refuses C (.sequence [d, p]) F
  | .complete p, F => Clear C null begin' follow p F ∧ ∀ x, ¬ F x
  | .ignore p, F | .join p, F | .map p _, F | .filter p _, F | .named p _, F => Clear C null begin' follow p F
  | .custom k, F => ∀ x, F x → follow k x
def clearAll (C : Ctx α β) (null : Nat → Bool) (begin' : Nat → β → Bool) (follow : Nat → β → Prop) :
    List (Parser α) → (β → Prop) → Prop
  | [], _ => True
  | p :: ps, F => Clear C null begin' follow p F ∧ clearAll C null begin' follow ps F
def clearParts (C : Ctx α β) (null : Nat → Bool) (begin' : Nat → β → Bool) (follow : Nat → β → Prop) :
    List (Parser α) → (β → Prop) → Prop
  | [], _ => True
  | p :: ps, F => Clear C null begin' follow p (behind C null begin' ps F) ∧ clearParts C null begin' follow ps F
end

/-- The tables are right about the custom parsers. -/
structure ClearTable (C : Ctx α β) (null : Nat → Bool) (begin' : Nat → β → Bool) (follow : Nat → β → Prop) : Prop
    extends BeginTable C null begin' where
  clear : ∀ k, Clear C null begin' follow (C.custom k).body (follow k)

end Tok3n
