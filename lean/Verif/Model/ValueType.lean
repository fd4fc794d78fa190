import Verif.Model.Syntax
/-
The element type (`value_type`) of every parser, and the constraints on it.

`Parser α` (Model/Syntax.lean) has one element type for a whole expression.  Here every
parser class that names an element type has its own, from an arbitrary set `E` of C++ types with decidable
equality (`std::same_as`); `α e` are the values of type `e`.
-/

namespace Tok3n

/-- The parsers without operands, with elements `A`: any_of.h:11-16, none_of.h:11-16,
all_of.h:11-15, anything.h:10-14, epsilon.h:11-12. -/
inductive Leaf (A : Type) where
  | anyOf (arr : List A)
  | noneOf (arr : List A)
  | allOf (arr : List A)
  | anything
  | epsilon

/-- The class templates with one operand: maybe.h:13-14, exactly.h:13-15, one_or_more.h:13-14,
zero_or_more.h:13-14, ignore.h:11-12, complete.h:11-12, join.h:120-121, map.h:13-14, filter.h:14-15,
named.h:11-12. -/
inductive Wrapper where
  | maybe
  | exactly (n : Nat)
  | oneOrMore
  | zeroOrMore
  | ignore
  | complete
  | join
  | map (f : Fn)
  | filter (f : Fn)
  | named (name : Name)

/-- Parser types whose parts may have different element types: the class templates of
Model/Syntax.lean before their constraints are checked. -/
inductive Mixed (E : Type) (α : E → Type) where
  | leaf (e : E) (l : Leaf (α e))
  | choice (ps : List (Mixed E α))
  | sequence (ps : List (Mixed E α))
  | wrap (w : Wrapper) (p : Mixed E α)
  | delimit (p d : Mixed E α)
  | custom (k : Nat)

/-- The custom parsers of a program: the second argument of `custom_parser<CRTP, ValueType>`
(custom.h:30-33) and `get_parser()`. -/
structure Customs (E : Type) (α : E → Type) where
  declared : Nat → E
  body : Nat → Mixed E α

variable {E : Type} {α : E → Type} [DecidableEq E]

/-- `P::value_type`: any_of.h:24, none_of.h:24, all_of.h:22, anything.h:21, epsilon.h:14 and
custom.h:33 name one, the others have that of their (first) operand: choice.h:17, sequence.h:17,
maybe.h:16, exactly.h:17, one_or_more.h:16, zero_or_more.h:16, delimit.h:17, ignore.h:14,
complete.h:14, join.h:123, map.h:16, filter.h:17, named.h:14.  An empty pack has none; choice.h:14 and
sequence.h:14 do not allow it. -/
def Mixed.valueType (T : Customs E α) : Mixed E α → Option E
  | .leaf e _ => some e
  | .choice (p :: _) => p.valueType T
  | .choice [] => none
  | .sequence (p :: _) => p.valueType T
  | .sequence [] => none
  | .wrap _ p => p.valueType T
  | .delimit p _ => p.valueType T
  | .custom k => some (T.declared k)

/-- `parser_compatible_with<P1, P2>` (parser.h:89-93) for types that are parsers -/
def Mixed.compatible (T : Customs E α) (p q : Mixed E α) : Bool :=
  (p.valueType T).isSome && p.valueType T == q.valueType T

/-- `template <parser P, parser_compatible_with<P>... Ps>` (choice.h:14, sequence.h:14) -/
def Mixed.packOK (T : Customs E α) : List (Mixed E α) → Bool
  | [] => false
  | p :: ps => ps.all fun q => q.compatible T p

mutual
/-- The constraints of all the class templates in a parser type hold, as far as they are on
element types: choice.h:14, sequence.h:14, delimit.h:14; the others only ask for a `parser`. -/
def Mixed.instantiable (T : Customs E α) : Mixed E α → Bool
  | .leaf _ _ => true
  | .choice ps => Mixed.instantiables T ps && Mixed.packOK T ps
  | .sequence ps => Mixed.instantiables T ps && Mixed.packOK T ps
  | .wrap _ p => p.instantiable T
  | .delimit p d => p.instantiable T && d.instantiable T && d.compatible T p
  | .custom _ => true
/-- all parsers of a pack can be instantiated (`parser... Ps`, helpers.h:115) -/
def Mixed.instantiables (T : Customs E α) : List (Mixed E α) → Bool
  | [] => true
  | p :: ps => p.instantiable T && Mixed.instantiables T ps
end

/-- What a custom parser's `parse` and `lookahead` assert: `get_parser()` returns a parser with the
declared element type (custom.h:44-45, 52-53). -/
def Customs.asserted (T : Customs E α) (k : Nat) : Bool :=
  (T.body k).instantiable T && (T.body k).valueType T == some (T.declared k)

/-- The operands `operator|` (operators/choice.h:101-105), `operator>>` (operators/sequence.h),
`delimit(p, d)` and `delimit(d)(p)` (modifiers/delimit.h:16-32, delimit_keep.h) take. -/
def Mixed.combinable (T : Customs E α) (p q : Mixed E α) : Bool :=
  p.instantiable T && q.instantiable T && q.compatible T p

end Tok3n
