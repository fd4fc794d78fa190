import Verif.Model.TypeLevel
/-
Models `detail/operators/{choice,sequence,epsilon,maybe,one_or_more,zero_or_more,not}.h`:
the functions from parser types to parser types behind `|`, `>>`, `eps`, `~`, `+`, `*`, `!`.

Overload resolution is spelled out: overloads are tried from the most to the least
specialised.  Simplification: all parsers share one `value_type`, so
`parser_compatible_with` and `like_static_arrays` always hold.
-/

namespace Tok3n

variable {α : Type}

section
variable [LinearOrder α]

/-- `impl::choice_operator` (operators/choice.h:15-102), i.e. `operator|`
(choice.h:106-110). -/
def choiceOp (a b : Parser α) : Parser α :=
  match a, b with
  | .anyOf l, .anyOf r =>
    if l = r then .anyOf l                               -- 15-19
    else .anyOf (setUnion l r)                           -- 39-44
  | .noneOf l, .noneOf r =>
    if l = r then .noneOf l                              -- 21-25
    else .noneOf (setIntersection l r)                   -- 46-51
  | .anyOf l, .noneOf r =>
    if l = r then .noneOf []                             -- 27-31
    else .noneOf (setDifferenceRight l r)                -- 53-58
  | .noneOf l, .anyOf r =>
    if l = r then .noneOf []                             -- 33-37
    else .noneOf (setDifferenceLeft l r)                 -- 60-65
  | .choice ps, .choice qs =>
    if ps = qs then .choice ps                           -- 74-78
    else .choice (ps ++ qs)                              -- 67-72
  | .choice ps, q => .choice (ps ++ [q])                 -- 80-84
  | p, .choice qs => .choice (p :: qs)                   -- 86-90
  | p, q =>
    if p = q then p                                      -- 98-102
    else .choice [p, q]                                  -- 92-96

/-- `P | eps` (operators/epsilon.h:17-21).  `eps | P` is deleted (epsilon.h:23-24). -/
def orEps (p : Parser α) : Parser α := choiceOp p .epsilon

end

/-- `impl::sequence_operator` (operators/sequence.h:13-43), i.e. `operator>>`
(sequence.h:47-51). -/
def sequenceOp (a b : Parser α) : Parser α :=
  match a, b with
  | .allOf l, .allOf r => .allOf (concat l r)            -- 13-18
  | .sequence ps, .sequence qs => .sequence (ps ++ qs)   -- 20-25
  | .sequence ps, q => .sequence (ps ++ [q])             -- 27-31
  | p, .sequence qs => .sequence (p :: qs)               -- 33-37
  | p, q => .sequence [p, q]                             -- 39-43

/-- `impl::maybe_operator` (operators/maybe.h:14-36), i.e. `operator~` (maybe.h:40-44). -/
def maybeOp : Parser α → Parser α
  | .maybe p => .maybe p
  | .oneOrMore p => .zeroOrMore p
  | .zeroOrMore p => .zeroOrMore p
  | p => .maybe p

/-- `impl::one_or_more_operator` (operators/one_or_more.h:14-36), i.e. unary `operator+`
(one_or_more.h:40-44). -/
def oneOrMoreOp : Parser α → Parser α
  | .maybe p => .zeroOrMore p
  | .oneOrMore p => .oneOrMore p
  | .zeroOrMore p => .zeroOrMore p
  | p => .oneOrMore p

/-- `impl::zero_or_more_operator` (operators/zero_or_more.h:14-36), i.e. unary
`operator*` (zero_or_more.h:40-44). -/
def zeroOrMoreOp : Parser α → Parser α
  | .maybe p => .zeroOrMore p
  | .oneOrMore p => .zeroOrMore p
  | .zeroOrMore p => .zeroOrMore p
  | p => .zeroOrMore p

/-- `operator!` (operators/not.h:13-37); `none`: does not compile. -/
def notOp : Parser α → Option (Parser α)
  | .anyOf arr => some (.noneOf arr)
  | .noneOf arr => some (.anyOf arr)
  | _ => none

end Tok3n
