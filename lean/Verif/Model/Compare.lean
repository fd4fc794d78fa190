import Verif.Model.Input
/-
Comparing a span with something that is no span.

Models the second `operator()` of `span_equal_to` (span.h:140-157) and the `operator==` that calls it (span.h:166-171).
-/

namespace Tok3n

variable {β L : Type}

/-- `span == rhs` (span.h:166-171, 140-157).  A pointer and an array, constant or not, of characters become a
`std::basic_string_view<T>` by the constructor from `const T*` (span.h:144-147), any other range of `T` becomes a
`span<T>` (span.h:148-151).  The conversion to `std::basic_string_view<T>` that is applied to the left side exists for
character types only (span.h:89-92), so comparing with an array of anything else does not compile.
Simplification: `==` of two `std::basic_string_view`s is the comparison of spans (same size, pairwise equal). -/
def Span.equalArg (isNul : β → Bool) (mem : Mem β) (eqv : β → β → Bool) (lhs : Span) : Arg → M L Bool
  | .charPtr p => do
    let r ← spanOfCharPtr isNul mem p
    Span.equal mem mem eqv lhs r
  | .constCharArray b => do
    let r ← spanOfCharPtr isNul mem (.at b 0)
    Span.equal mem mem eqv lhs r
  | .mutCharArray b => do
    let r ← spanOfCharPtr isNul mem (.at b 0)
    Span.equal mem mem eqv lhs r
  | .otherArray _ => M.fail .ill
  | .range data size => Span.equal mem mem eqv lhs ⟨data, size⟩

end Tok3n
