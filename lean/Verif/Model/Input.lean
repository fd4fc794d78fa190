import Verif.Model.Denote
/-
How the argument of `parse()`/`lookahead()` becomes a span.

Models the constructors of `span` (span.h:13-107), the deduction guides of `input_span`
(span.h:191-194) and `input_value` (span.h:196-223), as used by
`input_span input{ std::forward<R>(r) };` at the start of every parser
(e.g. basic_base.h:32).
-/

namespace Tok3n

variable {α β : Type}

/-- The kinds of argument that `parse` accepts (`input_constructible_for`,
span.h:225-226), for an element type `V`. -/
inductive Arg where
  /-- `const V*`, `V` a character type -/
  | charPtr (p : Ptr)
  /-- an lvalue of type `const V[N]`, `V` a character type, e.g. a string literal:
  array object number `block` -/
  | constCharArray (block : Nat)
  /-- an lvalue of type `V[N]` (not const), `V` a character type -/
  | mutCharArray (block : Nat)
  /-- an lvalue of type `V[N]` or `const V[N]`, `V` not a character type -/
  | otherArray (block : Nat)
  /-- any other contiguous range (`std::string`, `std::string_view`, `std::vector`,
  `std::span`, a `span` of this library, ...) with this `data()` and `size()` -/
  | range (data : Ptr) (size : Nat)
  deriving DecidableEq, Repr

/-- `std::char_traits<V>::length`, called by the constructor of `std::basic_string_view<T>` (span.h:81): walk to the
first NUL; running off the end of the
array is undefined. -/
def strlen {L : Type} (isNul : β → Bool) : List β → Nat → M L Nat
  | [], _ => M.fail .ub
  | x :: xs, i => if isNul x then M.pure i else strlen isNul xs (i + 1)

/-- `span(const T* data) : _value(std::basic_string_view<T>(data))` (span.h:80-82); a
null pointer is undefined. -/
def spanOfCharPtr {L : Type} (isNul : β → Bool) (mem : Mem β) (p : Ptr) : M L Span :=
  match p with
  | .null => M.fail .ub
  | .at b o =>
    if o ≤ (mem b).length then do
      let n ← strlen isNul ((mem b).drop o) 0
      M.pure ⟨p, n⟩
    else M.fail .ub

/-- The constructor chosen for each kind of argument.
* `const V*`: span.h:80-82.
* `const V[N]`: `const T*` (span.h:80, a non-template, array-to-pointer conversion has
  rank Exact Match) is preferred over the templates `R&&` (64-68), `Args&&...` (70-74)
  and `const T(&)[N]` (84-87).
* `V[N]` not const: binding `const T*` or `const T(&)[N]` needs a qualification
  conversion, so `R&&` (64-68) wins: all `N` elements.
* element types that are not characters: `R&&` (25-29): all `N` elements.
* other ranges: `R&&`: `{data(), size()}`. -/
def spanOfArg {L : Type} (isNul : β → Bool) (mem : Mem β) : Arg → M L Span
  | .charPtr p => spanOfCharPtr isNul mem p
  | .constCharArray b => spanOfCharPtr isNul mem (.at b 0)
  | .mutCharArray b => M.pure ⟨.at b 0, (mem b).length⟩
  | .otherArray b => M.pure ⟨.at b 0, (mem b).length⟩
  | .range data size => M.pure ⟨data, size⟩

/-- `p.parse(arg)`: every `parse` begins with `input_span input{ std::forward<R>(r) };` (e.g. exactly.h:28-31). -/
noncomputable def parseArg (isNul : β → Bool) (C : Ctx α β) (p : Parser α) (arg : Arg) : Run R := do
  let s ← spanOfArg isNul C.mem arg
  Parse C p s

/-- `p.lookahead(arg)`: so does every `lookahead` (e.g. exactly.h:50-53). -/
noncomputable def lookArg (isNul : β → Bool) (C : Ctx α β) (p : Parser α) (arg : Arg) : Run R := do
  let s ← spanOfArg isNul C.mem arg
  Look C p s

end Tok3n
