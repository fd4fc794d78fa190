/-
Memory, spans, outcomes.

Models `include/k3/tok3n/detail/span.h` (the class `span` and its accessors) and
fixes the notion of outcome used by every function of the model.
-/

namespace Tok3n

/-- A C++ object pointer into an array, as `std::span::data()` returns (span.h:37, 94): null, or (array object, index).
`block` identifies the array the pointer points into, `off` may be one past the
end.  Simplification: a pointer always carries its provenance. -/
inductive Ptr where
  | null
  | at (block off : Nat)
  deriving DecidableEq, Repr

/-- `span<T>` (span.h:13-50, 52-107): wraps a `std::span<const T>`, i.e. a data
pointer and a size.  `input_span` and `output_span` (span.h:184-189, 228-233)
add nothing to it. -/
structure Span where
  ptr : Ptr
  len : Nat
  deriving DecidableEq, Repr

/-- `span()` (span.h:19, 58): a default constructed `std::span`. -/
def Span.default : Span := ⟨.null, 0⟩

/-- Memory: the contents of every array object the spans of span.h:11-107 can point into.  The elements never change
during
a parse (every span is to `const`), so memory is a constant of a run. -/
abbrev Mem (β : Type) := Nat → List β

/-- Why a run of library code did not produce a value.  Nothing in /repo corresponds to it: it is C++ itself. -/
inductive Err where
  /-- undefined behaviour, or a `size_t` subtraction that wraps -/
  | ub
  /-- an exception left the call (the argument identifies it) -/
  | exn (e : Nat)
  /-- the operation is not well-formed, the program does not compile -/
  | ill
  deriving DecidableEq, Repr

/-- How a run ended: it returned, or there is an `Err`.  Part of C++ itself, not of /repo. -/
inductive Res (A : Type) where
  | ok (a : A)
  | err (e : Err)
  deriving DecidableEq, Repr

/-- Outcome of a run (of C++ itself, not of /repo).  `diverge` is "has not returned" (out of fuel in the fuelled
semantics, never returns in the fuel-free one); `done log res` is a run that ended,
with the log of user callbacks, in the order they were invoked, and its result. -/
inductive M (L A : Type) where
  | diverge
  | done (log : List L) (res : Res A)
  deriving DecidableEq, Repr

namespace M
variable {L A B : Type}

/-- `return a;` (C++ itself) -/
def pure (a : A) : M L A := .done [] (.ok a)
/-- undefined behaviour, `throw` or ill-formed code (C++ itself) -/
def fail (e : Err) : M L A := .done [] (.err e)
/-- a call of user code is made (C++ itself) -/
def log (l : L) : M L Unit := .done [l] (.ok ())

/-- put earlier callbacks in front of the log (C++ itself) -/
def after (l : List L) : M L A → M L A
  | .diverge => .diverge
  | .done l' r => .done (l ++ l') r

/-- one statement after the other (C++ itself) -/
def bind (m : M L A) (f : A → M L B) : M L B :=
  match m with
  | .diverge => .diverge
  | .done l (.err e) => .done l (.err e)
  | .done l (.ok a) => (f a).after l

instance : Monad (M L) where
  pure := M.pure
  bind := M.bind

/-- what may not be there, and what it means if it is not (C++ itself) -/
def ofOption (e : Err) : Option A → M L A
  | some a => M.pure a
  | none => M.fail e

end M

section
variable {β L : Type}

/-- `p + n` on a `const T*` ([expr.add]), in `std::span::subspan` and the iterators (span.h:46, 103, 132): defined
within the array (including one
past the end), and for `null + 0`. -/
def Ptr.add (mem : Mem β) (p : Ptr) (n : Nat) : M L Ptr :=
  match p with
  | .null => if n = 0 then M.pure .null else M.fail .ub
  | .at b o => if o + n ≤ (mem b).length then M.pure (.at b (o + n)) else M.fail .ub

/-- Reading `p[i]` (`front` and `*it`, span.h:41, 98, 134): defined only for an element of the array. -/
def Ptr.read (mem : Mem β) (p : Ptr) (i : Nat) : M L β :=
  match p with
  | .null => M.fail .ub
  | .at b o => M.ofOption .ub ((mem b)[o + i]?)

/-- `a - b` on `std::size_t`, in `std::span::subspan` (span.h:46, 103).  Simplification: in C++ a negative result
wraps, here
it is reported as `ub`, so that "never ub" includes "never wraps". -/
def sizeSub (a b : Nat) : M L Nat :=
  if b ≤ a then M.pure (a - b) else M.fail .ub

namespace Span

/-- `empty()` (span.h:39, 96). -/
def empty (s : Span) : Bool := s.len == 0

/-- `front()` (span.h:41, 98); `std::span::front` requires a non-empty span. -/
def front (mem : Mem β) (s : Span) : M L β :=
  if s.len = 0 then M.fail .ub else s.ptr.read mem 0

/-- `first(count)` (span.h:45, 102); `std::span::first` requires `count <= size()`. -/
def first (s : Span) (count : Nat) : M L Span :=
  if count ≤ s.len then M.pure ⟨s.ptr, count⟩ else M.fail .ub

/-- `subspan(offset)` (span.h:46, 103) with the default `count`;
`std::span::subspan` requires `offset <= size()` and yields
`{data() + offset, size() - offset}`. -/
def subspan (mem : Mem β) (s : Span) (offset : Nat) : M L Span :=
  if offset ≤ s.len then do
    let p ← s.ptr.add mem offset
    M.pure ⟨p, s.len - offset⟩
  else M.fail .ub

/-- The loop of `span_equal_to::operator()` (span.h:130-137): compare element by
element, `i` counting from 0 up to the (common) size. -/
def equalLoop (readL : Nat → M L α) (readR : Nat → M L β) (eqv : α → β → Bool) :
    (todo i : Nat) → M L Bool
  | 0, _ => M.pure true
  | todo + 1, i => do
    let a ← readL i
    let b ← readR i
    if not (eqv a b) then M.pure false
    else equalLoop readL readR eqv todo (i + 1)

/-- `span_equal_to::operator()(span<T>, span<U>)` (span.h:122-138) and hence
`operator==` (span.h:160-164). -/
def equal (memL : Mem α) (memR : Mem β) (eqv : α → β → Bool) (lhs rhs : Span) : M L Bool :=
  if lhs.len ≠ rhs.len then M.pure false
  else equalLoop (lhs.ptr.read memL) (rhs.ptr.read memR) eqv lhs.len 0

end Span

end

/-- The span (span.h:11-107) denotes readable memory: what every caller of `parse` must supply. -/
def Span.Valid (mem : Mem β) (s : Span) : Prop :=
  match s.ptr with
  | .null => s.len = 0
  | .at b o => o + s.len ≤ (mem b).length

instance (mem : Mem β) (s : Span) : Decidable (s.Valid mem) := by
  unfold Span.Valid; split <;> infer_instance

/-- The elements a span denotes (`begin()` to `end()`, span.h:42-43, 99-100). -/
def Span.elems (mem : Mem β) (s : Span) : List β :=
  match s.ptr with
  | .null => []
  | .at b o => ((mem b).drop o).take s.len

end Tok3n
