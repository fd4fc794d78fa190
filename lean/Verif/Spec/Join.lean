import Verif.Spec.Values
/-
What `join` is supposed to do.
-/

namespace Tok3n

/-- `b` starts where `a` ends, in the same array. -/
def Touch (a b : Span) : Prop := ∃ k o, a.ptr = .at k o ∧ b.ptr = .at k (o + a.len)

/-- Each span starts where the one before it ends. -/
def Contiguous : List Span → Prop
  | a :: b :: xs => Touch a b ∧ Contiguous (b :: xs)
  | _ => True

/-- The spans that are not empty. -/
def nonEmpty (xs : List Span) : List Span := xs.filter fun x => x.len ≠ 0

/-- The span from the start of the first to the end of the last of contiguous spans; the
empty span at the start of `rest` if there are none. -/
def cover (rest : Span) : List Span → Span
  | [] => ⟨rest.ptr, 0⟩
  | x :: xs => ⟨x.ptr, x.len + (xs.map Span.len).sum⟩

end Tok3n
