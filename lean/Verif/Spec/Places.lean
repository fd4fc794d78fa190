import Mathlib.Data.List.Perm.Subperm
import Verif.Spec.Join
/-
Which elements of the input the parts of a result hold, and in which order.
-/

namespace Tok3n

variable {α β : Type}

/-- the span holds element `i` of array `b` -/
def Span.holds (b i : Nat) (t : Span) : Bool :=
  match t.ptr with
  | .null => false
  | .at b' j => decide (b' = b ∧ j ≤ i ∧ i < j + t.len)

/-- how many of the spans in a value hold element `i` of array `b` -/
def Val.times (b i : Nat) (v : Val) : Nat := v.spans.countP (Span.holds b i)

/-- how many elements the spans in a value hold, together -/
def Val.held (v : Val) : Nat := (v.spans.map Span.len).sum

/-- `x` ends at or before the start of `y`, in the same array -/
def Before (x y : Span) : Prop := ∃ b i j, x.ptr = .at b i ∧ y.ptr = .at b j ∧ i + x.len ≤ j

/-- A function object copies no span: those in its result that are not empty are among those
in its arguments, each at most as often as there. -/
def FnCopiesNone (C : Ctx α β) (f : Fn) : Prop :=
  ∀ args log v, invoke C f args = .done log (.ok v) → List.Subperm (nonEmpty v.spans) (spansList args)

/-- Nothing the user has given to `p` invents a span or copies one. -/
structure CopiesNone (C : Ctx α β) (p : Parser α) : Prop extends SpanLocal C p where
  conv : ∀ src dst f v, C.conv src dst = some f → List.Subperm (nonEmpty (f v).spans) v.spans
  convOpt : ∀ src dst f o, C.convOpt src dst = some f → List.Subperm (nonEmpty (f o).spans) (Val.opt o).spans
  fns : ∀ q f, ParseReach C p (.map q f) → FnCopiesNone C f

/-- A function object leaves the spans in order: those in its result that are not empty are
among those in its arguments and come in the same order. -/
def FnKeepsOrder (C : Ctx α β) (f : Fn) : Prop :=
  ∀ args log v, invoke C f args = .done log (.ok v) → List.Sublist (nonEmpty v.spans) (spansList args)

/-- Nothing the user has given to `p` invents, copies or reorders spans, and `p` has no
`delimit` that keeps both the elements and the delimiters (in two lists). -/
structure KeepsOrder (C : Ctx α β) (p : Parser α) : Prop extends SpanLocal C p where
  conv : ∀ src dst f v, C.conv src dst = some f → List.Sublist (nonEmpty (f v).spans) v.spans
  convOpt : ∀ src dst f o, C.convOpt src dst = some f → List.Sublist (nonEmpty (f o).spans) (Val.opt o).spans
  fns : ∀ q f, ParseReach C p (.map q f) → FnKeepsOrder C f
  delimits : ∀ q d, ParseReach C p (.delimit q d) → resultFor C q = .void ∨ resultFor C d = .void

end Tok3n
