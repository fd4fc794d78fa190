import Verif.Spec.Outcome
/-
Reading text from a span.
-/

namespace Tok3n

/-- `s'` is what is left of `s` after reading the text `x` -/
structure Reads {β : Type} (mem : Mem β) (s : Span) (x : List β) (s' : Span) : Prop where
  advanced : s.Advanced x.length s'
  text : s.elems mem = x ++ s'.elems mem

end Tok3n
