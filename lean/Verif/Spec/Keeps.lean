import Verif.Spec.Join
import Verif.Spec.Combinators
/-
Parsers that drop nothing: the vocabulary of C30.
-/

namespace Tok3n

variable {α β : Type}

/-- The spans follow each other without gap or overlap, the first at the start of `s`, and `s'` starts where
the last one ends. -/
inductive Tiles : Span → List Span → Span → Prop where
  | nil {s} : Tiles s [] s
  | cons {s x s1 xs s'} : x.ptr = s.ptr → s.Advanced x.len s1 → Tiles s1 xs s' → Tiles s (x :: xs) s'

mutual
/-- No user type occurs in the type. -/
def Ty.standard : Ty → Bool
  | .void | .span => true
  | .vec t | .arr t _ | .opt t => t.standard
  | .tup ts | .var ts => allStandard ts
  | .pair a b => a.standard && b.standard
  | .user _ => false
def allStandard : List Ty → Bool
  | [] => true
  | t :: ts => t.standard && allStandard ts
end

/-- The expression itself drops nothing: it is not `ignore`, `map` (so no `into`, `constant`, `defaulted` …)
or `delimit`; it is not a choice with wrong indices (finding 3); if it is a custom parser, it has the type of
its body, and that is no user type. -/
def KeepsHere (C : Ctx α β) : Parser α → Prop
  | .ignore _ | .map _ _ | .delimit _ _ => False
  | .choice ps => Indexable (ps.map (resultFor C))
  | .custom k => (C.custom k).ty = resultFor C (C.custom k).body ∧ (C.custom k).ty.standard = true
  | _ => True

/-- Nothing in `p` drops anything; custom parsers are looked into. -/
def KeepsAll (C : Ctx α β) (p : Parser α) : Prop := ∀ q, ParseReach C p q → KeepsHere C q

end Tok3n
