import Verif.Spec.Recorded
import Verif.Spec.Types
/-
When `p.parse(input)` compiles: all of C57 in one definition.
-/

namespace Tok3n

variable {α β : Type}

/-- The body of `P::parse` compiles, given that of each part it parses.  What is only looked ahead (below `ignore`,
and parts without value) need not have a `parse` that compiles. -/
inductive CanParse (C : Ctx α β) : Parser α → Prop where
  | anyOf {arr} : CanParse C (.anyOf arr)
  | noneOf {arr} : CanParse C (.noneOf arr)
  | allOf {arr} : CanParse C (.allOf arr)
  | anything : CanParse C .anything
  | epsilon : CanParse C .epsilon
  /-- the first type must be default constructible; what is put at a recorded index must have the type that is
  there, or convert to it -/
  | choice {ps ts is} : ResultTypes C ps ts → Recorded ts is →
      (∀ t, (distinct ts).head? = some t → HasDefault C t) →
      (∀ (n i : Nat) t, ts[n]? = some t → is[n]? = some (some i) →
        ∃ u, (distinct ts)[i]? = some u ∧ (u = t ∨ ∃ g, C.conv t u = some g)) →
      (∀ (n i : Nat) p, ps[n]? = some p → is[n]? = some (some i) → CanParse C p) → CanParse C (.choice ps)
  | sequence {ps ts} : ResultTypes C ps ts → (∀ t ∈ ts, HasDefault C t) →
      (∀ p t, (p, t) ∈ ps.zip ts → t ≠ .void → CanParse C p) → CanParse C (.sequence ps)
  | maybe {p} : CanParse C p → CanParse C (.maybe p)
  | exactly {p n t} : ResultType C p t → HasDefault C t → CanParse C p → CanParse C (.exactly p n)
  | oneOrMore {p} : CanParse C p → CanParse C (.oneOrMore p)
  | zeroOrMore {p} : CanParse C p → CanParse C (.zeroOrMore p)
  | delimit {p d} : CanParse C p → CanParse C d → CanParse C (.delimit p d)
  | ignore {p} : CanParse C (.ignore p)
  | complete {p} : CanParse C p → CanParse C (.complete p)
  | join {p t} : ResultType C p t → Joinable C t → CanParse C p → CanParse C (.join p)
  | map {p f} : CanParse C p → CanParse C (.map p f)
  | filter {p f} : CanParse C p → CanParse C (.filter p f)
  | named {p n} : CanParse C p → CanParse C (.named p n)
  | custom {k t} : ResultType C (C.custom k).body t → Converts C t (C.custom k).ty → CanParse C (.custom k)

/-- All class templates can be instantiated, the value has a type, and `parse` compiles. -/
structure WellTyped [LinearOrder α] (C : Ctx α β) (p : Parser α) : Prop where
  classes : ∀ q, p.Contains q → ClassOK q
  type : ∃ t, ResultType C p t
  parse : CanParse C p

/-- A custom parser: what `get_parser()` returns is well typed, and a class without `result_type` has the type of
that. -/
structure WellTypedCustom [LinearOrder α] (C : Ctx α β) (k : Nat) : Prop where
  body : WellTyped C (C.custom k).body
  inferred : (C.custom k).declared = false → ResultType C (C.custom k).body (C.custom k).ty

end Tok3n
