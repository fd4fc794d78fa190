import Verif.Spec.Verdict
/-
What the library does with any choice that compiles, also with those whose recorded indices are wrong (finding 3).
-/

namespace Tok3n

variable {α β : Type} (C : Ctx α β)

/-- What `filter_out_void_deduplicate` records for alternatives with values of types `ts`: nothing for one without
value, the number of types seen so far for a type not seen before; but for a type seen before, what is recorded for the
alternative whose *position* is the place of the type among the distinct ones. -/
structure Recorded (ts : List Ty) (is : List (Option Nat)) : Prop where
  length : is.length = ts.length
  void : ∀ before after, ts = before ++ .void :: after → is[before.length]? = some none
  first : ∀ before t after, ts = before ++ t :: after → t ≠ .void → t ∉ before →
    is[before.length]? = some (some (distinct before).length)
  again : ∀ before t after, ts = before ++ t :: after → t ≠ .void → t ∈ before →
    is[before.length]? = is[(distinct before).idxOf t]?

/-- A value of type `t` as one of type `u`. -/
def converted (t u : Ty) (v : Val) : Val :=
  if t = u then v else match C.conv t u with
    | some f => f v
    | none => v

/-- How an alternative is run: with a recorded index it is parsed and its value is put at that index (if there is only
one type: returned); without it is looked ahead, and the value is `d`. -/
noncomputable def recordedRun (us : List Ty) (d : Val) (s : Span) (p : Parser α) : Option Nat → Run R
  | none => mapVal (fun _ => d) (Look C p s)
  | some i => mapVal (fun v => match us with
    | [_] => v
    | us => .var i (converted C (resultFor C p) (us.getD i .void) v)) (Parse C p s)

end Tok3n

namespace Tok3n

variable {α β : Type} (C : Ctx α β)

/-- On readable input, `p.lookahead` says exactly what `p.parse` says. -/
def LookaheadExactOn (p : Parser α) : Prop := ∀ s, s.Valid C.mem → lookVerdict C p s = parseVerdict C p s

/-- On readable input, where `p.parse` fails `p.lookahead` fails. -/
def LookaheadFailsToo (p : Parser α) : Prop :=
  ∀ s, s.Valid C.mem → ∀ log s', ParseFails C p s log s' → LookFails C p s [] s'

/-- The alternatives of a choice; of any other parser, the parser. -/
def alternatives : Parser α → List (Parser α)
  | .choice ps => ps
  | p => [p]

end Tok3n
