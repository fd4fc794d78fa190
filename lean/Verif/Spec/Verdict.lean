import Verif.Spec.Combinators
/-
What a run says about the input, leaving out values and callbacks.
-/

namespace Tok3n

/-- Accepted leaving `rem`, rejected, ended by an error (an exception, say), or never ended. -/
inductive Verdict where
  | accept (rem : Span)
  | reject
  | error (e : Err)
  | loop
  deriving DecidableEq, Repr

def verdict : Run R → Verdict
  | .diverge => .loop
  | .done _ (.err e) => .error e
  | .done _ (.ok r) => if r.val.isSome then .accept r.rem else .reject

/-- If the first rejects, the second decides. -/
def Verdict.orElse : Verdict → Verdict → Verdict
  | .reject, b => b
  | a, _ => a

/-- If the first accepts, the second decides about the rest. -/
def Verdict.andThen (a : Verdict) (f : Span → Verdict) : Verdict :=
  match a with
  | .accept s => f s
  | a => a

/-- The first that does not reject decides. -/
def orElses (vs : List Verdict) : Verdict := vs.foldr .orElse .reject

/-- One after the other, each on what the one before left. -/
def andThens (fs : List (Span → Verdict)) (s : Span) : Verdict :=
  fs.foldr (fun f g s => (f s).andThen g) .accept s

variable {α β : Type} (C : Ctx α β)

/-- `p.parse(s)` and `p.lookahead(s)`. -/
noncomputable def parseVerdict (p : Parser α) (s : Span) : Verdict := verdict (Parse C p s)
noncomputable def lookVerdict (p : Parser α) (s : Span) : Verdict := verdict (Look C p s)

/-- `p.lookahead` says exactly what `p.parse` says. -/
def LookaheadExact (p : Parser α) : Prop := ∀ s, lookVerdict C p s = parseVerdict C p s

end Tok3n
