import Verif.Spec.Stateful
import Verif.Spec.Terminate
/-
When a run with stateful callbacks returns: the vocabulary of `Spec/Terminate.lean`, read
over all states the callbacks can be in.
-/

namespace Tok3n.Stateful

variable {σ α β : Type}

/-- `p` can succeed without consuming anything, in some state. -/
def Nullable (C : Ctx α β) (U : Callbacks σ) (p : Parser α) : Prop :=
  ∃ s : Span, s.Valid C.mem ∧ ((∃ st log v st', Parses C U p s st log v s st') ∨ ∃ log, Looks C p s log s)

/-- `p` repeats something that can succeed without consuming anything. -/
def RepeatsNothing (C : Ctx α β) (U : Callbacks σ) : Parser α → Prop
  | .oneOrMore q | .zeroOrMore q => Nullable C U q
  | .delimit q d => Nullable C U d ∧ Nullable C U q
  | _ => False

/-- `p` can get to custom parser `k` before anything is consumed. -/
inductive Reaches (C : Ctx α β) (U : Callbacks σ) : Parser α → Nat → Prop where
  | custom {k} : Reaches C U (.custom k) k
  | within {p q k} : p.parts = [q] → Reaches C U q k → Reaches C U p k
  | choice {ps q k} : q ∈ ps → Reaches C U q k → Reaches C U (.choice ps) k
  | sequence {qs q rs k} : (∀ x ∈ qs, Nullable C U x) → Reaches C U q k → Reaches C U (.sequence (qs ++ q :: rs)) k
  | element {p d k} : Reaches C U p k → Reaches C U (.delimit p d) k
  | delimiter {p d k} : Nullable C U p → Reaches C U d k → Reaches C U (.delimit p d) k

/-- The grammar of `p` is productive: `p` uses finitely many custom parsers (as every program
does), no repetition body can succeed without consuming, and no custom parser can reach itself
before something is consumed. -/
structure Productive (C : Ctx α β) (U : Callbacks σ) (p : Parser α) : Prop where
  finite : ∃ ks : List Nat, ∀ k, Uses C p (.custom k) → k ∈ ks
  repeats : ∀ q, Uses C p q → ¬ RepeatsNothing C U q
  recursion : ∀ k, Uses C p (.custom k) → ¬ Relation.TransGen (fun j k => Reaches C U (C.custom j).body k) k k

end Tok3n.Stateful
