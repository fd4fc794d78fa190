import Verif.Spec.Outcome
import Mathlib.Logic.Relation
/-
When a grammar is productive: the vocabulary of C39.
-/

namespace Tok3n

variable {α β : Type}

/-- The sub-expressions of an expression. -/
def Parser.parts : Parser α → List (Parser α)
  | .choice ps | .sequence ps => ps
  | .maybe p | .exactly p _ | .oneOrMore p | .zeroOrMore p | .ignore p | .complete p | .join p | .map p _
  | .filter p _ | .named p _ => [p]
  | .delimit p d => [p, d]
  | .anyOf _ | .noneOf _ | .allOf _ | .anything | .epsilon | .custom _ => []

/-- `q` is `p` or occurs in it; custom parsers are looked into. -/
inductive Uses (C : Ctx α β) : Parser α → Parser α → Prop where
  | self {p} : Uses C p p
  | part {p q r} : q ∈ p.parts → Uses C q r → Uses C p r
  | custom {k r} : Uses C (C.custom k).body r → Uses C (.custom k) r

/-- `p` can succeed without consuming anything. -/
def Nullable (C : Ctx α β) (p : Parser α) : Prop :=
  ∃ s : Span, s.Valid C.mem ∧ ((∃ log v, Parses C p s log v s) ∨ ∃ log, Looks C p s log s)

/-- `p` repeats something that can succeed without consuming anything. -/
def RepeatsNothing (C : Ctx α β) : Parser α → Prop
  | .oneOrMore q | .zeroOrMore q => Nullable C q
  | .delimit q d => Nullable C d ∧ Nullable C q
  | _ => False

/-- `p` can get to custom parser `k` before anything is consumed. -/
inductive Reaches (C : Ctx α β) : Parser α → Nat → Prop where
  | custom {k} : Reaches C (.custom k) k
  | within {p q k} : p.parts = [q] → Reaches C q k → Reaches C p k
  | choice {ps q k} : q ∈ ps → Reaches C q k → Reaches C (.choice ps) k
  | sequence {qs q rs k} : (∀ x ∈ qs, Nullable C x) → Reaches C q k → Reaches C (.sequence (qs ++ q :: rs)) k
  | element {p d k} : Reaches C p k → Reaches C (.delimit p d) k
  | delimiter {p d k} : Nullable C p → Reaches C d k → Reaches C (.delimit p d) k

/-- The grammar of `p` is productive: `p` uses finitely many custom parsers (as every program does), no
repetition body can succeed without consuming, and no custom parser can reach itself before something is
consumed. -/
structure Productive (C : Ctx α β) (p : Parser α) : Prop where
  finite : ∃ ks : List Nat, ∀ k, Uses C p (.custom k) → k ∈ ks
  repeats : ∀ q, Uses C p q → ¬ RepeatsNothing C q
  recursion : ∀ k, Uses C p (.custom k) → ¬ Relation.TransGen (fun j k => Reaches C (C.custom j).body k) k k

/-! ### A check that can be run on a grammar -/

mutual
/-- A conservative approximation of `Nullable`; `null k` says it of custom parser `k`. -/
def Parser.nullable (null : Nat → Bool) : Parser α → Bool
  | .anyOf _ | .noneOf _ | .anything => false
  | .allOf arr => arr.isEmpty
  | .epsilon | .maybe _ | .zeroOrMore _ => true
  | .choice ps => someNullable null ps
  | .sequence ps => allNullable null ps
  | .exactly p n => n == 0 || p.nullable null
  | .oneOrMore p | .delimit p _ | .ignore p | .complete p | .join p | .map p _ | .filter p _ | .named p _ =>
    p.nullable null
  | .custom k => null k
def someNullable (null : Nat → Bool) : List (Parser α) → Bool
  | [] => false
  | p :: ps => p.nullable null || someNullable null ps
def allNullable (null : Nat → Bool) : List (Parser α) → Bool
  | [] => true
  | p :: ps => p.nullable null && allNullable null ps
end

mutual
/-- No repetition body is nullable. -/
def Parser.repeatsOK (null : Nat → Bool) : Parser α → Bool
  | .anyOf _ | .noneOf _ | .anything | .allOf _ | .epsilon | .custom _ => true
  | .choice ps | .sequence ps => allRepeatsOK null ps
  | .oneOrMore p | .zeroOrMore p => !p.nullable null && p.repeatsOK null
  | .delimit p d => !(d.nullable null && p.nullable null) && p.repeatsOK null && d.repeatsOK null
  | .maybe p | .exactly p _ | .ignore p | .complete p | .join p | .map p _ | .filter p _ | .named p _ =>
    p.repeatsOK null
def allRepeatsOK (null : Nat → Bool) : List (Parser α) → Bool
  | [] => true
  | p :: ps => p.repeatsOK null && allRepeatsOK null ps
end

mutual
/-- All custom parsers satisfy `ok`. -/
def Parser.customs (ok : Nat → Bool) : Parser α → Bool
  | .anyOf _ | .noneOf _ | .anything | .allOf _ | .epsilon => true
  | .custom k => ok k
  | .choice ps | .sequence ps => allCustoms ok ps
  | .delimit p d => p.customs ok && d.customs ok
  | .oneOrMore p | .zeroOrMore p | .maybe p | .exactly p _ | .ignore p | .complete p | .join p | .map p _
  | .filter p _ | .named p _ => p.customs ok
def allCustoms (ok : Nat → Bool) : List (Parser α) → Bool
  | [] => true
  | p :: ps => p.customs ok && allCustoms ok ps
end

mutual
/-- All custom parsers that can be reached before something is consumed satisfy `ok`. -/
def Parser.firsts (null ok : Nat → Bool) : Parser α → Bool
  | .anyOf _ | .noneOf _ | .anything | .allOf _ | .epsilon => true
  | .custom k => ok k
  | .choice ps => allFirsts null ok ps
  | .sequence ps => sequenceFirsts null ok ps
  | .delimit p d => p.firsts null ok && (!p.nullable null || d.firsts null ok)
  | .oneOrMore p | .zeroOrMore p | .maybe p | .exactly p _ | .ignore p | .complete p | .join p | .map p _
  | .filter p _ | .named p _ => p.firsts null ok
def allFirsts (null ok : Nat → Bool) : List (Parser α) → Bool
  | [] => true
  | p :: ps => p.firsts null ok && allFirsts null ok ps
def sequenceFirsts (null ok : Nat → Bool) : List (Parser α) → Bool
  | [] => true
  | p :: ps => p.firsts null ok && (!p.nullable null || sequenceFirsts null ok ps)
end

/-- Custom parser `k` succeeds where its body fails (`Pretends`). -/
def pretends (C : Ctx α β) (k : Nat) : Bool :=
  resultFor C (C.custom k).body != (C.custom k).ty &&
    (fromOptional C (resultFor C (C.custom k).body) (C.custom k).ty).isSome

/-- The check: `ks` are the custom parsers, those with `null` may be nullable, and `rank` orders them so that
whatever is reached before something is consumed has lower rank. -/
def productive (C : Ctx α β) (ks : List Nat) (null : Nat → Bool) (rank : Nat → Nat) (p : Parser α) : Bool :=
  let null := fun k => !ks.contains k || null k
  (p.repeatsOK null && p.customs ks.contains) &&
    ks.all fun k => (!((C.custom k).body.nullable null || pretends C k) || null k) && (C.custom k).body.repeatsOK null &&
      (C.custom k).body.customs ks.contains && (C.custom k).body.firsts null fun j => rank j < rank k

end Tok3n
