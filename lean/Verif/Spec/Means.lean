import Verif.Spec.Gives
import Verif.Spec.Language
/-
A parser expression read as a context-free grammar that gives values: what a text may mean.  Alternatives are in no
particular order, repetitions may stop anywhere, and nothing is said about what does not match.
-/

namespace Tok3n

variable {α β : Type}

/-- Between `s` and `s'` there is a word of `p`. -/
def WordFrom (C : Ctx α β) (p : Parser α) (s s' : Span) : Prop :=
  ∃ k, s.Advanced k s' ∧ Word C.eqv (fun k => (C.custom k).body) p ((s.elems C.mem).take k)

mutual
/-- `Means C p s v s'`: the text between `s` and `s'` can be read as a `p`, with the value `v`. -/
inductive Means (C : Ctx α β) : Parser α → Span → Val → Span → Prop where
  | basic {p s k s'} : IsBasic p → Matches C.eqv p (s.elems C.mem) k → s.Advanced k s' → Means C p s (.span ⟨s.ptr, k⟩) s'
  | epsilon {s} : Means C .epsilon s .unit s
  | choice {ps is d s v s'} : Recorded (ps.map (resultFor C)) is → IsDefault C (resultFor C (.choice ps)) d →
      MeansAny C (distinct (ps.map (resultFor C))) d ps is s v s' → Means C (.choice ps) s v s'
  | sequence {ps s vs s'} : MeansParts C ps s vs s' → Means C (.sequence ps) s (sequenceValue vs) s'
  | maybe {p s v s'} : Means C p s v s' → Means C (.maybe p) s (optionalValue (resultFor C p) (some v)) s'
  | maybeNot {p s} : Means C (.maybe p) s (optionalValue (resultFor C p) none) s
  | exactly {p n s vs s'} : MeansTimes C p n s vs s' → Means C (.exactly p n) s (arrayValue (resultFor C p) vs) s'
  | zeroOrMore {p s vs s'} : MeansMany C p s vs s' → Means C (.zeroOrMore p) s (vectorValue (resultFor C p) vs) s'
  | oneOrMore {p s v s1 vs s'} : Means C p s v s1 → MeansMany C p s1 vs s' →
      Means C (.oneOrMore p) s (vectorValue (resultFor C p) (v :: vs)) s'
  | delimit {p d s v s1 xs s'} : Means C p s v s1 → MeansPairs C d p s1 xs s' →
      Means C (.delimit p d) s
        (delimitValue (resultFor C p) (resultFor C d) (v :: xs.map (·.2)) (xs.map (·.1))) s'
  | ignore {p s s'} : WordFrom C p s s' → Means C (.ignore p) s .unit s'
  | complete {p s v s'} : Means C p s v s' → Means C (.complete p) s v s'
  | join {p s v s'} : Means C p s v s' → Contiguous (nonEmpty (joinLeaves C v)) →
      Means C (.join p) s (.span (cover s' (nonEmpty (joinLeaves C v)))) s'
  | map {p f s v s' log x} : Means C p s v s' → Invokes C f (argsOf (resultFor C p) v) log (.ok x) →
      Means C (.map p f) s (returned (resultFor C (.map p f)) x) s'
  | filter {p f s v s' log x} : Means C p s v s' → Invokes C f (argsOf (resultFor C p) v) log (.ok x) →
      C.truthy x = true → Means C (.filter p f) s v s'
  | named {p n s v s'} : Means C p s v s' → Means C (.named p n) s v s'
  | custom {k s v s'} : Means C (C.custom k).body s v s' →
      Means C (.custom k) s (converted C (resultFor C (C.custom k).body) (C.custom k).ty v) s'

/-- One of the alternatives of a choice between the types `us`, with what is recorded for each: one with an index gives
its value, one without gives `d`. -/
inductive MeansAny (C : Ctx α β) :
    List Ty → Val → List (Parser α) → List (Option Nat) → Span → Val → Span → Prop where
  | void {us d p ps is s s'} : WordFrom C p s s' → MeansAny C us d (p :: ps) (none :: is) s d s'
  | value {us d p ps i is s v s'} : Means C p s v s' →
      MeansAny C us d (p :: ps) (some i :: is) s (alternativeValue C us i (resultFor C p) v) s'
  | later {us d p ps i is s v s'} : MeansAny C us d ps is s v s' → MeansAny C us d (p :: ps) (i :: is) s v s'

/-- The parts of a sequence one after the other, and the values of those that have one. -/
inductive MeansParts (C : Ctx α β) : List (Parser α) → Span → List Val → Span → Prop where
  | nil {s} : MeansParts C [] s [] s
  | value {p ps s v s1 vs s'} : resultFor C p ≠ .void → Means C p s v s1 → MeansParts C ps s1 vs s' →
      MeansParts C (p :: ps) s (v :: vs) s'
  | void {p ps s s1 vs s'} : resultFor C p = .void → WordFrom C p s s1 → MeansParts C ps s1 vs s' →
      MeansParts C (p :: ps) s vs s'

/-- The parser `n` times. -/
inductive MeansTimes (C : Ctx α β) : Parser α → Nat → Span → List Val → Span → Prop where
  | zero {p s} : MeansTimes C p 0 s [] s
  | more {p n s v s1 vs s'} : Means C p s v s1 → MeansTimes C p n s1 vs s' → MeansTimes C p (n + 1) s (v :: vs) s'

/-- The parser any number of times. -/
inductive MeansMany (C : Ctx α β) : Parser α → Span → List Val → Span → Prop where
  | over {p s} : MeansMany C p s [] s
  | more {p s v s1 vs s'} : Means C p s v s1 → MeansMany C p s1 vs s' → MeansMany C p s (v :: vs) s'

/-- A delimiter `d` and an element `p` any number of times. -/
inductive MeansPairs (C : Ctx α β) : Parser α → Parser α → Span → List (Val × Val) → Span → Prop where
  | over {d p s} : MeansPairs C d p s [] s
  | more {d p s x s1 v s2 xs s'} : Means C d s x s1 → Means C p s1 v s2 → MeansPairs C d p s2 xs s' →
      MeansPairs C d p s ((x, v) :: xs) s'
end

end Tok3n
