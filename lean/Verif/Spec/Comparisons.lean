import Verif.Spec.Interrupted
import Verif.Spec.Peg
/-
How many elements are compared: vocabulary of C83.
-/

namespace Tok3n

variable {α β : Type}

/-- how many elements of a literal are compared with `x` until one is equal -/
def triedUntil (eqv : α → β → Bool) : List α → β → Nat
  | [], _ => 0
  | a :: as, x => if eqv a x then 1 else triedUntil eqv as x + 1

/-- how many elements of a literal are compared, each with the one at its place, until two are unequal -/
def comparedWhile (eqv : α → β → Bool) : List α → List β → Nat
  | a :: as, x :: xs => if eqv a x then comparedWhile eqv as xs + 1 else 1
  | _, _ => 0

/-- How many elements a literal parser compares on the input `xs`.  If the input is too short it does not look at it. -/
def literalCompares (eqv : α → β → Bool) : Parser α → List β → Nat
  | .anyOf arr, x :: _ | .noneOf arr, x :: _ => triedUntil eqv arr x
  | .allOf arr, xs => if xs.length < arr.length then 0 else comparedWhile eqv arr xs
  | _, _ => 0

/-- `PegCompares C p xs n o`: on the input `xs` the expression `p` has the outcome `o` (the number of elements matched, or
failure) after `n` comparisons of an element of a literal with an element of the input. -/
inductive PegCompares (C : Ctx α β) : Parser α → List β → Nat → Option Nat → Prop where
  | hit {p xs k} : IsBasic p → Matches C.eqv p xs k → PegCompares C p xs (literalCompares C.eqv p xs) (some k)
  | miss {p xs} : IsBasic p → (∀ k, ¬ Matches C.eqv p xs k) →
      PegCompares C p xs (literalCompares C.eqv p xs) none
  | epsilon {xs} : PegCompares C .epsilon xs 0 (some 0)
  /-- the alternatives up to the first that succeeds -/
  | choiceNil {xs} : PegCompares C (.choice []) xs 0 none
  | choiceHit {p ps xs n k} : PegCompares C p xs n (some k) → PegCompares C (.choice (p :: ps)) xs n (some k)
  | choiceMiss {p ps xs n m o} : PegCompares C p xs n none → PegCompares C (.choice ps) xs m o →
      PegCompares C (.choice (p :: ps)) xs (n + m) o
  /-- the parts up to the first that fails -/
  | sequenceNil {xs} : PegCompares C (.sequence []) xs 0 (some 0)
  | sequenceMore {p ps xs n m k o} : PegCompares C p xs n (some k) → PegCompares C (.sequence ps) (xs.drop k) m o →
      PegCompares C (.sequence (p :: ps)) xs (n + m) (o.map (k + ·))
  | sequenceMiss {p ps xs n} : PegCompares C p xs n none → PegCompares C (.sequence (p :: ps)) xs n none
  | maybeHit {p xs n k} : PegCompares C p xs n (some k) → PegCompares C (.maybe p) xs n (some k)
  | maybeMiss {p xs n} : PegCompares C p xs n none → PegCompares C (.maybe p) xs n (some 0)
  | exactlyNil {p xs} : PegCompares C (.exactly p 0) xs 0 (some 0)
  | exactlyMore {p i xs n m k o} : PegCompares C p xs n (some k) → PegCompares C (.exactly p i) (xs.drop k) m o →
      PegCompares C (.exactly p (i + 1)) xs (n + m) (o.map (k + ·))
  | exactlyMiss {p i xs n} : PegCompares C p xs n none → PegCompares C (.exactly p (i + 1)) xs n none
  /-- one more than there are matches -/
  | zeroStop {p xs n} : PegCompares C p xs n none → PegCompares C (.zeroOrMore p) xs n (some 0)
  | zeroMore {p xs n m k j} : PegCompares C p xs n (some k) → PegCompares C (.zeroOrMore p) (xs.drop k) m (some j) →
      PegCompares C (.zeroOrMore p) xs (n + m) (some (k + j))
  | oneMiss {p xs n} : PegCompares C p xs n none → PegCompares C (.oneOrMore p) xs n none
  | oneMore {p xs n m k j} : PegCompares C p xs n (some k) → PegCompares C (.zeroOrMore p) (xs.drop k) m (some j) →
      PegCompares C (.oneOrMore p) xs (n + m) (some (k + j))
  /-- an element and a delimiter in turn; a delimiter without an element after it is given back -/
  | delimitMiss {p d xs n} : PegCompares C p xs n none → PegCompares C (.delimit p d) xs n none
  | delimitStop {p d xs n m k} : PegCompares C p xs n (some k) → PegCompares C d (xs.drop k) m none →
      PegCompares C (.delimit p d) xs (n + m) (some k)
  | delimitLast {p d xs n m i k j} : PegCompares C p xs n (some k) → PegCompares C d (xs.drop k) m (some j) →
      PegCompares C (.delimit p d) (xs.drop (k + j)) i none →
      PegCompares C (.delimit p d) xs (n + (m + i)) (some k)
  | delimitMore {p d xs n m i k j l} : PegCompares C p xs n (some k) → PegCompares C d (xs.drop k) m (some j) →
      PegCompares C (.delimit p d) (xs.drop (k + j)) i (some l) →
      PegCompares C (.delimit p d) xs (n + (m + i)) (some (k + j + l))
  | completeHit {p xs n} : PegCompares C p xs n (some xs.length) → PegCompares C (.complete p) xs n (some xs.length)
  | completeShort {p xs n k} : PegCompares C p xs n (some k) → k < xs.length → PegCompares C (.complete p) xs n none
  | completeMiss {p xs n} : PegCompares C p xs n none → PegCompares C (.complete p) xs n none
  | ignore {p xs n o} : PegCompares C p xs n o → PegCompares C (.ignore p) xs n o
  | join {p xs n o} : PegCompares C p xs n o → PegCompares C (.join p) xs n o
  | map {p f xs n o} : PegCompares C p xs n o → PegCompares C (.map p f) xs n o
  | filter {p f xs n o} : PegCompares C p xs n o → PegCompares C (.filter p f) xs n o
  | named {p m xs n o} : PegCompares C p xs n o → PegCompares C (.named p m) xs n o
  | custom {k xs n o} : PegCompares C (C.custom k).body xs n o → PegCompares C (.custom k) xs n o

/-- the number of elements of a literal -/
def Parser.literal : Parser α → Nat
  | .anyOf arr | .noneOf arr | .allOf arr => arr.length
  | _ => 0

/-- Counts the comparisons; nothing throws. -/
def tally : Interrupted.Env α β Nat := fun o n => match o with
  | .compare _ _ => .ok (n + 1)
  | .value => .ok n

/-- `p.parse(s)` returns after `n` comparisons of elements -/
def ParseCompares (C : Ctx α β) (p : Parser α) (s : Span) (n : Nat) : Prop :=
  ∃ log x, Interrupted.Parse tally C (.ofCtx C) p s (0, ()) = .done log (.ok (x, n, ()))

/-- `p.lookahead(s)` returns after `n` comparisons of elements -/
def LookCompares (C : Ctx α β) (p : Parser α) (s : Span) (n : Nat) : Prop :=
  ∃ log x, Interrupted.Look tally C (.ofCtx C) p s (0, ()) = .done log (.ok (x, n, ()))

end Tok3n
