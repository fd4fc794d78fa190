import Verif.Spec.Effort
import Verif.Spec.Peg
/-
How many calls a `lookahead` makes, as rules over lists of elements.
-/

namespace Tok3n

variable {α β : Type}

/-- `join(p)` is one of the specialisations (optimizations/join_*_basic.h), which read the input in a loop of their
own and call no other parser. -/
def ownLoop (C : Ctx α β) : Parser α → Bool
  | .exactly q _ | .maybe q | .oneOrMore q | .zeroOrMore q => (asBasic C q).isSome
  | _ => false

/-- `PegCalls C p xs n o`: on the input `xs` the expression `p` has the outcome `o` (the number of elements matched, or
failure) after `n` calls of the parsers it is made of. -/
inductive PegCalls (C : Ctx α β) : Parser α → List β → Nat → Option Nat → Prop where
  | hit {p xs k} : IsBasic p → Matches C.eqv p xs k → PegCalls C p xs 0 (some k)
  | miss {p xs} : IsBasic p → (∀ k, ¬ Matches C.eqv p xs k) → PegCalls C p xs 0 none
  | epsilon {xs} : PegCalls C .epsilon xs 0 (some 0)
  /-- the alternatives up to the first that succeeds -/
  | choiceNil {xs} : PegCalls C (.choice []) xs 0 none
  | choiceHit {p ps xs n k} : PegCalls C p xs n (some k) → PegCalls C (.choice (p :: ps)) xs (n + 1) (some k)
  | choiceMiss {p ps xs n m o} : PegCalls C p xs n none → PegCalls C (.choice ps) xs m o →
      PegCalls C (.choice (p :: ps)) xs (n + 1 + m) o
  /-- the parts up to the first that fails -/
  | sequenceNil {xs} : PegCalls C (.sequence []) xs 0 (some 0)
  | sequenceMore {p ps xs n m k o} : PegCalls C p xs n (some k) → PegCalls C (.sequence ps) (xs.drop k) m o →
      PegCalls C (.sequence (p :: ps)) xs (n + 1 + m) (o.map (k + ·))
  | sequenceMiss {p ps xs n} : PegCalls C p xs n none → PegCalls C (.sequence (p :: ps)) xs (n + 1) none
  | maybeHit {p xs n k} : PegCalls C p xs n (some k) → PegCalls C (.maybe p) xs (n + 1) (some k)
  | maybeMiss {p xs n} : PegCalls C p xs n none → PegCalls C (.maybe p) xs (n + 1) (some 0)
  | exactlyNil {p xs} : PegCalls C (.exactly p 0) xs 0 (some 0)
  | exactlyMore {p i xs n m k o} : PegCalls C p xs n (some k) → PegCalls C (.exactly p i) (xs.drop k) m o →
      PegCalls C (.exactly p (i + 1)) xs (n + 1 + m) (o.map (k + ·))
  | exactlyMiss {p i xs n} : PegCalls C p xs n none → PegCalls C (.exactly p (i + 1)) xs (n + 1) none
  /-- one more than there are matches -/
  | zeroStop {p xs n} : PegCalls C p xs n none → PegCalls C (.zeroOrMore p) xs (n + 1) (some 0)
  | zeroMore {p xs n m k j} : PegCalls C p xs n (some k) → PegCalls C (.zeroOrMore p) (xs.drop k) m (some j) →
      PegCalls C (.zeroOrMore p) xs (n + 1 + m) (some (k + j))
  | oneMiss {p xs n} : PegCalls C p xs n none → PegCalls C (.oneOrMore p) xs (n + 1) none
  | oneMore {p xs n m k j} : PegCalls C p xs n (some k) → PegCalls C (.zeroOrMore p) (xs.drop k) m (some j) →
      PegCalls C (.oneOrMore p) xs (n + 1 + m) (some (k + j))
  /-- an element and a delimiter in turn; a delimiter without an element after it is given back -/
  | delimitMiss {p d xs n} : PegCalls C p xs n none → PegCalls C (.delimit p d) xs (n + 1) none
  | delimitStop {p d xs n m k} : PegCalls C p xs n (some k) → PegCalls C d (xs.drop k) m none →
      PegCalls C (.delimit p d) xs (n + 1 + (m + 1)) (some k)
  | delimitLast {p d xs n m i k j} : PegCalls C p xs n (some k) → PegCalls C d (xs.drop k) m (some j) →
      PegCalls C (.delimit p d) (xs.drop (k + j)) i none →
      PegCalls C (.delimit p d) xs (n + 1 + (m + 1 + i)) (some k)
  | delimitMore {p d xs n m i k j l} : PegCalls C p xs n (some k) → PegCalls C d (xs.drop k) m (some j) →
      PegCalls C (.delimit p d) (xs.drop (k + j)) i (some l) →
      PegCalls C (.delimit p d) xs (n + 1 + (m + 1 + i)) (some (k + j + l))
  | completeHit {p xs n} : PegCalls C p xs n (some xs.length) → PegCalls C (.complete p) xs (n + 1) (some xs.length)
  | completeShort {p xs n k} : PegCalls C p xs n (some k) → k < xs.length → PegCalls C (.complete p) xs (n + 1) none
  | completeMiss {p xs n} : PegCalls C p xs n none → PegCalls C (.complete p) xs (n + 1) none
  | ignore {p xs n o} : PegCalls C p xs n o → PegCalls C (.ignore p) xs (n + 1) o
  | join {p xs n o} : ownLoop C p = false → PegCalls C p xs n o → PegCalls C (.join p) xs (n + 1) o
  | joinOwn {p xs n o} : ownLoop C p = true → PegCalls C p xs n o → PegCalls C (.join p) xs 0 o
  | map {p f xs n o} : PegCalls C p xs n o → PegCalls C (.map p f) xs (n + 1) o
  | filter {p f xs n o} : PegCalls C p xs n o → PegCalls C (.filter p f) xs (n + 1) o
  | named {p m xs n o} : PegCalls C p xs n o → PegCalls C (.named p m) xs (n + 1) o
  | custom {k xs n o} : PegCalls C (C.custom k).body xs n o → PegCalls C (.custom k) xs (n + 1) o

/-- how many of the calls in a log are those of `parse` and `lookahead` -/
def marks (l : List Call) : Nat := (l.filter Call.isMark).length

end Tok3n
