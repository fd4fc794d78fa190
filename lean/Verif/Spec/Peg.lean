import Verif.Spec.Literals
/-
The declarative meaning of parsers as recognisers: a parsing expression grammar (PEG), as a
relation on lists of elements that knows nothing of spans, results, types or callbacks.
-/

namespace Tok3n

variable {α β : Type}

/-- `Peg eqv body p xs o`: on the input `xs` the expression `p` matches the first `k` elements
(`o = some k`) or fails (`o = none`).  `body k` is the expression that custom parser `k` stands
for.  Nothing is derivable for an expression that does not terminate on `xs`. -/
inductive Peg (eqv : α → β → Bool) (body : Nat → Parser α) : Parser α → List β → Option Nat → Prop where
  /-- literals and character classes -/
  | hit {p xs k} : IsBasic p → Matches eqv p xs k → Peg eqv body p xs (some k)
  | miss {p xs} : IsBasic p → (∀ k, ¬ Matches eqv p xs k) → Peg eqv body p xs none
  /-- the empty match -/
  | epsilon {xs} : Peg eqv body .epsilon xs (some 0)
  /-- ordered choice -/
  | choiceNil {xs} : Peg eqv body (.choice []) xs none
  | choiceHit {p ps xs k} : Peg eqv body p xs (some k) → Peg eqv body (.choice (p :: ps)) xs (some k)
  | choiceMiss {p ps xs o} : Peg eqv body p xs none → Peg eqv body (.choice ps) xs o →
      Peg eqv body (.choice (p :: ps)) xs o
  /-- sequence -/
  | sequenceNil {xs} : Peg eqv body (.sequence []) xs (some 0)
  | sequenceMore {p ps xs k o} : Peg eqv body p xs (some k) → Peg eqv body (.sequence ps) (xs.drop k) o →
      Peg eqv body (.sequence (p :: ps)) xs (o.map (k + ·))
  | sequenceMiss {p ps xs} : Peg eqv body p xs none → Peg eqv body (.sequence (p :: ps)) xs none
  /-- `p?` -/
  | maybeHit {p xs k} : Peg eqv body p xs (some k) → Peg eqv body (.maybe p) xs (some k)
  | maybeMiss {p xs} : Peg eqv body p xs none → Peg eqv body (.maybe p) xs (some 0)
  /-- `p ... p` -/
  | exactlyNil {p xs} : Peg eqv body (.exactly p 0) xs (some 0)
  | exactlyMore {p n xs k o} : Peg eqv body p xs (some k) → Peg eqv body (.exactly p n) (xs.drop k) o →
      Peg eqv body (.exactly p (n + 1)) xs (o.map (k + ·))
  | exactlyMiss {p n xs} : Peg eqv body p xs none → Peg eqv body (.exactly p (n + 1)) xs none
  /-- `p*` -/
  | zeroStop {p xs} : Peg eqv body p xs none → Peg eqv body (.zeroOrMore p) xs (some 0)
  | zeroMore {p xs k j} : Peg eqv body p xs (some k) → Peg eqv body (.zeroOrMore p) (xs.drop k) (some j) →
      Peg eqv body (.zeroOrMore p) xs (some (k + j))
  /-- `p+` is `p p*` -/
  | oneMiss {p xs} : Peg eqv body p xs none → Peg eqv body (.oneOrMore p) xs none
  | oneMore {p xs k j} : Peg eqv body p xs (some k) → Peg eqv body (.zeroOrMore p) (xs.drop k) (some j) →
      Peg eqv body (.oneOrMore p) xs (some (k + j))
  /-- `p` delimited by `d` is `p (d p)*` -/
  | delimitMiss {p d xs} : Peg eqv body p xs none → Peg eqv body (.delimit p d) xs none
  | delimitMore {p d xs k j} : Peg eqv body p xs (some k) →
      Peg eqv body (.zeroOrMore (.sequence [d, p])) (xs.drop k) (some j) →
      Peg eqv body (.delimit p d) xs (some (k + j))
  /-- `p` and then the end of the input -/
  | completeHit {p xs} : Peg eqv body p xs (some xs.length) → Peg eqv body (.complete p) xs (some xs.length)
  | completeShort {p xs k} : Peg eqv body p xs (some k) → k < xs.length → Peg eqv body (.complete p) xs none
  | completeMiss {p xs} : Peg eqv body p xs none → Peg eqv body (.complete p) xs none
  /-- these make no difference -/
  | ignore {p xs o} : Peg eqv body p xs o → Peg eqv body (.ignore p) xs o
  | join {p xs o} : Peg eqv body p xs o → Peg eqv body (.join p) xs o
  | map {p f xs o} : Peg eqv body p xs o → Peg eqv body (.map p f) xs o
  | filter {p f xs o} : Peg eqv body p xs o → Peg eqv body (.filter p f) xs o
  | named {p n xs o} : Peg eqv body p xs o → Peg eqv body (.named p n) xs o
  /-- nonterminals -/
  | custom {k xs o} : Peg eqv body (body k) xs o → Peg eqv body (.custom k) xs o

end Tok3n
