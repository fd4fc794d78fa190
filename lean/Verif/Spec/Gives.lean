import Verif.Spec.Peg
import Verif.Spec.Recorded
import Verif.Spec.Repeat
import Verif.Spec.Modify
import Verif.Spec.Join
import Verif.Spec.Default
/-
What `parse` does, as rules: which calls it makes, and how it ends.  No fuel, no loops, no builders, no index sequences.
Where `parse` only looks ahead, the rules refer to those of `lookahead` (`Peg`).
-/

namespace Tok3n

variable {α β : Type}

/-- How a parse ends: with something and the rest of the input, without success, or with an exception. -/
inductive Ending (A : Type) where
  | ok (a : A) (rest : Span)
  | no
  | throws (e : Nat)

/-- Change what a success gives, nothing else. -/
def Ending.map {A B : Type} (f : A → B) : Ending A → Ending B
  | .ok a rest => .ok (f a) rest
  | .no => .no
  | .throws e => .throws e

/-- A part that does not succeed makes the whole end like it. -/
inductive StopsLike {A B : Type} : Ending A → Ending B → Prop where
  | no : StopsLike .no .no
  | throws {e} : StopsLike (.throws e) (.throws e)

/-- Calling the function object with the arguments makes the calls `log`, and returns a value or throws. -/
inductive Invokes (C : Ctx α β) : Fn → List Val → List Call → Except Nat Val → Prop where
  | user {k args} : Invokes C (.user k) args [⟨.user k, args⟩] (C.fnCall k args)
  | apply {f v vs log r} : Components v vs → Invokes C f vs log r → Invokes C (.apply f) [v] log r
  | const {k args} : Invokes C (.const k) args [⟨.const k, args⟩] (.ok (C.constVal k))
  | construct {t args} : Invokes C (.construct t) args [⟨.construct t, args⟩] (C.ctor t args)
  | deflt {t args d} : IsDefault C t d → Invokes C (.deflt t) args [⟨.deflt t, args⟩] (.ok d)

/-- The value of a choice between the types `us` when the alternative recorded at `i`, of type `t`, gives `v`. -/
def alternativeValue (C : Ctx α β) (us : List Ty) (i : Nat) (t : Ty) (v : Val) : Val :=
  match us with
  | [_] => v
  | us => .var i (converted C t (us.getD i .void) v)

mutual
/-- Parsing `s` with the parser makes the calls `log` and ends that way. -/
inductive Gives (C : Ctx α β) : Parser α → Span → List Call → Ending Val → Prop where
  | hit {p s k s'} : IsBasic p → Matches C.eqv p (s.elems C.mem) k → s.Advanced k s' →
      Gives C p s [] (.ok (.span ⟨s.ptr, k⟩) s')
  | miss {p s} : IsBasic p → (∀ k, ¬ Matches C.eqv p (s.elems C.mem) k) → Gives C p s [] .no
  | epsilon {s} : Gives C .epsilon s [] (.ok .unit s)
  | choice {ps is d s log o} : Recorded (ps.map (resultFor C)) is → IsDefault C (resultFor C (.choice ps)) d →
      GivesFirst C (distinct (ps.map (resultFor C))) d ps is s log o → Gives C (.choice ps) s log o
  | sequence {ps s log o} : GivesParts C ps s log o → Gives C (.sequence ps) s log (o.map sequenceValue)
  | maybe {p s log v s'} : Gives C p s log (.ok v s') →
      Gives C (.maybe p) s log (.ok (optionalValue (resultFor C p) (some v)) s')
  | maybeNot {p s log} : Gives C p s log .no →
      Gives C (.maybe p) s log (.ok (optionalValue (resultFor C p) none) s)
  | maybeThrows {p s log e} : Gives C p s log (.throws e) → Gives C (.maybe p) s log (.throws e)
  | exactly {p n s log o} : GivesTimes C p n s log o →
      Gives C (.exactly p n) s log (o.map (arrayValue (resultFor C p)))
  | zeroOrMore {p s log o} : GivesMany C p s log o → Gives C (.zeroOrMore p) s log (o.map (vectorValue (resultFor C p)))
  | oneOrMore {p s l v s1 log o} : Gives C p s l (.ok v s1) → GivesMany C p s1 log o →
      Gives C (.oneOrMore p) s (l ++ log) (o.map fun vs => vectorValue (resultFor C p) (v :: vs))
  | oneStops {p s log o o'} : Gives C p s log o → StopsLike o o' → Gives C (.oneOrMore p) s log o'
  | delimit {p d s l v s1 log o} : Gives C p s l (.ok v s1) → GivesPairs C d p s1 log o →
      Gives C (.delimit p d) s (l ++ log)
        (o.map fun xs => delimitValue (resultFor C p) (resultFor C d) (v :: xs.map (·.2)) (xs.map (·.1)))
  | delimitStops {p d s log o o'} : Gives C p s log o → StopsLike o o' → Gives C (.delimit p d) s log o'
  | ignore {p s k s'} : Peg C.eqv (fun k => (C.custom k).body) p (s.elems C.mem) (some k) → s.Advanced k s' →
      Gives C (.ignore p) s [] (.ok .unit s')
  | ignoreNot {p s} : Peg C.eqv (fun k => (C.custom k).body) p (s.elems C.mem) none → Gives C (.ignore p) s [] .no
  | complete {p s log v s'} : Gives C p s log (.ok v s') → s'.len = 0 → Gives C (.complete p) s log (.ok v s')
  | completeShort {p s log v s'} : Gives C p s log (.ok v s') → s'.len ≠ 0 → Gives C (.complete p) s log .no
  | completeStops {p s log o o'} : Gives C p s log o → StopsLike o o' → Gives C (.complete p) s log o'
  | join {p s log v s'} : Gives C p s log (.ok v s') → Contiguous (nonEmpty (joinLeaves C v)) →
      Gives C (.join p) s log (.ok (.span (cover s' (nonEmpty (joinLeaves C v)))) s')
  | joinGap {p s log v s'} : Gives C p s log (.ok v s') → ¬ Contiguous (nonEmpty (joinLeaves C v)) →
      Gives C (.join p) s log .no
  | joinStops {p s log o o'} : Gives C p s log o → StopsLike o o' → Gives C (.join p) s log o'
  | map {p f s l v s' l' x} : Gives C p s l (.ok v s') → Invokes C f (argsOf (resultFor C p) v) l' (.ok x) →
      Gives C (.map p f) s (l ++ l') (.ok (returned (resultFor C (.map p f)) x) s')
  | mapThrows {p f s l v s' l' e} : Gives C p s l (.ok v s') →
      Invokes C f (argsOf (resultFor C p) v) l' (.error e) → Gives C (.map p f) s (l ++ l') (.throws e)
  | mapStops {p f s log o o'} : Gives C p s log o → StopsLike o o' → Gives C (.map p f) s log o'
  | filter {p f s l v s' l' x} : Gives C p s l (.ok v s') → Invokes C f (argsOf (resultFor C p) v) l' (.ok x) →
      C.truthy x = true → Gives C (.filter p f) s (l ++ l') (.ok v s')
  | filterOut {p f s l v s' l' x} : Gives C p s l (.ok v s') → Invokes C f (argsOf (resultFor C p) v) l' (.ok x) →
      C.truthy x = false → Gives C (.filter p f) s (l ++ l') .no
  | filterThrows {p f s l v s' l' e} : Gives C p s l (.ok v s') →
      Invokes C f (argsOf (resultFor C p) v) l' (.error e) → Gives C (.filter p f) s (l ++ l') (.throws e)
  | filterStops {p f s log o o'} : Gives C p s log o → StopsLike o o' → Gives C (.filter p f) s log o'
  | named {p n s log o} : Gives C p s log o → Gives C (.named p n) s log o
  | custom {k s log o} : ¬ Pretends C k → Gives C (C.custom k).body s log o →
      Gives C (.custom k) s log (o.map (converted C (resultFor C (C.custom k).body) (C.custom k).ty))
  | pretended {k g s log v s'} : Pretends C k →
      fromOptional C (resultFor C (C.custom k).body) (C.custom k).ty = some g →
      Gives C (C.custom k).body s log (.ok v s') → Gives C (.custom k) s log (.ok (g (some v)) s')
  | pretendedNot {k g s log} : Pretends C k →
      fromOptional C (resultFor C (C.custom k).body) (C.custom k).ty = some g →
      Gives C (C.custom k).body s log .no → Gives C (.custom k) s log (.ok (g none) s)
  | pretendedThrows {k s log e} : Pretends C k → Gives C (C.custom k).body s log (.throws e) →
      Gives C (.custom k) s log (.throws e)

/-- The alternatives of a choice between the types `us`, with what is recorded for each: one with an index is parsed, one
without is looked ahead and gives `d`. -/
inductive GivesFirst (C : Ctx α β) :
    List Ty → Val → List (Parser α) → List (Option Nat) → Span → List Call → Ending Val → Prop where
  | nil {us d s} : GivesFirst C us d [] [] s [] .no
  | looked {us d p ps is s k s'} : Peg C.eqv (fun k => (C.custom k).body) p (s.elems C.mem) (some k) →
      s.Advanced k s' → GivesFirst C us d (p :: ps) (none :: is) s [] (.ok d s')
  | lookedNot {us d p ps is s log o} : Peg C.eqv (fun k => (C.custom k).body) p (s.elems C.mem) none →
      GivesFirst C us d ps is s log o → GivesFirst C us d (p :: ps) (none :: is) s log o
  | parsed {us d p ps i is s log v s'} : Gives C p s log (.ok v s') →
      GivesFirst C us d (p :: ps) (some i :: is) s log (.ok (alternativeValue C us i (resultFor C p) v) s')
  | parsedNot {us d p ps i is s l log o} : Gives C p s l .no → GivesFirst C us d ps is s log o →
      GivesFirst C us d (p :: ps) (some i :: is) s (l ++ log) o
  | throws {us d p ps i is s log e} : Gives C p s log (.throws e) →
      GivesFirst C us d (p :: ps) (some i :: is) s log (.throws e)

/-- The parts of a sequence one after the other, and the values of those that have one; those that have none are looked
ahead. -/
inductive GivesParts (C : Ctx α β) : List (Parser α) → Span → List Call → Ending (List Val) → Prop where
  | nil {s} : GivesParts C [] s [] (.ok [] s)
  | value {p ps s l v s1 log o} : resultFor C p ≠ .void → Gives C p s l (.ok v s1) → GivesParts C ps s1 log o →
      GivesParts C (p :: ps) s (l ++ log) (o.map (v :: ·))
  | stops {p ps s log o o'} : resultFor C p ≠ .void → Gives C p s log o → StopsLike o o' →
      GivesParts C (p :: ps) s log o'
  | void {p ps s k s1 log o} : resultFor C p = .void →
      Peg C.eqv (fun k => (C.custom k).body) p (s.elems C.mem) (some k) → s.Advanced k s1 →
      GivesParts C ps s1 log o → GivesParts C (p :: ps) s log o
  | voidNot {p ps s} : resultFor C p = .void → Peg C.eqv (fun k => (C.custom k).body) p (s.elems C.mem) none →
      GivesParts C (p :: ps) s [] .no

/-- The parser `n` times. -/
inductive GivesTimes (C : Ctx α β) : Parser α → Nat → Span → List Call → Ending (List Val) → Prop where
  | zero {p s} : GivesTimes C p 0 s [] (.ok [] s)
  | more {p n s l v s1 log o} : Gives C p s l (.ok v s1) → GivesTimes C p n s1 log o →
      GivesTimes C p (n + 1) s (l ++ log) (o.map (v :: ·))
  | stops {p n s log o o'} : Gives C p s log o → StopsLike o o' → GivesTimes C p (n + 1) s log o'

/-- The parser as often as it succeeds. -/
inductive GivesMany (C : Ctx α β) : Parser α → Span → List Call → Ending (List Val) → Prop where
  | more {p s l v s1 log o} : Gives C p s l (.ok v s1) → GivesMany C p s1 log o →
      GivesMany C p s (l ++ log) (o.map (v :: ·))
  | over {p s log} : Gives C p s log .no → GivesMany C p s log (.ok [] s)
  | throws {p s log e} : Gives C p s log (.throws e) → GivesMany C p s log (.throws e)

/-- A delimiter `d` and an element `p` as often as both succeed; a delimiter that no element follows is given back. -/
inductive GivesPairs (C : Ctx α β) : Parser α → Parser α → Span → List Call → Ending (List (Val × Val)) → Prop where
  | more {d p s l x s1 l' v s2 log o} : Gives C d s l (.ok x s1) → Gives C p s1 l' (.ok v s2) →
      GivesPairs C d p s2 log o → GivesPairs C d p s ((l ++ l') ++ log) (o.map ((x, v) :: ·))
  | noDelimiter {d p s log} : Gives C d s log .no → GivesPairs C d p s log (.ok [] s)
  | noElement {d p s l x s1 l'} : Gives C d s l (.ok x s1) → Gives C p s1 l' .no →
      GivesPairs C d p s (l ++ l') (.ok [] s)
  | delimiterThrows {d p s log e} : Gives C d s log (.throws e) → GivesPairs C d p s log (.throws e)
  | elementThrows {d p s l x s1 l' e} : Gives C d s l (.ok x s1) → Gives C p s1 l' (.throws e) →
      GivesPairs C d p s (l ++ l') (.throws e)
end

end Tok3n
