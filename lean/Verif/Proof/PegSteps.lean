import Verif.Proof.PegCalls
/-
The calls counted as if each `join` called the parser in it.
-/

namespace Tok3n

variable {α β : Type} {C : Ctx α β}

/-- As `PegCalls`, but the specialisations of `join` are not treated differently. -/
inductive PegSteps (C : Ctx α β) : Parser α → List β → Nat → Option Nat → Prop where
  | hit {p xs k} : IsBasic p → Matches C.eqv p xs k → PegSteps C p xs 0 (some k)
  | miss {p xs} : IsBasic p → (∀ k, ¬ Matches C.eqv p xs k) → PegSteps C p xs 0 none
  | epsilon {xs} : PegSteps C .epsilon xs 0 (some 0)
  /-- the alternatives up to the first that succeeds -/
  | choiceNil {xs} : PegSteps C (.choice []) xs 0 none
  | choiceHit {p ps xs n k} : PegSteps C p xs n (some k) → PegSteps C (.choice (p :: ps)) xs (n + 1) (some k)
  | choiceMiss {p ps xs n m o} : PegSteps C p xs n none → PegSteps C (.choice ps) xs m o →
      PegSteps C (.choice (p :: ps)) xs (n + 1 + m) o
  /-- the parts up to the first that fails -/
  | sequenceNil {xs} : PegSteps C (.sequence []) xs 0 (some 0)
  | sequenceMore {p ps xs n m k o} : PegSteps C p xs n (some k) → PegSteps C (.sequence ps) (xs.drop k) m o →
      PegSteps C (.sequence (p :: ps)) xs (n + 1 + m) (o.map (k + ·))
  | sequenceMiss {p ps xs n} : PegSteps C p xs n none → PegSteps C (.sequence (p :: ps)) xs (n + 1) none
  | maybeHit {p xs n k} : PegSteps C p xs n (some k) → PegSteps C (.maybe p) xs (n + 1) (some k)
  | maybeMiss {p xs n} : PegSteps C p xs n none → PegSteps C (.maybe p) xs (n + 1) (some 0)
  | exactlyNil {p xs} : PegSteps C (.exactly p 0) xs 0 (some 0)
  | exactlyMore {p i xs n m k o} : PegSteps C p xs n (some k) → PegSteps C (.exactly p i) (xs.drop k) m o →
      PegSteps C (.exactly p (i + 1)) xs (n + 1 + m) (o.map (k + ·))
  | exactlyMiss {p i xs n} : PegSteps C p xs n none → PegSteps C (.exactly p (i + 1)) xs (n + 1) none
  /-- one more than there are matches -/
  | zeroStop {p xs n} : PegSteps C p xs n none → PegSteps C (.zeroOrMore p) xs (n + 1) (some 0)
  | zeroMore {p xs n m k j} : PegSteps C p xs n (some k) → PegSteps C (.zeroOrMore p) (xs.drop k) m (some j) →
      PegSteps C (.zeroOrMore p) xs (n + 1 + m) (some (k + j))
  | oneMiss {p xs n} : PegSteps C p xs n none → PegSteps C (.oneOrMore p) xs (n + 1) none
  | oneMore {p xs n m k j} : PegSteps C p xs n (some k) → PegSteps C (.zeroOrMore p) (xs.drop k) m (some j) →
      PegSteps C (.oneOrMore p) xs (n + 1 + m) (some (k + j))
  /-- an element and a delimiter in turn; a delimiter without an element after it is given back -/
  | delimitMiss {p d xs n} : PegSteps C p xs n none → PegSteps C (.delimit p d) xs (n + 1) none
  | delimitStop {p d xs n m k} : PegSteps C p xs n (some k) → PegSteps C d (xs.drop k) m none →
      PegSteps C (.delimit p d) xs (n + 1 + (m + 1)) (some k)
  | delimitLast {p d xs n m i k j} : PegSteps C p xs n (some k) → PegSteps C d (xs.drop k) m (some j) →
      PegSteps C (.delimit p d) (xs.drop (k + j)) i none →
      PegSteps C (.delimit p d) xs (n + 1 + (m + 1 + i)) (some k)
  | delimitMore {p d xs n m i k j l} : PegSteps C p xs n (some k) → PegSteps C d (xs.drop k) m (some j) →
      PegSteps C (.delimit p d) (xs.drop (k + j)) i (some l) →
      PegSteps C (.delimit p d) xs (n + 1 + (m + 1 + i)) (some (k + j + l))
  | completeHit {p xs n} : PegSteps C p xs n (some xs.length) → PegSteps C (.complete p) xs (n + 1) (some xs.length)
  | completeShort {p xs n k} : PegSteps C p xs n (some k) → k < xs.length → PegSteps C (.complete p) xs (n + 1) none
  | completeMiss {p xs n} : PegSteps C p xs n none → PegSteps C (.complete p) xs (n + 1) none
  | ignore {p xs n o} : PegSteps C p xs n o → PegSteps C (.ignore p) xs (n + 1) o
  | join {p xs n o} : PegSteps C p xs n o → PegSteps C (.join p) xs (n + 1) o
  | map {p f xs n o} : PegSteps C p xs n o → PegSteps C (.map p f) xs (n + 1) o
  | filter {p f xs n o} : PegSteps C p xs n o → PegSteps C (.filter p f) xs (n + 1) o
  | named {p m xs n o} : PegSteps C p xs n o → PegSteps C (.named p m) xs (n + 1) o
  | custom {k xs n o} : PegSteps C (C.custom k).body xs n o → PegSteps C (.custom k) xs (n + 1) o

theorem PegSteps.calls {p : Parser α} {xs : List β} {n o} (h : PegSteps C p xs n o) : ∃ m, m ≤ n ∧ PegCalls C p xs m o := by
  induction h with
  | hit h1 h2 => exact ⟨_, Nat.le_refl _, .hit h1 h2⟩
  | miss h1 h2 => exact ⟨_, Nat.le_refl _, .miss h1 h2⟩
  | epsilon => exact ⟨_, Nat.le_refl _, .epsilon⟩
  | choiceNil => exact ⟨_, Nat.le_refl _, .choiceNil⟩
  | choiceHit _ ih0 => obtain ⟨_, e0, h0⟩ := ih0; exact ⟨_, by omega, .choiceHit h0⟩
  | choiceMiss _ _ ih0 ih1 => obtain ⟨_, e0, h0⟩ := ih0; obtain ⟨_, e1, h1⟩ := ih1; exact ⟨_, by omega, .choiceMiss h0 h1⟩
  | sequenceNil => exact ⟨_, Nat.le_refl _, .sequenceNil⟩
  | sequenceMore _ _ ih0 ih1 => obtain ⟨_, e0, h0⟩ := ih0; obtain ⟨_, e1, h1⟩ := ih1; exact ⟨_, by omega, .sequenceMore h0 h1⟩
  | sequenceMiss _ ih0 => obtain ⟨_, e0, h0⟩ := ih0; exact ⟨_, by omega, .sequenceMiss h0⟩
  | maybeHit _ ih0 => obtain ⟨_, e0, h0⟩ := ih0; exact ⟨_, by omega, .maybeHit h0⟩
  | maybeMiss _ ih0 => obtain ⟨_, e0, h0⟩ := ih0; exact ⟨_, by omega, .maybeMiss h0⟩
  | exactlyNil => exact ⟨_, Nat.le_refl _, .exactlyNil⟩
  | exactlyMore _ _ ih0 ih1 => obtain ⟨_, e0, h0⟩ := ih0; obtain ⟨_, e1, h1⟩ := ih1; exact ⟨_, by omega, .exactlyMore h0 h1⟩
  | exactlyMiss _ ih0 => obtain ⟨_, e0, h0⟩ := ih0; exact ⟨_, by omega, .exactlyMiss h0⟩
  | zeroStop _ ih0 => obtain ⟨_, e0, h0⟩ := ih0; exact ⟨_, by omega, .zeroStop h0⟩
  | zeroMore _ _ ih0 ih1 => obtain ⟨_, e0, h0⟩ := ih0; obtain ⟨_, e1, h1⟩ := ih1; exact ⟨_, by omega, .zeroMore h0 h1⟩
  | oneMiss _ ih0 => obtain ⟨_, e0, h0⟩ := ih0; exact ⟨_, by omega, .oneMiss h0⟩
  | oneMore _ _ ih0 ih1 => obtain ⟨_, e0, h0⟩ := ih0; obtain ⟨_, e1, h1⟩ := ih1; exact ⟨_, by omega, .oneMore h0 h1⟩
  | delimitMiss _ ih0 => obtain ⟨_, e0, h0⟩ := ih0; exact ⟨_, by omega, .delimitMiss h0⟩
  | delimitStop _ _ ih0 ih1 => obtain ⟨_, e0, h0⟩ := ih0; obtain ⟨_, e1, h1⟩ := ih1; exact ⟨_, by omega, .delimitStop h0 h1⟩
  | delimitLast _ _ _ ih0 ih1 ih2 => obtain ⟨_, e0, h0⟩ := ih0; obtain ⟨_, e1, h1⟩ := ih1; obtain ⟨_, e2, h2⟩ := ih2; exact ⟨_, by omega, .delimitLast h0 h1 h2⟩
  | delimitMore _ _ _ ih0 ih1 ih2 => obtain ⟨_, e0, h0⟩ := ih0; obtain ⟨_, e1, h1⟩ := ih1; obtain ⟨_, e2, h2⟩ := ih2; exact ⟨_, by omega, .delimitMore h0 h1 h2⟩
  | completeHit _ ih0 => obtain ⟨_, e0, h0⟩ := ih0; exact ⟨_, by omega, .completeHit h0⟩
  | completeShort _ hk ih0 => obtain ⟨_, e0, h0⟩ := ih0; exact ⟨_, by omega, .completeShort h0 hk⟩
  | completeMiss _ ih0 => obtain ⟨_, e0, h0⟩ := ih0; exact ⟨_, by omega, .completeMiss h0⟩
  | ignore _ ih0 => obtain ⟨_, e0, h0⟩ := ih0; exact ⟨_, by omega, .ignore h0⟩
  | @join p _ _ _ _ ih0 =>
    obtain ⟨_, e0, h0⟩ := ih0
    cases hw : ownLoop C p
    · exact ⟨_, by omega, .join hw h0⟩
    · exact ⟨_, by omega, .joinOwn hw h0⟩
  | map _ ih0 => obtain ⟨_, e0, h0⟩ := ih0; exact ⟨_, by omega, .map h0⟩
  | filter _ ih0 => obtain ⟨_, e0, h0⟩ := ih0; exact ⟨_, by omega, .filter h0⟩
  | named _ ih0 => obtain ⟨_, e0, h0⟩ := ih0; exact ⟨_, by omega, .named h0⟩
  | custom _ ih0 => obtain ⟨_, e0, h0⟩ := ih0; exact ⟨_, by omega, .custom h0⟩

theorem PegCalls.steps {p : Parser α} {xs : List β} {n o} (h : PegCalls C p xs n o) : ∃ m, n ≤ m ∧ PegSteps C p xs m o := by
  induction h with
  | hit h1 h2 => exact ⟨_, Nat.le_refl _, .hit h1 h2⟩
  | miss h1 h2 => exact ⟨_, Nat.le_refl _, .miss h1 h2⟩
  | epsilon => exact ⟨_, Nat.le_refl _, .epsilon⟩
  | choiceNil => exact ⟨_, Nat.le_refl _, .choiceNil⟩
  | choiceHit _ ih0 => obtain ⟨_, e0, h0⟩ := ih0; exact ⟨_, by omega, .choiceHit h0⟩
  | choiceMiss _ _ ih0 ih1 => obtain ⟨_, e0, h0⟩ := ih0; obtain ⟨_, e1, h1⟩ := ih1; exact ⟨_, by omega, .choiceMiss h0 h1⟩
  | sequenceNil => exact ⟨_, Nat.le_refl _, .sequenceNil⟩
  | sequenceMore _ _ ih0 ih1 => obtain ⟨_, e0, h0⟩ := ih0; obtain ⟨_, e1, h1⟩ := ih1; exact ⟨_, by omega, .sequenceMore h0 h1⟩
  | sequenceMiss _ ih0 => obtain ⟨_, e0, h0⟩ := ih0; exact ⟨_, by omega, .sequenceMiss h0⟩
  | maybeHit _ ih0 => obtain ⟨_, e0, h0⟩ := ih0; exact ⟨_, by omega, .maybeHit h0⟩
  | maybeMiss _ ih0 => obtain ⟨_, e0, h0⟩ := ih0; exact ⟨_, by omega, .maybeMiss h0⟩
  | exactlyNil => exact ⟨_, Nat.le_refl _, .exactlyNil⟩
  | exactlyMore _ _ ih0 ih1 => obtain ⟨_, e0, h0⟩ := ih0; obtain ⟨_, e1, h1⟩ := ih1; exact ⟨_, by omega, .exactlyMore h0 h1⟩
  | exactlyMiss _ ih0 => obtain ⟨_, e0, h0⟩ := ih0; exact ⟨_, by omega, .exactlyMiss h0⟩
  | zeroStop _ ih0 => obtain ⟨_, e0, h0⟩ := ih0; exact ⟨_, by omega, .zeroStop h0⟩
  | zeroMore _ _ ih0 ih1 => obtain ⟨_, e0, h0⟩ := ih0; obtain ⟨_, e1, h1⟩ := ih1; exact ⟨_, by omega, .zeroMore h0 h1⟩
  | oneMiss _ ih0 => obtain ⟨_, e0, h0⟩ := ih0; exact ⟨_, by omega, .oneMiss h0⟩
  | oneMore _ _ ih0 ih1 => obtain ⟨_, e0, h0⟩ := ih0; obtain ⟨_, e1, h1⟩ := ih1; exact ⟨_, by omega, .oneMore h0 h1⟩
  | delimitMiss _ ih0 => obtain ⟨_, e0, h0⟩ := ih0; exact ⟨_, by omega, .delimitMiss h0⟩
  | delimitStop _ _ ih0 ih1 => obtain ⟨_, e0, h0⟩ := ih0; obtain ⟨_, e1, h1⟩ := ih1; exact ⟨_, by omega, .delimitStop h0 h1⟩
  | delimitLast _ _ _ ih0 ih1 ih2 => obtain ⟨_, e0, h0⟩ := ih0; obtain ⟨_, e1, h1⟩ := ih1; obtain ⟨_, e2, h2⟩ := ih2; exact ⟨_, by omega, .delimitLast h0 h1 h2⟩
  | delimitMore _ _ _ ih0 ih1 ih2 => obtain ⟨_, e0, h0⟩ := ih0; obtain ⟨_, e1, h1⟩ := ih1; obtain ⟨_, e2, h2⟩ := ih2; exact ⟨_, by omega, .delimitMore h0 h1 h2⟩
  | completeHit _ ih0 => obtain ⟨_, e0, h0⟩ := ih0; exact ⟨_, by omega, .completeHit h0⟩
  | completeShort _ hk ih0 => obtain ⟨_, e0, h0⟩ := ih0; exact ⟨_, by omega, .completeShort h0 hk⟩
  | completeMiss _ ih0 => obtain ⟨_, e0, h0⟩ := ih0; exact ⟨_, by omega, .completeMiss h0⟩
  | ignore _ ih0 => obtain ⟨_, e0, h0⟩ := ih0; exact ⟨_, by omega, .ignore h0⟩
  | join _ _ ih0 | joinOwn _ _ ih0 => obtain ⟨_, e0, h0⟩ := ih0; exact ⟨_, by omega, .join h0⟩
  | map _ ih0 => obtain ⟨_, e0, h0⟩ := ih0; exact ⟨_, by omega, .map h0⟩
  | filter _ ih0 => obtain ⟨_, e0, h0⟩ := ih0; exact ⟨_, by omega, .filter h0⟩
  | named _ ih0 => obtain ⟨_, e0, h0⟩ := ih0; exact ⟨_, by omega, .named h0⟩
  | custom _ ih0 => obtain ⟨_, e0, h0⟩ := ih0; exact ⟨_, by omega, .custom h0⟩

theorem PegSteps.peg {p : Parser α} {xs : List β} {n o} (h : PegSteps C p xs n o) : PegC C p xs o := by
  obtain ⟨_, _, h⟩ := h.calls
  exact h.peg

end Tok3n
