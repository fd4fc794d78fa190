import Verif.Proof.PegCalls
/-
Proofs for C65: upper bounds for the number of calls, one rule per parser.
-/

namespace Tok3n

variable {α β : Type} {C : Ctx α β}

/-- the outcome `o` takes at most `b` calls, the parser's own included -/
def AtMost (C : Ctx α β) (p : Parser α) (xs : List β) (o : Option Nat) (b : Nat) : Prop :=
  ∃ n, n + 1 ≤ b ∧ PegCalls C p xs n o

variable {p q d : Parser α} {ps qs : List (Parser α)} {xs : List β} {o : Option Nat} {a b c k j : Nat}

/-! ### The rules -/

theorem AtMost.mono (h : AtMost C p xs o a) (hb : a ≤ b) : AtMost C p xs o b := by
  obtain ⟨n, h1, h2⟩ := h; exact ⟨n, by omega, h2⟩
theorem AtMost.le (h : AtMost C p xs (some k) b) : k ≤ xs.length := by
  obtain ⟨n, h1, h2⟩ := h; exact h2.peg.le _ rfl
theorem am_custom (h : AtMost C (C.custom k).body xs o b) : AtMost C (.custom k) xs o (b + 1) := by
  obtain ⟨n, h1, h2⟩ := h; exact ⟨_, by omega, .custom h2⟩
theorem am_map {f} (h : AtMost C p xs o b) : AtMost C (.map p f) xs o (b + 1) := by
  obtain ⟨n, h1, h2⟩ := h; exact ⟨_, by omega, .map h2⟩
theorem am_ignore (h : AtMost C p xs o b) : AtMost C (.ignore p) xs o (b + 1) := by
  obtain ⟨n, h1, h2⟩ := h; exact ⟨_, by omega, .ignore h2⟩
theorem am_join (h : AtMost C p xs o b) : AtMost C (.join p) xs o (b + 1) := by
  obtain ⟨n, h1, h2⟩ := h
  cases hp : ownLoop C p
  · exact ⟨_, by omega, .join hp h2⟩
  · exact ⟨_, by omega, .joinOwn hp h2⟩
theorem am_hit (hp : IsBasic p) (h : Matches C.eqv p xs k) : AtMost C p xs (some k) 1 := ⟨_, Nat.le_refl 1, .hit hp h⟩
theorem am_miss (hp : IsBasic p) (h : ∀ k, ¬ Matches C.eqv p xs k) : AtMost C p xs none 1 :=
  ⟨_, Nat.le_refl 1, .miss hp h⟩
theorem am_epsilon : AtMost C .epsilon xs (some 0) 1 := ⟨_, Nat.le_refl 1, .epsilon⟩
theorem am_nil : AtMost C (.sequence []) xs (some 0) 1 := ⟨_, Nat.le_refl 1, .sequenceNil⟩
theorem am_more (h : AtMost C p xs (some k) a) (h' : AtMost C (.sequence ps) (xs.drop k) (some j) b) :
    AtMost C (.sequence (p :: ps)) xs (some (k + j)) (a + b) := by
  obtain ⟨n, h1, h2⟩ := h; obtain ⟨n', h3, h4⟩ := h'; exact ⟨_, by omega, .sequenceMore h2 h4⟩
theorem am_moreMiss (h : AtMost C p xs (some k) a) (h' : AtMost C (.sequence ps) (xs.drop k) none b) :
    AtMost C (.sequence (p :: ps)) xs none (a + b) := by
  obtain ⟨n, h1, h2⟩ := h; obtain ⟨n', h3, h4⟩ := h'; exact ⟨_, by omega, .sequenceMore h2 h4⟩
theorem am_stop (h : AtMost C p xs none a) : AtMost C (.sequence (p :: ps)) xs none (a + 1) := by
  obtain ⟨n, h1, h2⟩ := h; exact ⟨_, by omega, .sequenceMiss h2⟩
theorem am_choiceNil : AtMost C (.choice []) xs none 1 := ⟨_, Nat.le_refl 1, .choiceNil⟩
theorem am_choiceHit (h : AtMost C p xs (some k) a) : AtMost C (.choice (p :: ps)) xs (some k) (a + 1) := by
  obtain ⟨n, h1, h2⟩ := h; exact ⟨_, by omega, .choiceHit h2⟩
theorem am_choiceMiss (h : AtMost C p xs none a) (h' : AtMost C (.choice ps) xs o b) :
    AtMost C (.choice (p :: ps)) xs o (a + b) := by
  obtain ⟨n, h1, h2⟩ := h; obtain ⟨n', h3, h4⟩ := h'; exact ⟨_, by omega, .choiceMiss h2 h4⟩
theorem am_maybe (h : AtMost C p xs (some k) a) : AtMost C (.maybe p) xs (some k) (a + 1) := by
  obtain ⟨n, h1, h2⟩ := h; exact ⟨_, by omega, .maybeHit h2⟩
theorem am_maybeMiss (h : AtMost C p xs none a) : AtMost C (.maybe p) xs (some 0) (a + 1) := by
  obtain ⟨n, h1, h2⟩ := h; exact ⟨_, by omega, .maybeMiss h2⟩
theorem am_zeroStop (h : AtMost C p xs none a) : AtMost C (.zeroOrMore p) xs (some 0) (a + 1) := by
  obtain ⟨n, h1, h2⟩ := h; exact ⟨_, by omega, .zeroStop h2⟩
theorem am_zeroMore (h : AtMost C p xs (some k) a) (h' : AtMost C (.zeroOrMore p) (xs.drop k) (some j) b) :
    AtMost C (.zeroOrMore p) xs (some (k + j)) (a + b) := by
  obtain ⟨n, h1, h2⟩ := h; obtain ⟨n', h3, h4⟩ := h'; exact ⟨_, by omega, .zeroMore h2 h4⟩
theorem am_oneMiss (h : AtMost C p xs none a) : AtMost C (.oneOrMore p) xs none (a + 1) := by
  obtain ⟨n, h1, h2⟩ := h; exact ⟨_, by omega, .oneMiss h2⟩
theorem am_oneMore (h : AtMost C p xs (some k) a) (h' : AtMost C (.zeroOrMore p) (xs.drop k) (some j) b) :
    AtMost C (.oneOrMore p) xs (some (k + j)) (a + b) := by
  obtain ⟨n, h1, h2⟩ := h; obtain ⟨n', h3, h4⟩ := h'; exact ⟨_, by omega, .oneMore h2 h4⟩
theorem am_exactlyNil : AtMost C (.exactly p 0) xs (some 0) 1 := ⟨_, Nat.le_refl 1, .exactlyNil⟩
theorem am_exactlyMore {i : Nat} (h : AtMost C p xs (some k) a) (h' : AtMost C (.exactly p i) (xs.drop k) o b) :
    AtMost C (.exactly p (i + 1)) xs (o.map (k + ·)) (a + b) := by
  obtain ⟨n, h1, h2⟩ := h; obtain ⟨n', h3, h4⟩ := h'; exact ⟨_, by omega, .exactlyMore h2 h4⟩
theorem am_exactlyMiss {i : Nat} (h : AtMost C p xs none a) : AtMost C (.exactly p (i + 1)) xs none (a + 1) := by
  obtain ⟨n, h1, h2⟩ := h; exact ⟨_, by omega, .exactlyMiss h2⟩
theorem am_delimitMiss (h : AtMost C p xs none a) : AtMost C (.delimit p d) xs none (a + 1) := by
  obtain ⟨n, h1, h2⟩ := h; exact ⟨_, by omega, .delimitMiss h2⟩
theorem am_delimitStop (h : AtMost C p xs (some k) a) (h' : AtMost C d (xs.drop k) none b) :
    AtMost C (.delimit p d) xs (some k) (a + b + 1) := by
  obtain ⟨n, h1, h2⟩ := h; obtain ⟨n', h3, h4⟩ := h'; exact ⟨_, by omega, .delimitStop h2 h4⟩
theorem am_delimitLast (h : AtMost C p xs (some k) a) (h' : AtMost C d (xs.drop k) (some j) b)
    (h'' : AtMost C (.delimit p d) (xs.drop (k + j)) none c) : AtMost C (.delimit p d) xs (some k) (a + b + c) := by
  obtain ⟨n, h1, h2⟩ := h; obtain ⟨n', h3, h4⟩ := h'; obtain ⟨n'', h5, h6⟩ := h''
  exact ⟨_, by omega, .delimitLast h2 h4 h6⟩
theorem am_delimitMore {l : Nat} (h : AtMost C p xs (some k) a) (h' : AtMost C d (xs.drop k) (some j) b)
    (h'' : AtMost C (.delimit p d) (xs.drop (k + j)) (some l) c) :
    AtMost C (.delimit p d) xs (some (k + j + l)) (a + b + c) := by
  obtain ⟨n, h1, h2⟩ := h; obtain ⟨n', h3, h4⟩ := h'; obtain ⟨n'', h5, h6⟩ := h''
  exact ⟨_, by omega, .delimitMore h2 h4 h6⟩

end Tok3n
