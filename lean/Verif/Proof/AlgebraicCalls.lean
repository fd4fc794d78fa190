import Verif.Proof.PegCalls
import Verif.Proof.Algebraic
/-
Proofs for C65: the algebraic example on an input it takes exponentially many calls to reject.
-/

namespace Tok3n.Algebraic

theorem unclosed_length (k : Nat) : (unclosed k).length = 4 * k := by
  induction k with
  | zero => rfl
  | succ k ih => simp only [unclosed, List.length_cons, ih]; omega

variable {m : Machine}

/-- the outcome `o` takes at least `b` calls -/
def AtLeast (m : Machine) (p : Parser Nat) (xs : List Nat) (o : Option Nat) (b : Nat) : Prop :=
  ∃ n, b ≤ n ∧ PegCalls (ctx m) p xs n o

variable {p q d : Parser Nat} {ps : List (Parser Nat)} {xs : List Nat} {o : Option Nat} {a b c k j : Nat}

/-! ### The rules -/

theorem AtLeast.mono (h : AtLeast m p xs o b) (hb : a ≤ b) : AtLeast m p xs o a := by
  obtain ⟨n, h1, h2⟩ := h; exact ⟨n, by omega, h2⟩
theorem al_custom (h : AtLeast m ((ctx m).custom k).body xs o b) : AtLeast m (.custom k) xs o b := by
  obtain ⟨n, h1, h2⟩ := h; exact ⟨_, by omega, .custom h2⟩
theorem al_map {f} (h : AtLeast m p xs o b) : AtLeast m (.map p f) xs o b := by
  obtain ⟨n, h1, h2⟩ := h; exact ⟨_, by omega, .map h2⟩
theorem al_ignore (h : AtLeast m p xs o b) : AtLeast m (.ignore p) xs o b := by
  obtain ⟨n, h1, h2⟩ := h; exact ⟨_, by omega, .ignore h2⟩
theorem al_hit (hp : IsBasic p) (h : Matches (· == ·) p xs k) : AtLeast m p xs (some k) 0 := ⟨_, Nat.le_refl 0, .hit hp h⟩
theorem al_miss (hp : IsBasic p) (h : ∀ k, ¬ Matches (· == ·) p xs k) : AtLeast m p xs none 0 :=
  ⟨_, Nat.le_refl 0, .miss hp h⟩
theorem al_join (hp : ownLoop (ctx m) p = false) (h : AtLeast m p xs o b) : AtLeast m (.join p) xs o b := by
  obtain ⟨n, h1, h2⟩ := h; exact ⟨_, by omega, .join hp h2⟩
theorem al_joinAny (h : AtLeast m p xs o b) : AtLeast m (.join p) xs o 0 := by
  obtain ⟨n, h1, h2⟩ := h
  cases hp : ownLoop (ctx m) p
  · exact ⟨_, Nat.zero_le _, .join hp h2⟩
  · exact ⟨_, Nat.zero_le _, .joinOwn hp h2⟩
theorem al_nil : AtLeast m (.sequence []) xs (some 0) 0 := ⟨_, Nat.le_refl 0, .sequenceNil⟩
theorem al_more (h : AtLeast m p xs (some k) a) (h' : AtLeast m (.sequence ps) (xs.drop k) o b) :
    AtLeast m (.sequence (p :: ps)) xs (o.map (k + ·)) (a + b) := by
  obtain ⟨n, h1, h2⟩ := h; obtain ⟨n', h3, h4⟩ := h'; exact ⟨_, by omega, .sequenceMore h2 h4⟩
theorem al_stop (h : AtLeast m p xs none a) : AtLeast m (.sequence (p :: ps)) xs none a := by
  obtain ⟨n, h1, h2⟩ := h; exact ⟨_, by omega, .sequenceMiss h2⟩
theorem al_choiceNil : AtLeast m (.choice []) xs none 0 := ⟨_, Nat.le_refl 0, .choiceNil⟩
theorem al_choiceHit (h : AtLeast m p xs (some k) a) : AtLeast m (.choice (p :: ps)) xs (some k) a := by
  obtain ⟨n, h1, h2⟩ := h; exact ⟨_, by omega, .choiceHit h2⟩
theorem al_choiceMiss (h : AtLeast m p xs none a) (h' : AtLeast m (.choice ps) xs o b) :
    AtLeast m (.choice (p :: ps)) xs o (a + b) := by
  obtain ⟨n, h1, h2⟩ := h; obtain ⟨n', h3, h4⟩ := h'; exact ⟨_, by omega, .choiceMiss h2 h4⟩
theorem al_maybeMiss (h : AtLeast m p xs none a) : AtLeast m (.maybe p) xs (some 0) a := by
  obtain ⟨n, h1, h2⟩ := h; exact ⟨_, by omega, .maybeMiss h2⟩
theorem al_zeroStop (h : AtLeast m p xs none a) : AtLeast m (.zeroOrMore p) xs (some 0) a := by
  obtain ⟨n, h1, h2⟩ := h; exact ⟨_, by omega, .zeroStop h2⟩
theorem al_oneMiss (h : AtLeast m p xs none a) : AtLeast m (.oneOrMore p) xs none a := by
  obtain ⟨n, h1, h2⟩ := h; exact ⟨_, by omega, .oneMiss h2⟩
theorem al_one (h : AtLeast m p xs (some k) a) (h' : AtLeast m (.zeroOrMore p) (xs.drop k) (some j) b) :
    AtLeast m (.oneOrMore p) xs (some (k + j)) (a + b) := by
  obtain ⟨n, h1, h2⟩ := h; obtain ⟨n', h3, h4⟩ := h'; exact ⟨_, by omega, .oneMore h2 h4⟩
theorem al_delimitMiss (h : AtLeast m p xs none a) : AtLeast m (.delimit p d) xs none a := by
  obtain ⟨n, h1, h2⟩ := h; exact ⟨_, by omega, .delimitMiss h2⟩
theorem al_delimitStop (h : AtLeast m p xs (some k) a) (h' : AtLeast m d (xs.drop k) none b) :
    AtLeast m (.delimit p d) xs (some k) (a + b) := by
  obtain ⟨n, h1, h2⟩ := h; obtain ⟨n', h3, h4⟩ := h'; exact ⟨_, by omega, .delimitStop h2 h4⟩
theorem al_delimitLast (h : AtLeast m p xs (some k) a) (h' : AtLeast m d (xs.drop k) (some j) b)
    (h'' : AtLeast m (.delimit p d) (xs.drop (k + j)) none c) : AtLeast m (.delimit p d) xs (some k) (a + c) := by
  obtain ⟨n, h1, h2⟩ := h; obtain ⟨n', h3, h4⟩ := h'; obtain ⟨n'', h5, h6⟩ := h''
  exact ⟨_, by omega, .delimitLast h2 h4 h6⟩
theorem al_completeMiss (h : AtLeast m p xs none a) : AtLeast m (.complete p) xs none a := by
  obtain ⟨n, h1, h2⟩ := h; exact ⟨_, by omega, .completeMiss h2⟩

/-! ### Characters -/

theorem al_any {l : List Nat} {x : Nat} (h : x ∈ l) : AtLeast m (.anyOf l) (x :: xs) (some 1) 0 :=
  al_hit trivial ⟨rfl, x, xs, rfl, x, h, by simp⟩
theorem al_notAny {l : List Nat} (h : ∀ x ∈ xs.head?, x ∉ l) : AtLeast m (.anyOf l) xs none 0 :=
  al_miss trivial (by
    rintro k ⟨-, x, rest, rfl, a, ha, he⟩
    simp only [beq_iff_eq] at he
    subst he
    exact h a (by simp) ha)
theorem al_one_char {x : Nat} : AtLeast m (.allOf [x]) (x :: xs) (some 1) 0 :=
  al_hit trivial ⟨rfl, [x], xs, rfl, .cons (by simp) .nil⟩
theorem al_not_char {c : Nat} (h : ∀ x ∈ xs.head?, x ≠ c) : AtLeast m (.allOf [c]) xs none 0 :=
  al_miss trivial (by
    rintro k ⟨-, front, rest, rfl, hf⟩
    cases hf with
    | cons h1 h2 =>
      cases h2
      simp only [beq_iff_eq] at h1
      exact h _ (by simp) h1.symm)

/-- nothing to skip -/
theorem al_noWs (h : ∀ x ∈ xs.head?, x ∉ [9, 10, 13, 32]) : AtLeast m wsP xs (some 0) 0 :=
  al_ignore (al_zeroStop (al_notAny h))

/-! ### The parts -/

theorem al_arg {i : Nat} (h : ∀ x ∈ xs.head?, x ∉ [9, 10, 13, 32]) (h' : AtLeast m (.custom i) xs (some k) b) :
    AtLeast m (argP i) xs (some k) b := by
  have := al_more (al_noWs h) (al_more h' al_nil)
  simpa using this
theorem al_noArg {i : Nat} (h : ∀ x ∈ xs.head?, x ∉ [9, 10, 13, 32]) (h' : AtLeast m (.custom i) xs none b) :
    AtLeast m (argP i) xs none (b + 1) := by
  obtain ⟨n, h1, h2⟩ := al_noWs (m := m) h
  obtain ⟨n', h3, h4⟩ := h'
  exact ⟨_, by omega, .sequenceMore (o := none) h2 (.sequenceMiss h4)⟩
theorem al_op {l : List Nat} {x : Nat} (h : x ∉ [9, 10, 13, 32]) (h' : x ∈ l) :
    AtLeast m (opP l) (x :: xs) (some 1) 0 := by
  have := al_more (m := m) (xs := x :: xs) (al_noWs (by simpa using h)) (al_more (al_map (f := .construct (.user 1)) (al_any h')) al_nil)
  simpa using this
theorem al_noOp {l : List Nat} (h : ∀ x ∈ xs.head?, x ∉ [9, 10, 13, 32]) (h' : ∀ x ∈ xs.head?, x ∉ l) :
    AtLeast m (opP l) xs none 0 := by
  have := al_more (m := m) (al_noWs h) (al_stop (ps := []) (al_map (f := .construct (.user 1)) (al_notAny h')))
  simpa using this

/-- `1` before a minus sign -/
theorem al_number : AtLeast m (.custom 0) (49 :: 45 :: xs) (some 1) 0 := by
  refine al_custom ?_
  show AtLeast m numberBody _ _ _
  rw [numberBody_eq]
  have h1 : AtLeast m integerP (49 :: 45 :: xs) (some 1) 0 :=
    al_joinAny (al_one (j := 0) (al_any (by decide)) (al_zeroStop (al_notAny (by simp [Json.digitClass]))))
  have h2 : AtLeast m (.maybe fractionP) (45 :: xs) (some 0) 0 :=
    al_maybeMiss (al_join rfl (al_stop (al_ignore (al_not_char (by simp)))))
  have h3 : AtLeast m (.maybe exponentP) (45 :: xs) (some 0) 0 :=
    al_maybeMiss (al_join rfl (al_stop (al_ignore (al_notAny (by simp)))))
  have := al_more h1 (al_more h2 (al_more h3 al_nil))
  exact al_map (by simpa using this)

/-- no number -/
theorem al_noNumber (h : ∀ x ∈ xs.head?, x ∉ Json.digitClass) : AtLeast m (.custom 0) xs none 0 := by
  refine al_custom ?_
  show AtLeast m numberBody _ _ _
  rw [numberBody_eq]
  exact al_map (al_stop (al_joinAny (al_oneMiss (al_notAny h))))

/-- an operand before a minus sign is a factor and a term of its own -/
theorem al_term (h : ∀ x ∈ xs.head?, x ∉ [9, 10, 13, 32]) (h' : AtLeast m (.custom 1) xs (some k) b)
    (hd : (xs.drop k).head? = some 45) : AtLeast m (argP 3) xs (some k) b := by
  have op : ∀ {l : List Nat}, 45 ∉ l → AtLeast m (opP l) (xs.drop k) none 0 := fun hl =>
    al_noOp (by rw [hd]; simp) (by rw [hd]; simpa using hl)
  refine al_arg h (al_custom ?_)
  show AtLeast m termBody _ _ _
  rw [termBody_eq]
  refine al_delimitStop (a := b) (b := 0) (al_arg h (al_custom ?_)) (op (by simp))
  show AtLeast m factorBody _ _ _
  rw [factorBody_eq]
  exact al_delimitStop (a := b) (b := 0) (al_arg h h') (al_ignore (op (by simp)))

theorem al_noTerm (h : ∀ x ∈ xs.head?, x ∉ [9, 10, 13, 32]) (h' : AtLeast m (.custom 1) xs none b) :
    AtLeast m (argP 3) xs none (b + 1) := by
  refine al_noArg h (al_custom ?_)
  show AtLeast m termBody _ _ _
  rw [termBody_eq]
  refine al_delimitMiss (AtLeast.mono (al_noArg (b := b) h (al_custom ?_)) (by omega))
  show AtLeast m factorBody _ _ _
  rw [factorBody_eq]
  exact al_delimitMiss ((al_noArg h h').mono (by omega))

/-- an operand and a minus sign without an operand behind it -/
theorem al_expr (h : ∀ x ∈ xs.head?, x ∉ [9, 10, 13, 32]) (h' : AtLeast m (.custom 1) xs (some k) b) {ys : List Nat}
    (hd : xs.drop k = 45 :: ys) (hf : AtLeast m (argP 3) ys none c) : AtLeast m (.custom 4) xs (some k) (b + c) := by
  refine al_custom ?_
  show AtLeast m exprBody _ _ _
  rw [exprBody_eq]
  refine al_delimitLast (b := 0) (j := 1) (al_term h h' (by rw [hd]; rfl)) (by rw [hd]; exact al_op (by simp) (by simp)) ?_
  rw [← List.drop_drop, hd]
  exact al_delimitMiss hf

/-- Each level tries the same operand twice: once for the expression behind the unary minus, and once for the one in
brackets. -/
theorem unclosed_fails (k : Nat) : AtLeast m (argP 3) (unclosed k) none (2 ^ k) := by
  induction k with
  | zero =>
    exact al_noTerm (m := m) (xs := []) (b := 0) (by simp) (al_custom (by
      show AtLeast m powtermBody _ _ _
      rw [powtermBody_eq]
      exact al_map (al_choiceMiss (a := 0) (b := 0) (al_map (al_stop (al_ignore (al_not_char (by simp)))))
        (al_choiceMiss (a := 0) (b := 0) (al_map (al_stop (al_ignore (al_not_char (by simp)))))
          (al_choiceMiss (a := 0) (b := 0) (al_noNumber (by simp)) al_choiceNil)))))
  | succ k ih =>
    -- the number
    have h1 : AtLeast m (.custom 1) (49 :: 45 :: unclosed k) (some 1) 0 := al_custom (by
      show AtLeast m powtermBody _ _ _
      rw [powtermBody_eq]
      exact al_map (al_choiceMiss (a := 0) (b := 0) (al_map (al_stop (al_ignore (al_not_char (by simp)))))
        (al_choiceMiss (a := 0) (b := 0) (al_map (al_stop (al_ignore (al_not_char (by simp)))))
          (al_choiceHit al_number))))
    have h2 := al_expr (by simp) h1 (ys := unclosed k) rfl ih
    -- the negated number
    have h3 : AtLeast m (.custom 1) (45 :: 49 :: 45 :: unclosed k) (some 2) (2 ^ k) := al_custom (by
      show AtLeast m powtermBody _ _ _
      rw [powtermBody_eq]
      have := al_more (m := m) (xs := 45 :: 49 :: 45 :: unclosed k) (al_ignore al_one_char)
        (al_more (al_noWs (by simp)) (al_more h2 al_nil))
      exact (al_map (al_choiceMiss (a := 0) (al_map (al_stop (al_ignore (al_not_char (by simp)))))
        (al_choiceHit (al_map this)))).mono (by omega))
    have h4 := al_expr (by simp) h3 (ys := unclosed k) rfl ih
    -- the bracket that is not closed
    refine (al_noTerm (b := 2 ^ (k + 1)) (by simp [unclosed]) (al_custom ?_)).mono (by omega)
    show AtLeast m powtermBody _ _ _
    rw [powtermBody_eq]
    have := al_more (m := m) (xs := 40 :: 45 :: 49 :: 45 :: unclosed k) (al_ignore al_one_char)
      (al_more (al_noWs (by simp)) (al_more h4 (al_more (al_noWs (by simp))
        (al_stop (ps := []) (al_ignore (al_not_char (c := 41) (by simp)))))))
    exact (al_map (al_choiceMiss (al_map this)
      (al_choiceMiss (a := 0) (b := 0) (al_map (al_stop (al_ignore (al_not_char (by simp [unclosed])))))
        (al_choiceMiss (a := 0) (b := 0) (al_noNumber (by simp [unclosed])) al_choiceNil)))).mono (by
          rw [Nat.pow_succ]; omega)

theorem unclosed_input (k : Nat) : AtLeast m input (unclosed k) none (2 ^ k) := by
  refine al_custom ?_
  show AtLeast m inputBody _ _ _
  rw [inputBody_eq]
  have h : AtLeast m (.custom 4) (unclosed k) none (2 ^ k) := al_custom (by
    show AtLeast m exprBody _ _ _
    rw [exprBody_eq]
    exact al_delimitMiss (unclosed_fails k))
  have := al_more (m := m) (xs := unclosed k) (al_noWs (by cases k <;> simp [unclosed])) (al_stop (ps := [wsP]) h)
  exact al_completeMiss (this.mono (by omega))

end Tok3n.Algebraic
