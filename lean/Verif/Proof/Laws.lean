import Verif.Proof.Peg
/-
Inversion of the grammar's rules, for the laws of C63.
-/

namespace Tok3n

variable {α β : Type}

section
variable {eqv : α → β → Bool} {body : Nat → Parser α} {p d : Parser α} {ps qs : List (Parser α)} {xs : List β}
  {o : Option Nat} {n : Nat}

theorem peg_epsilon : Peg eqv body .epsilon xs o ↔ o = some 0 := by
  constructor
  · intro h
    cases h with
    | hit h => exact h.elim
    | miss h => exact h.elim
    | epsilon => rfl
  · rintro rfl; exact .epsilon

theorem peg_choice_nil : Peg eqv body (.choice []) xs o ↔ o = none := by
  constructor
  · intro h
    cases h with
    | hit h => exact h.elim
    | miss h => exact h.elim
    | choiceNil => rfl
  · rintro rfl; exact .choiceNil

theorem peg_choice : Peg eqv body (.choice (p :: ps)) xs o ↔
    (∃ k, o = some k ∧ Peg eqv body p xs (some k)) ∨ Peg eqv body p xs none ∧ Peg eqv body (.choice ps) xs o := by
  constructor
  · intro h
    cases h with
    | hit h => exact h.elim
    | miss h => exact h.elim
    | choiceHit h => exact .inl ⟨_, rfl, h⟩
    | choiceMiss h h' => exact .inr ⟨h, h'⟩
  · rintro (⟨k, rfl, h⟩ | ⟨h, h'⟩)
    · exact .choiceHit h
    · exact .choiceMiss h h'

theorem peg_sequence_nil : Peg eqv body (.sequence []) xs o ↔ o = some 0 := by
  constructor
  · intro h
    cases h with
    | hit h => exact h.elim
    | miss h => exact h.elim
    | sequenceNil => rfl
  · rintro rfl; exact .sequenceNil

theorem peg_sequence : Peg eqv body (.sequence (p :: ps)) xs o ↔
    (∃ k o', o = o'.map (k + ·) ∧ Peg eqv body p xs (some k) ∧ Peg eqv body (.sequence ps) (xs.drop k) o') ∨
    o = none ∧ Peg eqv body p xs none := by
  constructor
  · intro h
    cases h with
    | hit h => exact h.elim
    | miss h => exact h.elim
    | sequenceMore h h' => exact .inl ⟨_, _, rfl, h, h'⟩
    | sequenceMiss h => exact .inr ⟨rfl, h⟩
  · rintro (⟨k, o', rfl, h, h'⟩ | ⟨rfl, h⟩)
    · exact .sequenceMore h h'
    · exact .sequenceMiss h

theorem peg_maybe : Peg eqv body (.maybe p) xs o ↔
    (∃ k, o = some k ∧ Peg eqv body p xs (some k)) ∨ o = some 0 ∧ Peg eqv body p xs none := by
  constructor
  · intro h
    cases h with
    | hit h => exact h.elim
    | miss h => exact h.elim
    | maybeHit h => exact .inl ⟨_, rfl, h⟩
    | maybeMiss h => exact .inr ⟨rfl, h⟩
  · rintro (⟨k, rfl, h⟩ | ⟨rfl, h⟩)
    · exact .maybeHit h
    · exact .maybeMiss h

theorem peg_exactly_zero : Peg eqv body (.exactly p 0) xs o ↔ o = some 0 := by
  constructor
  · intro h
    cases h with
    | hit h => exact h.elim
    | miss h => exact h.elim
    | exactlyNil => rfl
  · rintro rfl; exact .exactlyNil

theorem peg_exactly : Peg eqv body (.exactly p (n + 1)) xs o ↔
    (∃ k o', o = o'.map (k + ·) ∧ Peg eqv body p xs (some k) ∧ Peg eqv body (.exactly p n) (xs.drop k) o') ∨
    o = none ∧ Peg eqv body p xs none := by
  constructor
  · intro h
    cases h with
    | hit h => exact h.elim
    | miss h => exact h.elim
    | exactlyMore h h' => exact .inl ⟨_, _, rfl, h, h'⟩
    | exactlyMiss h => exact .inr ⟨rfl, h⟩
  · rintro (⟨k, o', rfl, h, h'⟩ | ⟨rfl, h⟩)
    · exact .exactlyMore h h'
    · exact .exactlyMiss h

theorem peg_zeroOrMore : Peg eqv body (.zeroOrMore p) xs o ↔
    (∃ k j, o = some (k + j) ∧ Peg eqv body p xs (some k) ∧ Peg eqv body (.zeroOrMore p) (xs.drop k) (some j)) ∨
    o = some 0 ∧ Peg eqv body p xs none := by
  constructor
  · intro h
    cases h with
    | hit h => exact h.elim
    | miss h => exact h.elim
    | zeroMore h h' => exact .inl ⟨_, _, rfl, h, h'⟩
    | zeroStop h => exact .inr ⟨rfl, h⟩
  · rintro (⟨k, j, rfl, h, h'⟩ | ⟨rfl, h⟩)
    · exact .zeroMore h h'
    · exact .zeroStop h

/-- a repetition never fails -/
theorem peg_zeroOrMore_none : ¬ Peg eqv body (.zeroOrMore p) xs none := by
  rw [peg_zeroOrMore]
  rintro (⟨k, j, h, -⟩ | ⟨h, -⟩) <;> cases h

theorem peg_oneOrMore : Peg eqv body (.oneOrMore p) xs o ↔
    (∃ k j, o = some (k + j) ∧ Peg eqv body p xs (some k) ∧ Peg eqv body (.zeroOrMore p) (xs.drop k) (some j)) ∨
    o = none ∧ Peg eqv body p xs none := by
  constructor
  · intro h
    cases h with
    | hit h => exact h.elim
    | miss h => exact h.elim
    | oneMore h h' => exact .inl ⟨_, _, rfl, h, h'⟩
    | oneMiss h => exact .inr ⟨rfl, h⟩
  · rintro (⟨k, j, rfl, h, h'⟩ | ⟨rfl, h⟩)
    · exact .oneMore h h'
    · exact .oneMiss h

theorem peg_delimit : Peg eqv body (.delimit p d) xs o ↔
    (∃ k j, o = some (k + j) ∧ Peg eqv body p xs (some k) ∧
      Peg eqv body (.zeroOrMore (.sequence [d, p])) (xs.drop k) (some j)) ∨
    o = none ∧ Peg eqv body p xs none := by
  constructor
  · intro h
    cases h with
    | hit h => exact h.elim
    | miss h => exact h.elim
    | delimitMore h h' => exact .inl ⟨_, _, rfl, h, h'⟩
    | delimitMiss h => exact .inr ⟨rfl, h⟩
  · rintro (⟨k, j, rfl, h, h'⟩ | ⟨rfl, h⟩)
    · exact .delimitMore h h'
    · exact .delimitMiss h

theorem peg_complete : Peg eqv body (.complete p) xs o ↔
    (o = some xs.length ∧ Peg eqv body p xs (some xs.length)) ∨
    o = none ∧ ((∃ k, k < xs.length ∧ Peg eqv body p xs (some k)) ∨ Peg eqv body p xs none) := by
  constructor
  · intro h
    cases h with
    | hit h => exact h.elim
    | miss h => exact h.elim
    | completeHit h => exact .inl ⟨rfl, h⟩
    | completeShort h h' => exact .inr ⟨rfl, .inl ⟨_, h', h⟩⟩
    | completeMiss h => exact .inr ⟨rfl, .inr h⟩
  · rintro (⟨rfl, h⟩ | ⟨rfl, ⟨k, hk, h⟩ | h⟩)
    · exact .completeHit h
    · exact .completeShort h hk
    · exact .completeMiss h

/-- sequences of sequences -/
theorem peg_sequence_append : Peg eqv body (.sequence (ps ++ qs)) xs o ↔
    Peg eqv body (.sequence [.sequence ps, .sequence qs]) xs o := by
  induction ps generalizing xs o with
  | nil =>
    rw [peg_sequence (p := .sequence []), List.nil_append]
    simp only [peg_sequence_nil, Option.some.injEq, reduceCtorEq, and_false, or_false]
    constructor
    · intro h
      refine ⟨0, o, by cases o <;> simp, rfl, ?_⟩
      rw [peg_sequence]
      cases o with
      | none => exact .inr ⟨rfl, by simpa using h⟩
      | some k => exact .inl ⟨k, some 0, by simp, by simpa using h, .sequenceNil⟩
    · rintro ⟨k, o', rfl, rfl, h⟩
      rw [peg_sequence] at h
      rcases h with ⟨k, o'', rfl, h, h'⟩ | ⟨rfl, h⟩
      · rw [peg_sequence_nil] at h'; subst h'
        simpa using h
      · simpa using h
  | cons p ps ih =>
    simp only [List.cons_append, peg_sequence (p := p), ih]
    simp only [peg_sequence (p := .sequence _), peg_sequence_nil]
    constructor
    · rintro (⟨k, o', rfl, h, ⟨j, o'', rfl, h', h''⟩ | ⟨rfl, h'⟩⟩ | ⟨rfl, h⟩)
      · refine .inl ⟨k + j, o'', by cases o'' <;> simp [Nat.add_assoc], ?_, ?_⟩
        · rw [peg_sequence]
          exact .inl ⟨k, some j, rfl, h, h'⟩
        · rw [← List.drop_drop]; exact h''
      · exact .inr ⟨rfl, .sequenceMore (o := none) h h'⟩
      · exact .inr ⟨rfl, .sequenceMiss h⟩
    · rintro (⟨k, o', rfl, h, h'⟩ | ⟨rfl, h⟩)
      · rw [peg_sequence] at h
        rcases h with ⟨j, o'', e, h1, h2⟩ | ⟨e, -⟩
        · cases o'' with
          | none => cases e
          | some i =>
            cases e
            refine .inl ⟨j, o'.map (i + ·), by cases o' <;> simp [Nat.add_assoc], h1, .inl ⟨i, o', rfl, h2, ?_⟩⟩
            rw [List.drop_drop]; exact h'
        · cases e
      · rw [peg_sequence] at h
        rcases h with ⟨j, o'', e, h1, h2⟩ | ⟨-, h⟩
        · cases o'' with
          | none => exact .inl ⟨j, none, rfl, h1, .inr ⟨rfl, h2⟩⟩
          | some i => cases e
        · exact .inr ⟨rfl, h⟩

theorem peg_choice_append : Peg eqv body (.choice (ps ++ qs)) xs o ↔
    (∃ k, o = some k ∧ Peg eqv body (.choice ps) xs (some k)) ∨
    Peg eqv body (.choice ps) xs none ∧ Peg eqv body (.choice qs) xs o := by
  induction ps with
  | nil => simp [peg_choice_nil]
  | cons p ps ih =>
    simp only [List.cons_append, peg_choice (p := p), ih]
    constructor
    · rintro (⟨k, rfl, h⟩ | ⟨h, ⟨k, rfl, h'⟩ | ⟨h', h''⟩⟩)
      · exact .inl ⟨k, rfl, .inl ⟨k, rfl, h⟩⟩
      · exact .inl ⟨k, rfl, .inr ⟨h, h'⟩⟩
      · exact .inr ⟨.inr ⟨h, h'⟩, h''⟩
    · rintro (⟨k, rfl, ⟨_, h, h'⟩ | ⟨h, h'⟩⟩ | ⟨⟨_, h, _⟩ | ⟨h, h'⟩, h''⟩)
      · cases h; exact .inl ⟨k, rfl, h'⟩
      · exact .inr ⟨h, .inl ⟨k, rfl, h'⟩⟩
      · cases h
      · exact .inr ⟨h, .inr ⟨h', h''⟩⟩

end

end Tok3n
