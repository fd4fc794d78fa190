import Verif.Proof.CallRules
import Verif.Proof.JsonParts
/-
Proofs for C65: the JSON example takes linearly many calls.
-/

namespace Tok3n.Json

variable {m : Machine}

variable {p q d : Parser Nat} {ps qs : List (Parser Nat)} {xs : List Nat} {o : Option Nat} {a b c k j : Nat}

theorem am_hit (hp : IsBasic p) (h : Matches (· == ·) p xs k) : AtMost (ctx m) p xs (some k) 1 := Tok3n.am_hit hp h
theorem am_miss (hp : IsBasic p) (h : ∀ k, ¬ Matches (· == ·) p xs k) : AtMost (ctx m) p xs none 1 := Tok3n.am_miss hp h

/-! ### Parts that take a bounded number of calls -/

/-- at most `c` calls on any input -/
def Const (m : Machine) (p : Parser Nat) (c : Nat) : Prop := ∀ xs, ∃ o, AtMost (ctx m) p xs o c
/-- the same, and a success consumes something -/
def Const1 (m : Machine) (p : Parser Nat) (c : Nat) : Prop := ∀ xs, ∃ o, AtMost (ctx m) p xs o c ∧ ∀ k, o = some k → 1 ≤ k

theorem Const1.const (h : Const1 m p c) : Const m p c := fun xs => by
  obtain ⟨o, h, -⟩ := h xs; exact ⟨o, h⟩

theorem basic_total (hp : IsBasic p) (hl : ∀ xs k, Matches (· == ·) p xs k → 1 ≤ k) : Const1 m p 1 := fun xs => by
  by_cases h : ∃ k, Matches (· == ·) p xs k
  · obtain ⟨k, h⟩ := h
    exact ⟨_, am_hit hp h, fun _ e => by cases e; exact hl _ _ h⟩
  · exact ⟨_, am_miss hp fun k hk => h ⟨k, hk⟩, nofun⟩

theorem const_any {l : List Nat} : Const1 m (.anyOf l) 1 := basic_total trivial fun _ _ h => by rw [h.1]
theorem const_none {l : List Nat} : Const1 m (.noneOf l) 1 := basic_total trivial fun _ _ h => by rw [h.1]
theorem const_all {x : Nat} {l : List Nat} : Const1 m (.allOf (x :: l)) 1 := basic_total trivial fun _ _ h => by
  rw [h.1]; simp
theorem const_nil : Const m (.sequence []) 1 := fun _ => ⟨_, am_nil⟩
theorem const_cons (h : Const m p a) (h' : Const m (.sequence ps) b) (hb : 1 ≤ b) : Const m (.sequence (p :: ps)) (a + b) := fun xs => by
  obtain ⟨o, ho⟩ := h xs
  cases o with
  | none => exact ⟨_, (am_stop ho).mono (by omega)⟩
  | some k =>
    obtain ⟨o, ho'⟩ := h' (xs.drop k)
    cases o with
    | none => exact ⟨_, am_moreMiss ho ho'⟩
    | some j => exact ⟨_, am_more ho ho'⟩
theorem const1_cons (h : Const1 m p a) (h' : Const m (.sequence ps) b) (hb : 1 ≤ b) :
    Const1 m (.sequence (p :: ps)) (a + b) := fun xs => by
  obtain ⟨o, ho, h1⟩ := h xs
  cases o with
  | none => exact ⟨_, (am_stop ho).mono (by omega), nofun⟩
  | some k =>
    have := h1 k rfl
    obtain ⟨o, ho'⟩ := h' (xs.drop k)
    cases o with
    | none => exact ⟨_, am_moreMiss ho ho', nofun⟩
    | some j => exact ⟨_, am_more ho ho', fun _ e => by cases e; omega⟩
theorem const1_choiceNil : Const1 m (.choice []) 1 := fun _ => ⟨_, am_choiceNil, nofun⟩
theorem const1_choice (h : Const1 m p a) (h' : Const1 m (.choice ps) b) (hb : 1 ≤ b) :
    Const1 m (.choice (p :: ps)) (a + b) := fun xs => by
  obtain ⟨o, ho, h1⟩ := h xs
  cases o with
  | none =>
    obtain ⟨o, ho', h2⟩ := h' xs
    exact ⟨_, am_choiceMiss ho ho', h2⟩
  | some k => exact ⟨_, (am_choiceHit ho).mono (by omega), h1⟩
theorem const1_join (h : Const1 m p a) : Const1 m (.join p) (a + 1) := fun xs => by
  obtain ⟨o, ho, h1⟩ := h xs; exact ⟨_, am_join ho, h1⟩
theorem const_exactly (h : Const m p a) (ha : 1 ≤ a) (i : Nat) : Const m (.exactly p i) (i * a + 1) := by
  induction i with
  | zero => exact fun _ => ⟨_, am_exactlyNil.mono (by omega)⟩
  | succ i ih =>
    intro xs
    rw [Nat.succ_mul]
    obtain ⟨o, ho⟩ := h xs
    cases o with
    | none => exact ⟨_, (am_exactlyMiss ho).mono (by omega)⟩
    | some k =>
      obtain ⟨o, ho'⟩ := ih (xs.drop k)
      exact ⟨_, (am_exactlyMore ho ho').mono (by omega)⟩

/-- a repetition of such a part -/
theorem many (h : Const1 m p c) (hc : 1 ≤ c) : ∀ xs, ∃ k, AtMost (ctx m) (.zeroOrMore p) xs (some k) (c * (k + 1) + 1) := by
  intro xs
  induction hn : xs.length using Nat.strongRecOn generalizing xs with
  | _ n ih =>
    obtain ⟨o, ho, h1⟩ := h xs
    cases o with
    | none => exact ⟨0, (am_zeroStop ho).mono (by omega)⟩
    | some k =>
      have hk := h1 k rfl
      have hl := ho.le
      obtain ⟨j, hj⟩ := ih (xs.drop k).length (by rw [List.length_drop]; omega) (xs.drop k) rfl
      refine ⟨k + j, (am_zeroMore ho hj).mono ?_⟩
      have : c * 1 ≤ c * k := Nat.mul_le_mul_left c hk
      have e1 : c * (k + j + 1) = c * k + c * (j + 1) := by rw [← Nat.mul_add]; congr 1
      omega

/-! ### Characters and white space -/

theorem am_notAny {l : List Nat} (h : ∀ x ∈ xs.head?, x ∉ l) : AtMost (ctx m) (.anyOf l) xs none 1 :=
  am_miss trivial (by
    rintro k ⟨-, x, rest, rfl, a, ha, he⟩
    simp only [beq_iff_eq] at he
    subst he
    exact h a (by simp) ha)
theorem am_any {l : List Nat} {x : Nat} (h : x ∈ l) : AtMost (ctx m) (.anyOf l) (x :: xs) (some 1) 1 :=
  am_hit trivial ⟨rfl, x, xs, rfl, x, h, by simp⟩
theorem am_char {x : Nat} : AtMost (ctx m) (.allOf [x]) (x :: xs) (some 1) 1 :=
  am_hit trivial ⟨rfl, [x], xs, rfl, .cons (by simp) .nil⟩
theorem am_notLit {c : Nat} {l : List Nat} (h : ∀ x ∈ xs.head?, x ≠ c) : AtMost (ctx m) (.allOf (c :: l)) xs none 1 :=
  am_miss trivial (by
    rintro k ⟨-, front, rest, rfl, hf⟩
    cases hf with
    | cons h1 h2 =>
      simp only [beq_iff_eq] at h1
      exact h _ (by simp) h1.symm)
/-- `ignore` of one character: it is there or not -/
theorem am_ign (c : Nat) (xs : List Nat) : (∃ ys, xs = c :: ys ∧ AtMost (ctx m) (.ignore (.allOf [c])) xs (some 1) 2) ∨
    ((∀ x ∈ xs.head?, x ≠ c) ∧ AtMost (ctx m) (.ignore (.allOf [c])) xs none 2) := by
  cases xs with
  | nil => exact .inr ⟨by simp, am_ignore (am_notLit (by simp))⟩
  | cons x xs =>
    by_cases hx : x = c
    · subst hx; exact .inl ⟨xs, rfl, am_ignore am_char⟩
    · exact .inr ⟨by simpa using hx, am_ignore (am_notLit (by simpa using hx))⟩

/-- the length of the white space in front -/
def blank (xs : List Nat) : Nat := (xs.takeWhile fun x => decide (x ∈ [9, 10, 13, 32])).length

theorem blank_le (xs : List Nat) : blank xs ≤ xs.length := by
  have := congrArg List.length (List.takeWhile_append_dropWhile (l := xs) (p := fun x => decide (x ∈ [9, 10, 13, 32])))
  rw [List.length_append] at this
  unfold blank; omega

theorem am_ws (xs : List Nat) : AtMost (ctx m) ws xs (some (blank xs)) (blank xs + 3) := by
  suffices h : AtMost (ctx m) (.zeroOrMore (.anyOf [9, 10, 13, 32])) xs (some (blank xs)) (blank xs + 2) from am_ignore h
  induction xs with
  | nil => exact am_zeroStop (am_notAny (by simp))
  | cons x xs ih =>
    by_cases hx : x ∈ [9, 10, 13, 32]
    · have e : blank (x :: xs) = 1 + blank xs := by
        rw [blank, List.takeWhile_cons_of_pos (by simpa using hx), List.length_cons, blank, Nat.add_comm]
      rw [e]
      exact (am_zeroMore (am_any hx) (by simpa using ih)).mono (by omega)
    · have e : blank (x :: xs) = 0 := by
        rw [blank, List.takeWhile_cons_of_neg (by simpa using hx)]; rfl
      rw [e]
      exact am_zeroStop (am_notAny (by simpa using hx))

/-! ### Strings and numbers -/

theorem const_validChar : Const1 m validChar 18 := by
  rw [validChar_eq]
  have h1 : Const1 m (.join (.sequence [.allOf [117], .exactly (.anyOf hexClass) 4])) 8 :=
    const1_join (const1_cons (b := 6) const_all (const_cons (a := 5) (const_exactly const_any.const (by omega) 4) const_nil
      (by omega)) (by omega))
  have h2 := const1_choice (m := m) (const_any (l := [34, 47, 92, 98, 102, 110, 114, 116])) (const1_choice h1 const1_choiceNil
    (by omega)) (by omega)
  have h3 := const1_join (const1_cons (m := m) (const_all (x := 92) (l := [])) (const_cons h2.const const_nil (by omega))
    (by omega))
  have h4 := const1_choice (m := m) (const_none (l := [34, 92])) (const1_choice h3 const1_choiceNil (by omega)) (by omega)
  intro xs
  obtain ⟨o, h5, h6⟩ := h4 xs
  exact ⟨o, h5.mono (by omega), h6⟩

/-- what is between the quotes -/
theorem am_chars (xs : List Nat) : ∃ k, AtMost (ctx m) chars xs (some k) (18 * k + 21) := by
  obtain ⟨k, h⟩ := many (m := m) const_validChar (by omega) xs
  exact ⟨k, (am_map (am_join h)).mono (by omega)⟩

theorem am_digits (xs : List Nat) : ∃ k, AtMost (ctx m) (.zeroOrMore (.anyOf digitClass)) xs (some k) (k + 2) := by
  obtain ⟨k, h⟩ := many (m := m) (const_any (l := digitClass)) (by omega) xs
  exact ⟨k, h.mono (by omega)⟩

theorem am_digits1 (xs : List Nat) : (∃ k, AtMost (ctx m) (.oneOrMore (.anyOf digitClass)) xs (some (k + 1)) (k + 3)) ∨
    AtMost (ctx m) (.oneOrMore (.anyOf digitClass)) xs none 2 := by
  obtain ⟨o, h, -⟩ := const_any (m := m) (l := digitClass) xs
  cases o with
  | none => exact .inr (am_oneMiss h)
  | some i =>
    have hi : i = 1 := by
      obtain ⟨n, -, h⟩ := h
      cases h with
      | hit h1 h2 => exact h2.1
    subst hi
    obtain ⟨k, h'⟩ := am_digits (m := m) (xs.drop 1)
    exact .inl ⟨k, by rw [Nat.add_comm k 1]; exact (am_oneMore h h').mono (by omega)⟩

/-- an optional sign -/
theorem am_sign (h : Const1 m p 1) (xs : List Nat) : ∃ k, AtMost (ctx m) (.choice [p, .epsilon]) xs (some k) 3 := by
  obtain ⟨o, ho, -⟩ := h xs
  cases o with
  | none => exact ⟨0, am_choiceMiss (b := 2) ho (am_choiceHit am_epsilon)⟩
  | some k => exact ⟨k, (am_choiceHit ho).mono (by omega)⟩

theorem am_natural (xs : List Nat) : (∃ k, 1 ≤ k ∧ AtMost (ctx m) naturalP xs (some k) (k + 6)) ∨ AtMost (ctx m) naturalP xs none 5 := by
  obtain ⟨o, h, h1⟩ := const_all (m := m) (x := 48) (l := []) xs
  cases o with
  | some k => exact .inl ⟨k, h1 k rfl, (am_choiceHit h).mono (by omega)⟩
  | none =>
    obtain ⟨o, h2, h3⟩ := const_any (m := m) (l := oneNineClass) xs
    cases o with
    | none => exact .inr (am_choiceMiss (b := 4) h (am_choiceMiss (a := 3) (am_join (am_stop h2)) am_choiceNil))
    | some i =>
      have := h3 i rfl
      obtain ⟨k, h4⟩ := am_digits (m := m) (xs.drop i)
      have h5 := am_choiceMiss h (am_choiceHit (ps := []) (am_join (am_more h2 (am_more h4 am_nil))))
      exact .inl ⟨_, by omega, h5.mono (by omega)⟩

theorem am_integer (xs : List Nat) : (∃ k, 1 ≤ k ∧ AtMost (ctx m) integer xs (some k) (k + 11)) ∨ AtMost (ctx m) integer xs none 10 := by
  rw [integer_eq]
  obtain ⟨i, h1⟩ := am_sign (m := m) (const_all (x := 45) (l := [])) xs
  rcases am_natural (m := m) (xs.drop i) with ⟨k, hk, h2⟩ | h2
  · exact .inl ⟨_, by omega, (am_join (am_more h1 (am_more h2 am_nil))).mono (by omega)⟩
  · exact .inr (am_join (am_moreMiss (b := 6) h1 (am_stop h2)))

theorem am_noInteger (h : ∀ x ∈ xs.head?, x ∉ 45 :: digitClass) : AtMost (ctx m) integer xs none 10 := by
  rw [integer_eq]
  have h1 : AtMost (ctx m) (.choice [.allOf [45], .epsilon]) xs (some 0) 3 :=
    am_choiceMiss (b := 2) (am_notLit fun x hx e => h x hx (by simp [e])) (am_choiceHit am_epsilon)
  have h2 : AtMost (ctx m) naturalP xs none 5 :=
    am_choiceMiss (b := 4) (am_notLit fun x hx e => h x hx (by simp [e]))
      (am_choiceMiss (a := 3) (am_join (am_stop (am_notAny fun x hx e => h x hx (by
        simp only [oneNineClass, digitClass, List.mem_cons, List.not_mem_nil, or_false] at e ⊢; omega)))) am_choiceNil)
  exact am_join (am_moreMiss (b := 6) h1 (am_stop h2))

theorem am_fraction (xs : List Nat) : ∃ k, AtMost (ctx m) (.maybe fraction) xs (some k) (k + 8) := by
  rw [fraction_eq]
  rcases am_ign (m := m) 46 xs with ⟨ys, -, h1⟩ | ⟨-, h1⟩
  · rcases am_digits1 (m := m) (xs.drop 1) with ⟨k, h2⟩ | h2
    · exact ⟨_, (am_maybe (am_join (am_more h1 (am_more h2 am_nil)))).mono (by omega)⟩
    · exact ⟨0, (am_maybeMiss (am_join (am_moreMiss h1 (am_stop h2)))).mono (by omega)⟩
  · exact ⟨0, (am_maybeMiss (am_join (am_stop h1))).mono (by omega)⟩

theorem am_exponent (xs : List Nat) : ∃ k, AtMost (ctx m) (.maybe exponent) xs (some k) (k + 13) := by
  rw [exponent_eq]
  obtain ⟨o, h1, -⟩ := const_any (m := m) (l := [69, 101]) xs
  cases o with
  | none => exact ⟨0, (am_maybeMiss (am_join (am_stop (am_ignore h1)))).mono (by omega)⟩
  | some i =>
    obtain ⟨j, h2⟩ := am_sign (m := m) (const_any (l := [43, 45])) (xs.drop i)
    rcases am_digits1 (m := m) ((xs.drop i).drop j) with ⟨k, h3⟩ | h3
    · exact ⟨_, (am_maybe (am_join (am_more (am_ignore h1) (am_more h2 (am_more h3 am_nil))))).mono (by omega)⟩
    · exact ⟨0, (am_maybeMiss (am_join (am_moreMiss (am_ignore h1) (am_moreMiss h2 (am_stop h3))))).mono (by omega)⟩

theorem am_number (xs : List Nat) : (∃ k, 1 ≤ k ∧ AtMost (ctx m) number xs (some k) (k + 40)) ∨ AtMost (ctx m) number xs none 12 := by
  rw [number_eq]
  rcases am_integer (m := m) xs with ⟨k, hk, h1⟩ | h1
  · obtain ⟨i, h2⟩ := am_fraction (m := m) (xs.drop k)
    obtain ⟨j, h3⟩ := am_exponent (m := m) ((xs.drop k).drop i)
    exact .inl ⟨_, by omega, (am_map (am_more h1 (am_more h2 (am_more h3 am_nil)))).mono (by omega)⟩
  · exact .inr (am_map (am_stop h1))

theorem am_noNumber (h : ∀ x ∈ xs.head?, x ∉ 45 :: digitClass) : AtMost (ctx m) number xs none 12 := by
  rw [number_eq]
  exact am_map (am_stop (am_noInteger h))

/-- a string, or a quote and no other -/
theorem am_string (xs : List Nat) : (∃ k, 2 ≤ k ∧ AtMost (ctx m) string (34 :: xs) (some k) (18 * k)) ∨
    ∃ k, k ≤ xs.length ∧ AtMost (ctx m) string (34 :: xs) none (18 * k + 26) := by
  rw [string_eq]
  obtain ⟨k, h1⟩ := am_chars (m := m) xs
  rcases am_ign (m := m) 34 (xs.drop k) with ⟨ys, -, h2⟩ | ⟨-, h2⟩
  · refine .inl ⟨_, ?_, (am_more (am_ignore am_char) (am_more h1 (am_more h2 am_nil))).mono (by omega)⟩
    omega
  · exact .inr ⟨k, h1.le, (am_moreMiss (am_ignore am_char) (am_moreMiss h1 (am_stop h2))).mono (by omega)⟩

theorem am_noString (h : ∀ x ∈ xs.head?, x ≠ 34) : AtMost (ctx m) string xs none 3 := by
  rw [string_eq]
  exact am_stop (am_ignore (am_notLit h))

/-! ### Elements in brackets -/

/-- What is known of an element: a success takes calls for what it consumes, a failure for what there is, and only for
the white space if that is followed by a closing bracket. -/
structure Elem (m : Machine) (p : Parser Nat) (xs : List Nat) : Prop where
  out : (∃ k, 1 ≤ k ∧ AtMost (ctx m) p xs (some k) (200 * k)) ∨
    AtMost (ctx m) p xs none (blank xs + 200 * (xs.length - blank xs) + 90)
  closed : ∀ c ∈ [93, 125], (xs.drop (blank xs)).head? = some c → AtMost (ctx m) p xs none (blank xs + 90)

/-- what is known of elements with commas between them -/
inductive Elems (m : Machine) (p : Parser Nat) (xs : List Nat) : Prop where
  | none : AtMost (ctx m) (.delimit p (.ignore (.allOf [44]))) xs Option.none
      (blank xs + 200 * (xs.length - blank xs) + 91) → Elems m p xs
  | clean {k : Nat} : 1 ≤ k → AtMost (ctx m) (.delimit p (.ignore (.allOf [44]))) xs (some k) (200 * k + 3) → Elems m p xs
  | comma {k : Nat} : 1 ≤ k → (xs.drop k).head? = some 44 →
      AtMost (ctx m) (.delimit p (.ignore (.allOf [44]))) xs (some k) (200 * xs.length + 3) → Elems m p xs

theorem am_elems {N : Nat} (h : ∀ xs : List Nat, xs.length ≤ N → Elem m p xs) (xs : List Nat) (hx : xs.length ≤ N) :
    Elems m p xs := by
  induction hn : xs.length using Nat.strongRecOn generalizing xs with
  | _ n ih =>
    rcases (h xs hx).out with ⟨k, hk, h1⟩ | h1
    · have hl := h1.le
      rcases am_ign (m := m) 44 (xs.drop k) with ⟨ys, e, h2⟩ | ⟨-, h2⟩
      · have e2 : xs.drop (k + 1) = ys := by rw [← List.drop_drop, e]; rfl
        have e3 : k + 1 + ys.length = xs.length := by
          have := congrArg List.length e
          rw [List.length_drop, List.length_cons] at this
          omega
        have e4 := blank_le ys
        cases ih ys.length (by omega) ys (by omega) rfl with
        | none h3 =>
          refine .comma hk (by rw [e]; rfl) ((am_delimitLast h1 h2 (by rw [e2]; exact h3)).mono ?_)
          omega
        | clean hj h3 =>
          refine .clean (by omega) ((am_delimitMore h1 h2 (by rw [e2]; exact h3)).mono ?_)
          omega
        | @comma j hj h4 h3 =>
          refine .comma (k := k + 1 + j) (by omega) ?_ ((am_delimitMore h1 h2 (by rw [e2]; exact h3)).mono ?_)
          · rw [← List.drop_drop, e2, h4]
          · omega
      · exact .clean hk (am_delimitStop h1 h2)
    · exact .none (am_delimitMiss h1)

/-- the brackets with the elements -/
def bracket (p : Parser Nat) (l r : Nat) : Parser Nat :=
  .sequence [.ignore (.allOf [l]), .choice [.delimit p (.ignore (.allOf [44])), ws], .ignore (.allOf [r])]

theorem am_bracket {l r : Nat} (hr : r ∈ [93, 125]) {N : Nat} (h : ∀ xs : List Nat, xs.length ≤ N → Elem m p xs)
    (xs : List Nat) (hx : xs.length ≤ N) :
    (∃ k, 2 ≤ k ∧ AtMost (ctx m) (bracket p l r) (l :: xs) (some k) (200 * k - 100)) ∨
      AtMost (ctx m) (bracket p l r) (l :: xs) none (200 * xs.length + 110) := by
  have hb := blank_le xs
  have hlt : AtMost (ctx m) (.ignore (.allOf [l])) (l :: xs) (some 1) 2 := am_ignore am_char
  by_cases hc : (xs.drop (blank xs)).head? = some r
  · -- nothing in the brackets
    left
    have h1 := am_delimitMiss (d := .ignore (.allOf [44])) ((h xs hx).closed r hr hc)
    have h2 := am_choiceMiss h1 (am_choiceHit (ps := []) (am_ws xs))
    rcases am_ign (m := m) r (xs.drop (blank xs)) with ⟨ys, -, h3⟩ | ⟨h3, -⟩
    · refine ⟨_, ?_, (am_more hlt (am_more h2 (am_more h3 am_nil))).mono ?_⟩
      · omega
      · omega
    · exact absurd rfl (h3 r hc)
  · have hr' : ∀ {k b}, (xs.drop k).head? ≠ some r → AtMost (ctx m) (.choice [.delimit p (.ignore (.allOf [44])), ws]) xs (some k) b →
        b ≤ 200 * xs.length + 105 → AtMost (ctx m) (bracket p l r) (l :: xs) none (200 * xs.length + 110) := by
      intro k b h1 h2 hb
      rcases am_ign (m := m) r (xs.drop k) with ⟨ys, e, -⟩ | ⟨-, h3⟩
      · exact absurd (by rw [e]; rfl) h1
      · exact (am_moreMiss hlt (am_moreMiss h2 (am_stop h3))).mono (by omega)
    cases am_elems h xs hx with
    | none h1 =>
      refine .inr (hr' hc (am_choiceMiss h1 (am_choiceHit (ps := []) (am_ws xs))) ?_)
      omega
    | @clean k hk h1 =>
      have hl := h1.le
      rcases am_ign (m := m) r (xs.drop k) with ⟨ys, -, h3⟩ | ⟨h3, -⟩
      · left
        refine ⟨_, ?_, (am_more hlt (am_more (am_choiceHit h1) (am_more h3 am_nil))).mono ?_⟩
        · omega
        · omega
      · exact .inr (hr' (fun e => h3 r e rfl) (am_choiceHit h1) (by omega))
    | @comma k hk h2 h1 =>
      refine .inr (hr' ?_ (am_choiceHit h1) (by omega))
      rw [h2]
      intro e
      cases e
      simp at hr

theorem am_noBracket {l r : Nat} (h : ∀ x ∈ xs.head?, x ≠ l) : AtMost (ctx m) (bracket p l r) xs none 3 :=
  am_stop (am_ignore (am_notLit h))

/-! ### Members and values -/

theorem drop_blank (xs : List Nat) : (xs.drop (blank xs)).length = xs.length - blank xs := List.length_drop

theorem am_pair {N : Nat} (h : ∀ xs : List Nat, xs.length ≤ N → Elem m (.custom 0) xs) (xs : List Nat) (hx : xs.length ≤ N) :
    Elem m pair xs := by
  have hb := drop_blank xs
  have hb' := blank_le xs
  have h0 := am_ws (m := m) xs
  rw [pair_eq]
  rcases am_ign (m := m) 34 (xs.drop (blank xs)) with ⟨zs, e, h1⟩ | ⟨-, h1⟩
  swap
  · have := am_map (f := .apply (.construct pairType)) (am_moreMiss h0 (am_stop
      (ps := [chars, quote, ws, .ignore (.allOf [58]), .custom 0]) h1))
    exact ⟨.inr (this.mono (by omega)), fun _ _ _ => this.mono (by omega)⟩
  have hz := congrArg List.length e
  rw [hb, List.length_cons] at hz
  refine ⟨?_, fun c hc hc' => by
    rw [e] at hc'
    cases hc'
    simp at hc⟩
  obtain ⟨k, h2⟩ := am_chars (m := m) zs
  have hk := h2.le
  have d1 : (xs.drop (blank xs)).drop 1 = zs := by rw [e]; rfl
  rcases am_ign (m := m) 34 (zs.drop k) with ⟨vs, e2, h3⟩ | ⟨-, h3⟩
  swap
  · right
    exact (am_map (am_moreMiss h0 (am_moreMiss h1 (d1 ▸ am_moreMiss h2 (am_stop h3))))).mono (by omega)
  have hv := congrArg List.length e2
  rw [List.length_drop, List.length_cons] at hv
  have d2 : (zs.drop k).drop 1 = vs := by rw [e2]; rfl
  have h4 := am_ws (m := m) vs
  have hw := drop_blank vs
  have hw' := blank_le vs
  rcases am_ign (m := m) 58 (vs.drop (blank vs)) with ⟨us, e3, h5⟩ | ⟨-, h5⟩
  swap
  · right
    exact (am_map (am_moreMiss h0 (am_moreMiss h1 (d1 ▸ am_moreMiss h2 (am_moreMiss h3 (d2 ▸ am_moreMiss h4
      (am_stop h5))))))).mono (by simp only [d1, d2]; omega)
  have hu := congrArg List.length e3
  rw [hw, List.length_cons] at hu
  have d3 : (vs.drop (blank vs)).drop 1 = us := by rw [e3]; rfl
  have hbu := blank_le us
  rcases (h us (by omega)).out with ⟨j, hj, h6⟩ | h6
  · left
    refine ⟨_, ?_, (am_map (am_more h0 (am_more h1 (d1 ▸ am_more h2 (am_more h3 (d2 ▸ am_more h4 (am_more h5
      (d3 ▸ am_more h6 am_nil)))))))).mono ?_⟩
    · omega
    · omega
  · right
    exact (am_map (am_moreMiss h0 (am_moreMiss h1 (d1 ▸ am_moreMiss h2 (am_moreMiss h3 (d2 ▸ am_moreMiss h4 (am_moreMiss h5
      (d3 ▸ am_stop h6)))))))).mono (by simp only [d1, d2, d3]; omega)

theorem am_choice_none (h : ∀ q ∈ ps, AtMost (ctx m) q xs none 12) : AtMost (ctx m) (.choice ps) xs none (12 * ps.length + 1) := by
  induction ps with
  | nil => exact am_choiceNil
  | cons q ps ih =>
    refine (am_choiceMiss (h q (by simp)) (ih fun q hq => h q (by simp [hq]))).mono ?_
    rw [List.length_cons]; omega

theorem am_choice_hit (h : ∀ q ∈ ps, AtMost (ctx m) q xs none 12) (hp : AtMost (ctx m) p xs (some k) b) :
    AtMost (ctx m) (.choice (ps ++ p :: qs)) xs (some k) (12 * ps.length + b + 1) := by
  induction ps with
  | nil => exact (am_choiceHit hp).mono (by simp)
  | cons q ps ih =>
    refine (am_choiceMiss (h q (by simp)) (ih fun q hq => h q (by simp [hq]))).mono ?_
    rw [List.length_cons]; omega

theorem am_choice_miss (h : ∀ q ∈ ps, AtMost (ctx m) q xs none 12) (h' : ∀ q ∈ qs, AtMost (ctx m) q xs none 12)
    (hp : AtMost (ctx m) p xs none b) :
    AtMost (ctx m) (.choice (ps ++ p :: qs)) xs none (12 * ps.length + b + 12 * qs.length + 1) := by
  induction ps with
  | nil => exact (am_choiceMiss hp (am_choice_none h')).mono (by simp; omega)
  | cons q ps ih =>
    refine (am_choiceMiss (h q (by simp)) (ih fun q hq => h q (by simp [hq]))).mono ?_
    rw [List.length_cons]; omega

/-- the alternatives of a value -/
abbrev alts : List (Parser Nat) := [string, number, .custom 1, .custom 2, trueP, falseP, nullP]

/-- which alternative starts with the character -/
def starts (x : Nat) : Nat :=
  if x = 34 then 0 else if x ∈ 45 :: digitClass then 1 else if x = 123 then 2 else if x = 91 then 3 else
  if x = 116 then 4 else if x = 102 then 5 else if x = 110 then 6 else 7

theorem alt_fails {i : Nat} {q : Parser Nat} (hi : alts[i]? = some q) (h : ∀ x ∈ xs.head?, starts x ≠ i) :
    AtMost (ctx m) q xs none 12 := by
  have h' : ∀ {x}, x ∈ xs.head? → starts x ≠ i := fun hx => h _ hx
  unfold starts at h'
  match i with
  | 0 =>
    cases hi
    exact (am_noString fun x hx e => h' hx (by rw [if_pos e])).mono (by omega)
  | 1 =>
    cases hi
    refine (am_noNumber fun x hx e => h' hx ?_)
    rw [if_neg (by rintro rfl; simp [digitClass] at e), if_pos e]
  | 2 =>
    cases hi
    refine (am_custom (b := 3) ?_).mono (by omega)
    exact am_noBracket (p := pair) (l := 123) (r := 125) fun x hx e => h' hx (by subst e; rfl)
  | 3 =>
    cases hi
    refine (am_custom (b := 3) ?_).mono (by omega)
    exact am_noBracket (p := .custom 0) (l := 91) (r := 93) fun x hx e => h' hx (by subst e; rfl)
  | 4 => cases hi; exact (am_map (am_notLit fun x hx e => h' hx (by subst e; rfl))).mono (by omega)
  | 5 => cases hi; exact (am_map (am_notLit fun x hx e => h' hx (by subst e; rfl))).mono (by omega)
  | 6 => cases hi; exact (am_map (am_notLit fun x hx e => h' hx (by subst e; rfl))).mono (by omega)
  | _ + 7 => cases hi

theorem alt_out {i x : Nat} {q : Parser Nat} (hi : alts[i]? = some q) (hx : starts x = i) {us : List Nat}
    (h : ∀ xs : List Nat, xs.length ≤ us.length → Elem m (.custom 0) xs) :
    (∃ k, 1 ≤ k ∧ AtMost (ctx m) q (x :: us) (some k) (200 * k - 99)) ∨ AtMost (ctx m) q (x :: us) none (200 * (us.length + 1)) := by
  have lit : ∀ (c : Nat) (l : List Nat) (f), (∃ k, 1 ≤ k ∧ AtMost (ctx m) (.map (.allOf (c :: l)) f) (x :: us) (some k) (200 * k - 99)) ∨
      AtMost (ctx m) (.map (.allOf (c :: l)) f) (x :: us) none (200 * (us.length + 1)) := by
    intro c l f
    obtain ⟨o, h1, h2⟩ := const_all (m := m) (x := c) (l := l) (x :: us)
    cases o with
    | none => exact .inr ((am_map h1).mono (by omega))
    | some k => have := h2 k rfl; exact .inl ⟨k, this, (am_map h1).mono (by omega)⟩
  match i with
  | 0 =>
    cases hi
    have e : x = 34 := by
      unfold starts at hx
      by_contra hc
      rw [if_neg hc] at hx
      split at hx <;> (try split at hx) <;> (try split at hx) <;> (try split at hx) <;> (try split at hx) <;>
        (try split at hx) <;> cases hx
    subst e
    rcases am_string (m := m) us with ⟨k, hk, h1⟩ | ⟨k, hk, h1⟩
    · exact .inl ⟨k, by omega, h1.mono (by omega)⟩
    · exact .inr (h1.mono (by omega))
  | 1 =>
    cases hi
    rcases am_number (m := m) (x :: us) with ⟨k, hk, h1⟩ | h1
    · exact .inl ⟨k, hk, h1.mono (by omega)⟩
    · exact .inr (h1.mono (by omega))
  | 2 =>
    cases hi
    have e : x = 123 := by
      unfold starts at hx
      by_contra hc
      repeat' split at hx
      all_goals first | exact absurd ‹_› hc | cases hx
    subst e
    rcases am_bracket (m := m) (l := 123) (r := 125) (by simp) (fun xs hx => am_pair h xs hx) us (Nat.le_refl _) with
      ⟨k, hk, h1⟩ | h1
    · refine .inl ⟨k, by omega, (am_custom (b := 200 * k - 100) h1).mono (by omega)⟩
    · exact .inr ((am_custom (b := 200 * us.length + 110) h1).mono (by omega))
  | 3 =>
    cases hi
    have e : x = 91 := by
      unfold starts at hx
      by_contra hc
      repeat' split at hx
      all_goals first | exact absurd ‹_› hc | cases hx
    subst e
    rcases am_bracket (m := m) (l := 91) (r := 93) (by simp) h us (Nat.le_refl _) with ⟨k, hk, h1⟩ | h1
    · refine .inl ⟨k, by omega, (am_custom (b := 200 * k - 100) h1).mono (by omega)⟩
    · exact .inr ((am_custom (b := 200 * us.length + 110) h1).mono (by omega))
  | 4 => cases hi; exact lit ..
  | 5 => cases hi; exact lit ..
  | 6 => cases hi; exact lit ..
  | _ + 7 => cases hi

theorem am_value (xs : List Nat) : Elem m (.custom 0) xs := by
  induction hn : xs.length using Nat.strongRecOn generalizing xs with
  | _ n ih =>
    have hb := drop_blank xs
    have hb' := blank_le xs
    have h0 := am_ws (m := m) xs
    have idx : ∀ {q}, q ∈ alts → ∃ i : Nat, alts[i]? = some q := fun hq => List.mem_iff_getElem?.1 hq
    -- no alternative starts like this
    have fails : (∀ x ∈ (xs.drop (blank xs)).head?, 7 ≤ starts x) → AtMost (ctx m) (.custom 0) xs none (blank xs + 90) := by
      intro h
      have h1 : AtMost (ctx m) (.choice alts) (xs.drop (blank xs)) none 85 := am_choice_none fun q hq => by
        obtain ⟨i, hi⟩ := idx hq
        have : i < 7 := (List.getElem?_eq_some_iff.1 hi).1
        exact alt_fails hi fun x hx => by have := h x hx; omega
      refine (am_custom (b := blank xs + 89) ?_).mono (by omega)
      show AtMost (ctx m) valueBody _ _ _
      rw [valueBody_eq]
      exact (am_moreMiss h0 (am_stop h1)).mono (by omega)
    refine ⟨?_, fun c hc hc' => fails fun x hx => ?_⟩
    swap
    · rw [hc'] at hx
      cases hx
      simp only [List.mem_cons, List.not_mem_nil, or_false] at hc
      rcases hc with rfl | rfl <;> decide
    cases e : xs.drop (blank xs) with
    | nil => exact .inr ((fails (by rw [e]; simp)).mono (by omega))
    | cons x us =>
      have hl := congrArg List.length e
      rw [hb, List.length_cons] at hl
      by_cases hx : 7 ≤ starts x
      · exact .inr ((fails (by rw [e]; simpa using hx)).mono (by omega))
      · obtain ⟨i, hi⟩ : ∃ i, starts x = i := ⟨_, rfl⟩
        have hi7 : i < alts.length := by show i < 7; omega
        have hq : alts[i]? = some alts[i] := List.getElem?_eq_getElem hi7
        have split : alts = alts.take i ++ alts[i] :: alts.drop (i + 1) := by
          rw [← List.drop_eq_getElem_cons hi7, List.take_append_drop]
        have len : (alts.take i).length + (alts.drop (i + 1)).length = 6 := by
          have := congrArg List.length split
          rw [List.length_append, List.length_cons (a := alts[i])] at this
          have e7 : alts.length = 7 := rfl
          omega
        have pre : ∀ q ∈ alts.take i, AtMost (ctx m) q (x :: us) none 12 := fun q hq => by
          obtain ⟨j, hj⟩ := List.mem_iff_getElem?.1 hq
          rw [List.getElem?_take] at hj
          split at hj
          · exact alt_fails hj fun y hy => by cases hy; omega
          · cases hj
        have post : ∀ q ∈ alts.drop (i + 1), AtMost (ctx m) q (x :: us) none 12 := fun q hq => by
          obtain ⟨j, hj⟩ := List.mem_iff_getElem?.1 hq
          rw [List.getElem?_drop] at hj
          exact alt_fails hj fun y hy => by cases hy; omega
        rcases alt_out (m := m) (us := us) hq hi fun ys hys => ih ys.length (by omega) ys rfl with ⟨k, hk, h1⟩ | h1
        · left
          have h2 := am_choice_hit (qs := alts.drop (i + 1)) pre h1
          generalize hA : 12 * (alts.take i).length + (200 * k - 99) + 1 = A at h2
          rw [← split, ← e] at h2
          have h3 := am_ws (m := m) ((xs.drop (blank xs)).drop k)
          have h4 := am_more h0 (am_more h2 (am_more h3 am_nil))
          rw [← valueBody_eq] at h4
          exact ⟨_, by omega, (am_custom (k := 0) (C := ctx m) h4).mono (by omega)⟩
        · right
          have h2 := am_choice_miss pre post h1
          generalize hA : 12 * (alts.take i).length + 200 * (us.length + 1) + 12 * (alts.drop (i + 1)).length + 1 = A at h2
          rw [← split, ← e] at h2
          have h3 := am_moreMiss h0 (am_stop (ps := [ws]) h2)
          rw [← valueBody_eq] at h3
          exact (am_custom (k := 0) (C := ctx m) h3).mono (by omega)

theorem am_parser (hp : p ∈ [jsonValue, jsonObject, jsonArray, string, number]) (xs : List Nat) :
    ∃ o, AtMost (ctx m) p xs o (200 * (xs.length + 1)) := by
  have alt : ∀ {i : Nat} {q : Parser Nat}, alts[i]? = some q → ∃ o, AtMost (ctx m) q xs o (200 * (xs.length + 1)) := by
    intro i q hi
    cases xs with
    | nil => exact ⟨none, (alt_fails hi (by simp)).mono (by omega)⟩
    | cons x us =>
      by_cases hx : starts x = i
      · rcases alt_out (m := m) (us := us) hi hx fun ys _ => am_value ys with ⟨k, hk, h⟩ | h
        · have := h.le
          exact ⟨some k, h.mono (by omega)⟩
        · exact ⟨none, h.mono (by rw [List.length_cons]; omega)⟩
      · exact ⟨none, (alt_fails hi (by simpa using hx)).mono (by omega)⟩
  simp only [List.mem_cons, List.not_mem_nil, or_false] at hp
  rcases hp with rfl | rfl | rfl | rfl | rfl
  · have hb := blank_le xs
    rcases (am_value (m := m) xs).out with ⟨k, hk, h⟩ | h
    · have := h.le
      exact ⟨some k, h.mono (by omega)⟩
    · exact ⟨none, h.mono (by omega)⟩
  · exact alt (i := 2) rfl
  · exact alt (i := 3) rfl
  · exact alt (i := 0) rfl
  · exact alt (i := 1) rfl

end Tok3n.Json
