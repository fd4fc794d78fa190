import Verif.Model.Json
import Verif.Spec.Json
import Verif.Proof.Text
/-
The JSON example: its parsers in normal form, and what each of them matches.
-/

namespace Tok3n.Json

/-! ### The parsers the operators build -/

abbrev ws : Parser Nat := .ignore (.zeroOrMore (.anyOf [9, 10, 13, 32]))
abbrev digitClass : List Nat := [48, 49, 50, 51, 52, 53, 54, 55, 56, 57]
abbrev oneNineClass : List Nat := [49, 50, 51, 52, 53, 54, 55, 56, 57]
abbrev hexClass : List Nat :=
  [48, 49, 50, 51, 52, 53, 54, 55, 56, 57, 65, 66, 67, 68, 69, 70, 97, 98, 99, 100, 101, 102]
abbrev quote : Parser Nat := .ignore (.allOf [34])
abbrev chars : Parser Nat := .map (.join (.zeroOrMore validChar)) (.construct (.user 1))
abbrev trueP : Parser Nat := .map (.allOf [116, 114, 117, 101]) (.const 0)
abbrev falseP : Parser Nat := .map (.allOf [102, 97, 108, 115, 101]) (.const 1)
abbrev nullP : Parser Nat := .map (.allOf [110, 117, 108, 108]) (.const 2)

theorem validChar_eq : validChar = .choice [.noneOf [34, 92], .join (.sequence [.allOf [92],
    .choice [.anyOf [34, 47, 92, 98, 102, 110, 114, 116],
      .join (.sequence [.allOf [117], .exactly (.anyOf hexClass) 4])]])] := rfl
theorem string_eq : string = .sequence [quote, chars, quote] := rfl
theorem integer_eq : integer = .join (.sequence [.choice [.allOf [45], .epsilon],
    .choice [.allOf [48], .join (.sequence [.anyOf oneNineClass, .zeroOrMore (.anyOf digitClass)])]]) := rfl
theorem fraction_eq : fraction = .join (.sequence [.ignore (.allOf [46]), .oneOrMore (.anyOf digitClass)]) := rfl
theorem exponent_eq : exponent = .join (.sequence [.ignore (.anyOf [69, 101]), .choice [.anyOf [43, 45], .epsilon],
    .oneOrMore (.anyOf digitClass)]) := rfl
theorem number_eq : number = .map (.sequence [integer, .maybe fraction, .maybe exponent]) (.apply (.construct (.user 0))) := rfl
theorem pair_eq : pair = .map (.sequence [ws, quote, chars, quote, ws, .ignore (.allOf [58]), .custom 0])
    (.apply (.construct pairType)) := rfl
theorem objectBody_eq : objectBody = .sequence [.ignore (.allOf [123]),
    .choice [.delimit pair (.ignore (.allOf [44])), ws], .ignore (.allOf [125])] := rfl
theorem arrayBody_eq : arrayBody = .sequence [.ignore (.allOf [91]),
    .choice [.delimit (.custom 0) (.ignore (.allOf [44])), ws], .ignore (.allOf [93])] := rfl
theorem valueBody_eq : valueBody = .sequence [ws, .choice [string, number, .custom 1, .custom 2, trueP, falseP, nullP],
    ws] := rfl

variable {m : Machine}

/-! ### The context -/

theorem wf_value : valueBody.wf = true := by
  rw [valueBody_eq, number_eq, string_eq, chars, validChar_eq, integer_eq, fraction_eq, exponent_eq]; rfl
theorem wf_object : objectBody.wf = true := by rw [objectBody_eq, pair_eq, chars, validChar_eq]; rfl
theorem wf_array : arrayBody.wf = true := by rw [arrayBody_eq]; rfl
theorem ty_value : tyOK (ctx m) valueBody = true := by
  rw [valueBody_eq, number_eq, string_eq, chars, validChar_eq, integer_eq, fraction_eq, exponent_eq]; rfl
theorem ty_object : tyOK (ctx m) objectBody = true := by rw [objectBody_eq, pair_eq, chars, validChar_eq]; rfl
theorem ty_array : tyOK (ctx m) arrayBody = true := by rw [arrayBody_eq]; rfl
theorem parse_value : parseOK (ctx m) valueBody = true := by
  rw [valueBody_eq, number_eq, string_eq, chars, validChar_eq, integer_eq, fraction_eq, exponent_eq]; rfl
theorem parse_object : parseOK (ctx m) objectBody = true := by rw [objectBody_eq, pair_eq, chars, validChar_eq]; rfl
theorem parse_array : parseOK (ctx m) arrayBody = true := by rw [arrayBody_eq]; rfl

theorem ctx_ok : (ctx m).OK := by
  refine ⟨fun k => ?_, fun k => ?_, fun k => ?_, fun k hk => ?_⟩
  · match k with
    | 0 => exact wf_value
    | 1 => exact wf_object
    | 2 => exact wf_array
    | _ + 3 => rfl
  · match k with
    | 0 => exact ty_value
    | 1 => exact ty_object
    | 2 => exact ty_array
    | _ + 3 => rfl
  · match k with
    | 0 => exact parse_value
    | 1 => exact parse_object
    | 2 => exact parse_array
    | _ + 3 => rfl
  · match k with
    | 0 => simp [ctx] at hk
    | 1 => simp [ctx] at hk
    | 2 => simp [ctx] at hk
    | _ + 3 => rfl

theorem ctx_throws (c : Call) : (ctx m).throws c = none := by
  obtain ⟨f, args⟩ := c
  cases f with
  | construct t =>
    simp only [Ctx.throws, ctx]
    split
    · rename_i h
      split at h <;> cases h
    · rfl
  | _ => rfl

theorem ctx_typed : (ctx m).Typed where
  fn := by intro k ts t args v h; simp [ctx] at h
  const k := by
    match k with
    | 0 => exact ⟨1, [], rfl⟩
    | 1 => exact ⟨0, [], rfl⟩
    | _ + 2 => exact ⟨0, [], rfl⟩
  ctor := by
    intro t ts args v h hT hv
    simp only [ctx, Bool.or_eq_true, Bool.and_eq_true, beq_iff_eq] at h
    rcases h with (⟨rfl, rfl⟩ | ⟨rfl, rfl⟩) | ⟨rfl, rfl⟩
    · simp only [ctx, Except.ok.injEq] at hv; subst hv; exact ⟨0, _, rfl⟩
    · simp only [ctx, Except.ok.injEq] at hv; subst hv; exact ⟨0, _, rfl⟩
    · simp only [HasTys] at hT
      obtain ⟨a, _, rfl, ha, b, _, rfl, hb, rfl⟩ := hT
      simp only [ctx, Except.ok.injEq] at hv; subst hv
      simp only [HasTy]
      exact ⟨a, b, rfl, by simpa [HasTy] using ha, by simpa [HasTy] using hb⟩
  dflt := by intro k v h; simp only [ctx, Option.some.injEq] at h; subst h; exact ⟨0, [], rfl⟩
  conv := by
    intro src dst f v h hv
    simp only [ctx, Option.ite_none_right_eq_some, Option.some.injEq] at h
    obtain ⟨⟨rfl, rfl⟩, rfl⟩ := h
    exact ⟨0, _, rfl⟩
  convOpt := by intro src dst f o h hv; simp [ctx] at h

theorem ctx_local : (ctx m).Local where
  conv := by
    intro src dst f v h t ht
    simp only [ctx, Option.ite_none_right_eq_some, Option.some.injEq] at h
    obtain ⟨⟨rfl, rfl⟩, rfl⟩ := h
    exact .inr (by simpa [Val.spans, spansList] using ht)
  convOpt := by intro src dst f o h; simp [ctx] at h
  dflt := by
    intro k v h t ht
    simp only [ctx, Option.some.injEq] at h; subst h; simp [Val.spans, spansList] at ht
  toSpan := by intro k f v h; simp [ctx] at h

theorem ctx_eqv : (ctx m).eqv = (· == ·) := rfl

/-! ### Leaves -/

theorem leaf {p : Parser Nat} (hp : everyNode (leafB (ctx m)) (.join p) = true) {s : Span} (hs : s.Valid m.mem) :
    (∀ w s', Ok (ctx m) (.join p) s w s' ↔ ∃ x, Reads m.mem s x s' ∧ w = .span ⟨s.ptr, x.length⟩ ∧
      To (bodies (ctx m)) p x (s'.elems m.mem)) ∧
    (No (ctx m) (.join p) s ↔ Fails (bodies (ctx m)) p (s.elems m.mem)) :=
  join_leaf (C := ctx m) ctx_eqv ctx_throws ctx_typed ctx_local ctx_ok hp hs

theorem leaf_chars : everyNode (leafB (ctx m)) (.join (.zeroOrMore validChar)) = true := by rw [validChar_eq]; rfl
theorem leaf_integer : everyNode (leafB (ctx m)) integer = true := by rw [integer_eq]; rfl
theorem leaf_digits : everyNode (leafB (ctx m)) (.join (.oneOrMore (.anyOf digitClass))) = true := rfl
theorem leaf_power : everyNode (leafB (ctx m)) (.join (.sequence [.choice [.anyOf [43, 45], .epsilon],
    .oneOrMore (.anyOf digitClass)])) = true := rfl

/-! ### Their languages -/

theorem mem_digit {c : Nat} : c ∈ digitClass ↔ Digit c := by simp [Digit]; omega
theorem mem_oneNine {c : Nat} : c ∈ oneNineClass ↔ OneNine c := by simp [OneNine]; omega
theorem mem_hex {c : Nat} : c ∈ hexClass ↔ HexDigit c := by simp [HexDigit, Digit]; omega
theorem mem_ws {c : Nat} : c ∈ [9, 10, 13, 32] ↔ Ws [c] := by simp [Ws]; omega
theorem ws_iff {x : List Nat} : Ws x ↔ ∀ c ∈ x, c ∈ [9, 10, 13, 32] := by
  simp only [mem_ws]; simp [Ws]

section
variable {b : Nat → Parser Nat} {x y : List Nat}

theorem validChar_sound (h : To b validChar x y) : Character x := by
  rw [validChar_eq, to_choice_cons] at h
  rcases h with h | ⟨-, h⟩
  · obtain ⟨c, hc, rfl⟩ := to_noneOf.1 h
    simp at hc
    exact .plain hc.1 hc.2
  · rw [to_choice_cons] at h
    rcases h with h | ⟨-, h⟩
    · rw [to_join, to_sequence_cons] at h
      obtain ⟨x1, x2, rfl, h1, h2⟩ := h
      rw [to_allOf] at h1; subst h1
      rw [to_sequence_cons] at h2
      obtain ⟨x3, x4, rfl, h3, h4⟩ := h2
      rw [to_sequence_nil] at h4; subst h4
      rw [to_choice_cons] at h3
      rcases h3 with h3 | ⟨-, h3⟩
      · obtain ⟨c, hc, rfl⟩ := to_anyOf.1 h3
        refine .escape ?_
        simp at hc ⊢; omega
      · rw [to_choice_cons] at h3
        rcases h3 with h3 | ⟨-, h3⟩
        · rw [to_join, to_sequence_cons] at h3
          obtain ⟨x5, x6, rfl, h5, h6⟩ := h3
          rw [to_allOf] at h5; subst h5
          rw [to_sequence_cons] at h6
          obtain ⟨x7, x8, rfl, h7, h8⟩ := h6
          rw [to_sequence_nil] at h8; subst h8
          simp only [to_exactly_succ, to_exactly_zero, to_anyOf, mem_hex] at h7
          obtain ⟨_, _, rfl, ⟨c1, h1, rfl⟩, _, _, rfl, ⟨c2, h2, rfl⟩, _, _, rfl, ⟨c3, h3, rfl⟩, _, _, rfl,
            ⟨c4, h4, rfl⟩, rfl⟩ := h7
          exact .unicode h1 h2 h3 h4
        · exact (to_choice_nil h3).elim
    · exact (to_choice_nil h).elim

theorem validChar_complete (h : Character x) : To b validChar x y := by
  rw [validChar_eq, to_choice_cons]
  cases h with
  | plain h1 h2 => exact .inl (to_noneOf.2 ⟨_, by simp [h1, h2], rfl⟩)
  | @escape c hc =>
    refine .inr ⟨fails_noneOf.2 (by simp), to_choice_cons.2 (.inl (to_join.2 ?_))⟩
    refine to_sequence_cons.2 ⟨[92], [c], rfl, to_allOf.2 rfl, to_sequence_cons.2 ⟨[c], [], rfl, ?_, to_sequence_nil.2 rfl⟩⟩
    refine to_choice_cons.2 (.inl (to_anyOf.2 ⟨c, ?_, rfl⟩))
    simp at hc ⊢; omega
  | @unicode a b c d ha hb hc hd =>
    refine .inr ⟨fails_noneOf.2 (by simp), to_choice_cons.2 (.inl (to_join.2 ?_))⟩
    refine to_sequence_cons.2 ⟨[92], [117, a, b, c, d], rfl, to_allOf.2 rfl,
      to_sequence_cons.2 ⟨[117, a, b, c, d], [], rfl, ?_, to_sequence_nil.2 rfl⟩⟩
    refine to_choice_cons.2 (.inr ⟨fails_anyOf.2 (by simp), to_choice_cons.2 (.inl (to_join.2 ?_))⟩)
    refine to_sequence_cons.2 ⟨[117], [a, b, c, d], rfl, to_allOf.2 rfl,
      to_sequence_cons.2 ⟨[a, b, c, d], [], rfl, ?_, to_sequence_nil.2 rfl⟩⟩
    simp only [to_exactly_succ, to_exactly_zero, to_anyOf, mem_hex]
    exact ⟨[a], [b, c, d], rfl, ⟨a, ha, rfl⟩, [b], [c, d], rfl, ⟨b, hb, rfl⟩, [c], [d], rfl, ⟨c, hc, rfl⟩, [d], [], rfl,
      ⟨d, hd, rfl⟩, rfl⟩

theorem validChar_quote : Fails b validChar (34 :: y) := by
  rw [validChar_eq]
  refine fails_choice_cons.2 ⟨fails_noneOf.2 (by simp), fails_choice_cons.2 ⟨?_, fails_choice_nil⟩⟩
  refine fails_join.2 (fails_sequence_cons.2 (.inl (fails_allOf.2 ?_)))
  rintro ⟨t, h⟩; simp at h

theorem Character.ne_nil (h : Character x) : x ≠ [] := by cases h <;> simp

theorem chars_sound (h : To b (.zeroOrMore validChar) x y) : Characters x := by
  induction hn : x.length using Nat.strong_induction_on generalizing x with
  | _ n ih =>
    rw [to_zeroOrMore] at h
    rcases h with ⟨rfl, -⟩ | ⟨x1, x2, rfl, h1, h2⟩
    · exact .nil
    · have hc := validChar_sound h1
      refine .cons hc (ih _ ?_ h2 rfl)
      have := List.length_pos_iff.2 hc.ne_nil
      rw [← hn, List.length_append]; omega

theorem chars_complete (h : Characters x) : To b (.zeroOrMore validChar) x (34 :: y) := by
  induction h with
  | nil => exact to_zeroOrMore.2 (.inl ⟨rfl, validChar_quote⟩)
  | cons h _ ih => exact to_zeroOrMore.2 (.inr ⟨_, _, rfl, validChar_complete h, ih⟩)

/-- the parser below `integer`'s join -/
abbrev integerP : Parser Nat := .sequence [.choice [.allOf [45], .epsilon],
    .choice [.allOf [48], .join (.sequence [.anyOf oneNineClass, .zeroOrMore (.anyOf digitClass)])]]

/-- a natural number without superfluous zeros -/
inductive Natural : List Nat → Prop where
  | zero : Natural [48]
  | more {c x} : OneNine c → (∀ d ∈ x, Digit d) → Natural (c :: x)

theorem Natural.integer (h : Natural x) : Integer x := by
  cases h with
  | zero => exact .digit ⟨by omega, by omega⟩
  | @more c x hc hx =>
    cases x with
    | nil => exact .digit ⟨by have := hc.1; omega, hc.2⟩
    | cons d x => exact .digits hc ⟨by simp, hx⟩

theorem Natural.negative (h : Natural x) : Integer (45 :: x) := by
  cases h with
  | zero => exact .negDigit ⟨by omega, by omega⟩
  | @more c x hc hx =>
    cases x with
    | nil => exact .negDigit ⟨by have := hc.1; omega, hc.2⟩
    | cons d x => exact .negDigits hc ⟨by simp, hx⟩

theorem Natural.digit {c : Nat} (h : Digit c) : Natural [c] := by
  by_cases hc : c = 48
  · subst hc; exact .zero
  · exact .more ⟨by have := h.1; omega, h.2⟩ (by simp)

theorem integer_iff : Integer x ↔ Natural x ∨ ∃ z, x = 45 :: z ∧ Natural z := by
  constructor
  · intro h
    cases h with
    | digit h => exact .inl (.digit h)
    | digits h1 h2 => exact .inl (.more h1 h2.2)
    | negDigit h => exact .inr ⟨_, rfl, .digit h⟩
    | negDigits h1 h2 => exact .inr ⟨_, rfl, .more h1 h2.2⟩
  · rintro (h | ⟨z, rfl, h⟩)
    · exact h.integer
    · exact h.negative

abbrev naturalP : Parser Nat :=
  .choice [.allOf [48], .join (.sequence [.anyOf oneNineClass, .zeroOrMore (.anyOf digitClass)])]

theorem natural_sound (h : To b naturalP x y) : Natural x := by
  rw [to_choice_cons] at h
  rcases h with h | ⟨-, h⟩
  · rw [to_allOf] at h; subst h; exact .zero
  · rw [to_choice_cons] at h
    rcases h with h | ⟨-, h⟩
    · rw [to_join, to_sequence_cons] at h
      obtain ⟨x1, x2, rfl, h1, h2⟩ := h
      obtain ⟨c, hc, rfl⟩ := to_anyOf.1 h1
      rw [to_sequence_cons] at h2
      obtain ⟨x3, x4, rfl, h3, h4⟩ := h2
      rw [to_sequence_nil] at h4; subst h4
      rw [List.append_nil]
      exact .more (mem_oneNine.1 hc) fun d hd => mem_digit.1 ((to_many.1 h3).1 d hd)
    · exact (to_choice_nil h).elim

theorem natural_complete (h : Natural x) (hy : ∀ c ∈ y.head?, ¬ Digit c) : To b naturalP x y := by
  rw [to_choice_cons]
  cases h with
  | zero => exact .inl (to_allOf.2 rfl)
  | @more c x hc hx =>
    refine .inr ⟨fails_allOf.2 ?_, to_choice_cons.2 (.inl (to_join.2 ?_))⟩
    · rintro ⟨t, h⟩
      simp at h
      have := hc.1; omega
    · refine to_sequence_cons.2 ⟨[c], x, rfl, to_anyOf.2 ⟨c, mem_oneNine.2 hc, rfl⟩,
        to_sequence_cons.2 ⟨x, [], by simp, to_many.2 ⟨fun d hd => mem_digit.2 (hx d hd), ?_⟩, to_sequence_nil.2 rfl⟩⟩
      intro d hd
      rw [mem_digit]; exact hy d (by simpa using hd)

theorem natural_fails (h : ∀ c ∈ x.head?, ¬ Digit c) : Fails b naturalP x := by
  have key : ∀ c ∈ x.head?, c ≠ 48 ∧ c ∉ oneNineClass := by
    intro c hc
    have := h c hc
    rw [mem_oneNine]
    simp only [Digit, OneNine] at *
    omega
  refine fails_choice_cons.2 ⟨fails_allOf.2 ?_, fails_choice_cons.2 ⟨?_, fails_choice_nil⟩⟩
  · rintro ⟨t, rfl⟩
    exact (key 48 (by simp)).1 rfl
  · exact fails_join.2 (fails_sequence_cons.2 (.inl (fails_anyOf.2 fun c hc => (key c hc).2)))

theorem Natural.head (h : Natural x) : ∃ c z, x = c :: z ∧ Digit c := by
  cases h with
  | zero => exact ⟨_, _, rfl, by omega, by omega⟩
  | more h _ => exact ⟨_, _, rfl, by have := h.1; omega, h.2⟩

theorem integer_sound (h : To b integerP x y) : Integer x := by
  rw [to_sequence_cons] at h
  obtain ⟨x1, x2, rfl, h1, h2⟩ := h
  rw [to_sequence_cons] at h2
  obtain ⟨x3, x4, rfl, h3, h4⟩ := h2
  rw [to_sequence_nil] at h4; subst h4
  have hn := natural_sound h3
  rw [to_choice_cons] at h1
  rw [List.append_nil]
  rcases h1 with h1 | ⟨-, h1⟩
  · rw [to_allOf] at h1; subst h1
    exact hn.negative
  · rw [to_choice_cons] at h1
    rcases h1 with h1 | ⟨-, h1⟩
    · rw [to_epsilon] at h1; subst h1
      exact hn.integer
    · exact (to_choice_nil h1).elim

theorem integer_complete (h : Integer x) (hy : ∀ c ∈ y.head?, ¬ Digit c) : To b integerP x y := by
  rcases integer_iff.1 h with h1 | ⟨z, rfl, h1⟩
  · refine to_sequence_cons.2 ⟨[], x, rfl, ?_, to_sequence_cons.2 ⟨x, [], by simp, by simpa using natural_complete h1 hy,
      to_sequence_nil.2 rfl⟩⟩
    refine to_choice_cons.2 (.inr ⟨fails_allOf.2 ?_, to_choice_cons.2 (.inl (to_epsilon.2 rfl))⟩)
    obtain ⟨c, z, rfl, hc⟩ := h1.head
    rintro ⟨t, h⟩
    simp at h
    have := hc.1; omega
  · exact to_sequence_cons.2 ⟨[45], z, rfl, to_choice_cons.2 (.inl (to_allOf.2 rfl)),
      to_sequence_cons.2 ⟨z, [], by simp, by simpa using natural_complete h1 hy, to_sequence_nil.2 rfl⟩⟩

theorem integer_fails (h : ∀ c ∈ x.head?, ¬ Digit c ∧ c ≠ 45) : Fails b integerP x := by
  refine fails_sequence_cons.2 (.inr ⟨[], x, rfl, ?_, fails_sequence_cons.2 (.inl (natural_fails fun c hc => (h c hc).1))⟩)
  refine to_choice_cons.2 (.inr ⟨fails_allOf.2 ?_, to_choice_cons.2 (.inl (to_epsilon.2 rfl))⟩)
  rintro ⟨t, ht⟩
  rw [List.nil_append] at ht
  exact (h 45 (by rw [← ht]; simp)).2 rfl

theorem digits_iff : To b (.oneOrMore (.anyOf digitClass)) x y ↔ Digits x ∧ ∀ c ∈ y.head?, ¬ Digit c := by
  rw [to_some, Digits]
  simp only [mem_digit, and_assoc]

abbrev powerP : Parser Nat := .sequence [.choice [.anyOf [43, 45], .epsilon], .oneOrMore (.anyOf digitClass)]

theorem power_iff : To b powerP x y ↔
    (∃ sign z, x = sign ++ z ∧ (sign = [] ∨ sign = [43] ∨ sign = [45]) ∧ Digits z) ∧ ∀ c ∈ y.head?, ¬ Digit c := by
  constructor
  · intro h
    rw [to_sequence_cons] at h
    obtain ⟨x1, x2, rfl, h1, h2⟩ := h
    rw [to_sequence_cons] at h2
    obtain ⟨x3, x4, rfl, h3, h4⟩ := h2
    rw [to_sequence_nil] at h4; subst h4
    rw [List.append_nil]
    obtain ⟨h5, h6⟩ := digits_iff.1 h3
    refine ⟨⟨x1, x3, rfl, ?_, h5⟩, by simpa using h6⟩
    rw [to_choice_cons] at h1
    rcases h1 with h1 | ⟨-, h1⟩
    · obtain ⟨c, hc, rfl⟩ := to_anyOf.1 h1
      simp at hc; simp [hc]
    · rw [to_choice_cons] at h1
      rcases h1 with h1 | ⟨-, h1⟩
      · rw [to_epsilon] at h1; exact .inl h1
      · exact (to_choice_nil h1).elim
  · rintro ⟨⟨sign, z, rfl, hs, hz⟩, hy⟩
    refine to_sequence_cons.2 ⟨sign, z, rfl, ?_, to_sequence_cons.2 ⟨z, [], by simp, digits_iff.2 ⟨hz, by simpa using hy⟩,
      to_sequence_nil.2 rfl⟩⟩
    rcases hs with rfl | rfl | rfl
    · refine to_choice_cons.2 (.inr ⟨fails_anyOf.2 ?_, to_choice_cons.2 (.inl (to_epsilon.2 rfl))⟩)
      obtain ⟨h1, h2⟩ := hz
      cases z with
      | nil => exact (h1 rfl).elim
      | cons c z =>
        have := h2 c (by simp)
        simp [Digit] at this ⊢; omega
    · exact to_choice_cons.2 (.inl (to_anyOf.2 ⟨_, by simp, rfl⟩))
    · exact to_choice_cons.2 (.inl (to_anyOf.2 ⟨_, by simp, rfl⟩))

end

end Tok3n.Json
