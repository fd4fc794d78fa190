import Verif.Proof.Algebraic
/-
The algebraic example: what numbers parse, and the other parsers taken apart.
-/

namespace Tok3n.Algebraic

open Json (Ws Digit Digits Fraction digitClass mem_digit ws_iff mem_ws digits_iff Ends)

variable {m : Machine} {s s' : Span} {w : Val}

/-! ### Numbers -/

theorem leaf {p : Parser Nat} (hp : everyNode (leafB (ctx m)) (.join p) = true) {s : Span} (hs : s.Valid m.mem) :
    (∀ w s', Ok (ctx m) (.join p) s w s' ↔ ∃ x, Reads m.mem s x s' ∧ w = .span ⟨s.ptr, x.length⟩ ∧
      To (bodies (ctx m)) p x (s'.elems m.mem)) ∧
    (No (ctx m) (.join p) s ↔ Fails (bodies (ctx m)) p (s.elems m.mem)) :=
  join_leaf (C := ctx m) ctx_eqv ctx_throws ctx_typed ctx_local ctx_ok hp hs

theorem leaf_digits : everyNode (leafB (ctx m)) (.join digitsP) = true := rfl
theorem leaf_power : everyNode (leafB (ctx m)) (.join powerP) = true := rfl

theorem power_iff {b : Nat → Parser Nat} {x y : List Nat} : To b powerP x y ↔
    (∃ sign z, x = sign ++ z ∧ (sign = [] ∨ sign = [45]) ∧ Digits z) ∧ ∀ c ∈ y.head?, ¬ Digit c := by
  constructor
  · intro h
    rw [to_sequence_cons] at h
    obtain ⟨x1, x2, rfl, h1, h2⟩ := h
    rw [to_sequence_cons] at h2
    obtain ⟨x3, x4, rfl, h3, h4⟩ := h2
    rw [to_sequence_nil] at h4; subst h4
    rw [List.append_nil]
    obtain ⟨h5, h6⟩ := digits_iff.1 h3
    refine ⟨⟨x1, x3, rfl, ?_, h5⟩, by simpa using h6⟩
    rw [to_maybe] at h1
    rcases h1 with h1 | ⟨rfl, -⟩
    · rw [to_allOf] at h1; exact .inr h1
    · exact .inl rfl
  · rintro ⟨⟨sign, z, rfl, hs, hz⟩, hy⟩
    refine to_sequence_cons.2 ⟨sign, z, rfl, ?_, to_sequence_cons.2 ⟨z, [], by simp, digits_iff.2 ⟨hz, by simpa using hy⟩,
      to_sequence_nil.2 rfl⟩⟩
    rcases hs with rfl | rfl
    · refine to_maybe.2 (.inr ⟨rfl, fails_allOf.2 ?_⟩)
      obtain ⟨h1, h2⟩ := hz
      cases z with
      | nil => exact (h1 rfl).elim
      | cons c z =>
        have := h2 c (by simp)
        rintro ⟨t, h⟩
        simp at h
        simp [Digit] at this; omega
    · exact to_maybe.2 (.inl (to_allOf.2 rfl))

theorem some_digits {b : Nat → Parser Nat} {y : List Nat} (h : ∀ c ∈ y.head?, ¬ Digit c) : Fails b digitsP y := by
  exact fails_some.2 fun c hc => by rw [mem_digit]; exact h c hc

theorem integer_ok (hs : s.Valid m.mem) (h : Ok (ctx m) integerP s w s') :
    ∃ x sp, Reads m.mem s x s' ∧ Digits x ∧ w = .span sp ∧ sp.Valid m.mem ∧ sp.elems m.mem = x := by
  obtain ⟨x, h1, rfl, h2⟩ := ((leaf leaf_digits hs).1 w s').1 h
  exact ⟨x, _, h1, (digits_iff.1 h2).1, rfl, h1.span_valid hs, h1.elems⟩

theorem ok_integer (hs : s.Valid m.mem) {x : List Nat} (h : Reads m.mem s x s') (hx : Digits x)
    (hy : ∀ c ∈ (s'.elems m.mem).head?, ¬ Digit c) :
    ∃ sp, Ok (ctx m) integerP s (.span sp) s' ∧ sp.Valid m.mem ∧ sp.elems m.mem = x :=
  ⟨_, ((leaf leaf_digits hs).1 _ s').2 ⟨x, h, rfl, digits_iff.2 ⟨hx, hy⟩⟩, h.span_valid hs, h.elems⟩

theorem no_integer (hs : s.Valid m.mem) (h : ∀ c ∈ (s.elems m.mem).head?, ¬ Digit c) : No (ctx m) integerP s :=
  (leaf leaf_digits hs).2.2 (some_digits h)

theorem fraction_split (hs : s.Valid m.mem) : Ok (ctx m) fractionP s w s' ↔
    ∃ s1, See (ctx m) (.ignore (.allOf [46])) s s1 ∧ Ok (ctx m) (.join digitsP) s1 w s' := by
  rw [ok_join_after (C := ctx m) (q := digitsP) (r := .ignore (.allOf [46])) ⟨ctx_ok, rfl, rfl, rfl⟩
    ⟨ctx_ok, rfl, rfl, rfl⟩ ctx_typed (spanLocal_noMap ctx_local rfl) (spanLocal_noMap ctx_local rfl) ?_ hs]
  intro s v s'
  rw [ok_sequence rfl]
  simp only [seqOk_skip (C := ctx m) (p := .ignore (.allOf [46])) rfl,
    seqOk_take (C := ctx m) (p := digitsP) nofun, seqOk_nil]
  constructor
  · rintro ⟨vs, ⟨s1, h1, v, s2, ws, h2, ⟨rfl, rfl⟩, rfl⟩, rfl⟩
    exact ⟨s1, h1, h2⟩
  · rintro ⟨s1, h1, h2⟩
    exact ⟨_, ⟨s1, h1, v, _, _, h2, ⟨rfl, rfl⟩, rfl⟩, rfl⟩

theorem see_ign {l : List Nat} (hs : s.Valid m.mem) : See (ctx m) (.ignore (.allOf l)) s s' ↔ Reads m.mem s l s' :=
  Lexical.see_ign ctx_eqv hs
theorem miss_ign {c : Nat} (hs : s.Valid m.mem) :
    Miss (ctx m) (.ignore (.allOf [c])) s ↔ ∀ d ∈ (s.elems m.mem).head?, d ≠ c := Lexical.miss_ign ctx_eqv hs

theorem fraction_ok (hs : s.Valid m.mem) (h : Ok (ctx m) fractionP s w s') :
    ∃ x sp, Reads m.mem s (46 :: x) s' ∧ Digits x ∧ w = .span sp ∧ sp.Valid m.mem ∧ sp.elems m.mem = x := by
  obtain ⟨s1, h1, h2⟩ := (fraction_split hs).1 h
  rw [see_ign hs] at h1
  obtain ⟨x, h3, rfl, h4⟩ := ((leaf leaf_digits (h1.valid hs)).1 w s').1 h2
  exact ⟨x, _, h1.trans h3, (digits_iff.1 h4).1, rfl, h3.span_valid (h1.valid hs), h3.elems⟩

theorem ok_fraction (hs : s.Valid m.mem) {x : List Nat} (h : Reads m.mem s (46 :: x) s') (hx : Digits x)
    (hy : ∀ c ∈ (s'.elems m.mem).head?, ¬ Digit c) :
    ∃ sp, Ok (ctx m) fractionP s (.span sp) s' ∧ sp.Valid m.mem ∧ sp.elems m.mem = x := by
  obtain ⟨s1, h1, h2⟩ := Reads.split (x := [46]) hs h
  exact ⟨_, (fraction_split hs).2 ⟨s1, (see_ign hs).2 h1,
    ((leaf leaf_digits (h1.valid hs)).1 _ s').2 ⟨x, h2, rfl, digits_iff.2 ⟨hx, hy⟩⟩⟩, h2.span_valid (h1.valid hs), h2.elems⟩

theorem no_fraction (hs : s.Valid m.mem) (h : ∀ c ∈ (s.elems m.mem).head?, c ≠ 46) : No (ctx m) fractionP s := by
  refine no_join ⟨ctx_ok, rfl, rfl, rfl⟩ ctx_typed (spanLocal_noMap ctx_local rfl) hs ((no_sequence rfl).2 ?_)
  exact (seqNo_skip rfl).2 (.inl <| (miss_ign hs).2 h)

theorem exponent_split (hs : s.Valid m.mem) : Ok (ctx m) exponentP s w s' ↔
    ∃ s1, See (ctx m) (.ignore (.anyOf [69, 101])) s s1 ∧ Ok (ctx m) (.join powerP) s1 w s' := by
  rw [ok_join_after (C := ctx m) (q := powerP) (r := .ignore (.anyOf [69, 101])) ⟨ctx_ok, rfl, rfl, rfl⟩
    ⟨ctx_ok, rfl, rfl, rfl⟩ ctx_typed (spanLocal_noMap ctx_local rfl) (spanLocal_noMap ctx_local rfl) ?_ hs]
  intro s v s'
  rw [ok_sequence rfl]
  simp only [seqOk_skip (C := ctx m) (p := .ignore (.anyOf [69, 101])) rfl]
  have key : ∀ s1, Ok (ctx m) powerP s1 v s' ↔ _ := fun s1 => ok_sequence (C := ctx m) rfl
  constructor
  · rintro ⟨vs, ⟨s1, h1, h2⟩, rfl⟩
    exact ⟨s1, h1, (key s1).2 ⟨_, h2, rfl⟩⟩
  · rintro ⟨s1, h1, h2⟩
    obtain ⟨vs, h3, rfl⟩ := (key s1).1 h2
    exact ⟨_, ⟨s1, h1, h3⟩, rfl⟩

theorem exponent_ok (hs : s.Valid m.mem) (h : Ok (ctx m) exponentP s w s') :
    ∃ x y sp, Reads m.mem s x s' ∧ Exponent x (some y) ∧ w = .span sp ∧ sp.Valid m.mem ∧ sp.elems m.mem = y := by
  obtain ⟨s1, h1, h2⟩ := (exponent_split hs).1 h
  obtain ⟨e, he, h1⟩ := (Lexical.see_class ctx_eqv hs).1 h1
  have h1 : Reads m.mem s [e] s1 := h1
  obtain ⟨x, h3, rfl, h4⟩ := ((leaf leaf_power (h1.valid hs)).1 w s').1 h2
  obtain ⟨⟨sign, z, rfl, h5, h6⟩, -⟩ := power_iff.1 h4
  exact ⟨_, _, _, h1.trans h3, .some (sign := sign) (by simpa using he) h5 h6, rfl, h3.span_valid (h1.valid hs), h3.elems⟩

theorem ok_exponent (hs : s.Valid m.mem) {x y : List Nat} (h : Reads m.mem s x s') (hx : Exponent x (some y))
    (hy : ∀ c ∈ (s'.elems m.mem).head?, ¬ Digit c) :
    ∃ sp, Ok (ctx m) exponentP s (.span sp) s' ∧ sp.Valid m.mem ∧ sp.elems m.mem = y := by
  cases hx with
  | @some e sign z he hsg hz =>
    obtain ⟨s1, h1, h2⟩ := Reads.split (x := [e]) hs h
    exact ⟨_, (exponent_split hs).2 ⟨s1, (Lexical.see_class ctx_eqv hs).2 ⟨e, by simpa using he, h1⟩,
      ((leaf leaf_power (h1.valid hs)).1 _ s').2 ⟨_, h2, rfl, power_iff.2 ⟨⟨sign, z, rfl, hsg, hz⟩, hy⟩⟩⟩,
      h2.span_valid (h1.valid hs), h2.elems⟩

theorem no_exponent (hs : s.Valid m.mem) (h : ∀ c ∈ (s.elems m.mem).head?, c ≠ 69 ∧ c ≠ 101) : No (ctx m) exponentP s := by
  refine no_join ⟨ctx_ok, rfl, rfl, rfl⟩ ctx_typed (spanLocal_noMap ctx_local rfl) hs ((no_sequence rfl).2 ?_)
  exact (seqNo_skip rfl).2 (.inl <| (Lexical.miss_class ctx_eqv hs).2 fun c hc => by simpa using h c hc)

theorem number_split : Ok (ctx m) (.custom 0) s w s' ↔
    ∃ a b c s1 s2, Ok (ctx m) integerP s a s1 ∧ Ok (ctx m) (.maybe fractionP) s1 b s2 ∧
      Ok (ctx m) (.maybe exponentP) s2 c s' ∧ w = .user 0 0 [a, b, c] := by
  have hb : ((ctx m).custom 0).body = .map (.sequence numberParts) (.apply (.construct (.user 0))) := numberBody_eq
  rw [ok_custom (C := ctx m) (k := 0) id (.inl ⟨by rw [hb]; rfl, rfl⟩), hb]
  simp only [id, exists_eq_right']
  rw [ok_map (by nofun) (by nofun)]
  simp only [ok_sequence (C := ctx m) (ps := numberParts) rfl, numberParts, seqOk_take (C := ctx m) (p := integerP) (by nofun),
    seqOk_take (C := ctx m) (p := .maybe fractionP) (by nofun),
    seqOk_take (C := ctx m) (p := .maybe exponentP) (by nofun), seqOk_nil]
  constructor
  · rintro ⟨v, ⟨vs, ⟨a, s1, _, h1, ⟨b, s2, _, h2, ⟨c, s3, _, h3, ⟨rfl, rfl⟩, rfl⟩, rfl⟩, rfl⟩, rfl⟩, l, h4⟩
    refine ⟨a, b, c, s1, s2, h1, h2, h3, ?_⟩
    have e : invoke (ctx m) (.apply (.construct (.user 0))) [sequenceValue [a, b, c]] =
      .done [⟨.construct (.user 0), [a, b, c]⟩] (.ok (.user 0 0 [a, b, c])) := rfl
    rw [e] at h4; simp at h4; exact h4.2.symm
  · rintro ⟨a, b, c, s1, s2, h1, h2, h3, rfl⟩
    exact ⟨_, ⟨_, ⟨a, s1, _, h1, ⟨b, s2, _, h2, ⟨c, _, _, h3, ⟨rfl, rfl⟩, rfl⟩, rfl⟩, rfl⟩, rfl⟩, _, rfl⟩

theorem number_ok (hs : s.Valid m.mem) (h : Ok (ctx m) (.custom 0) s w s') :
    ∃ x n, Reads m.mem s x s' ∧ IsNumber x n ∧ RepNumber m.mem w n := by
  obtain ⟨a, b, c, s1, s2, h1, h2, h3, rfl⟩ := number_split.1 h
  obtain ⟨i, sp, r1, hi, rfl, hv, rfl⟩ := integer_ok hs h1
  have hs1 := r1.valid hs
  have hf : ∃ f fo, Reads m.mem s1 f s2 ∧ Fraction f fo ∧ RepOpt m.mem b fo := by
    rcases ok_maybe.1 h2 with ⟨v, hv, rfl⟩ | ⟨-, rfl, rfl⟩
    · obtain ⟨x, sp, r, hx, rfl, hv, rfl⟩ := fraction_ok hs1 hv
      exact ⟨_, _, r, .some hx, .some hv⟩
    · exact ⟨[], none, .refl, .none, .none⟩
  obtain ⟨f, fo, r2, hf, hb⟩ := hf
  have hs2 := r2.valid hs1
  have he : ∃ e eo, Reads m.mem s2 e s' ∧ Exponent e eo ∧ RepOpt m.mem c eo := by
    rcases ok_maybe.1 h3 with ⟨v, hv, rfl⟩ | ⟨-, rfl, rfl⟩
    · obtain ⟨x, y, sp, r, hx, rfl, hv, rfl⟩ := exponent_ok hs2 hv
      exact ⟨_, _, r, hx, .some hv⟩
    · exact ⟨[], none, .refl, .none, .none⟩
  obtain ⟨e, eo, r3, he, hc⟩ := he
  exact ⟨_, _, r1.trans (r2.trans r3), .mk hi hf he, .mk hv hb hc⟩

theorem ok_number (hs : s.Valid m.mem) {x : List Nat} {n : Number} (r : Reads m.mem s x s') (hn : IsNumber x n)
    (hy : Ends (s'.elems m.mem)) : ∃ v, Ok (ctx m) (.custom 0) s v s' ∧ RepNumber m.mem v n := by
  obtain ⟨hi, hf, he⟩ := hn
  rename_i i f e fo eo
  obtain ⟨s1, r1, r⟩ := r.split hs
  have hs1 := r1.valid hs
  obtain ⟨s2, r2, r3⟩ := r.split hs1
  have hs2 := r2.valid hs1
  have hd : ∀ c ∈ (s'.elems m.mem).head?, ¬ Digit c := fun c hc => (hy c hc).1
  -- the exponent, and what its text starts with
  obtain ⟨c, h3, hc, hd2⟩ : ∃ c, Ok (ctx m) (.maybe exponentP) s2 c s' ∧ RepOpt m.mem c eo ∧
      ∀ c ∈ (s2.elems m.mem).head?, ¬ Digit c ∧ c ≠ 46 := by
    cases he with
    | none =>
      have e := r3.eq; simp only [List.length_nil, Span.drop_zero] at e; subst e
      refine ⟨_, ok_maybe.2 (.inr ⟨no_exponent hs2 fun c hc => (hy c hc).2.2, rfl, rfl⟩), .none, fun c hc => ?_⟩
      exact ⟨(hy c hc).1, (hy c hc).2.1⟩
    | @some e sign x h1 h2 h3 =>
      obtain ⟨sp, h, hv, hsp⟩ := ok_exponent hs2 r3 (.some h1 h2 h3) hd
      refine ⟨_, ok_maybe.2 (.inl ⟨_, h, rfl⟩), hsp ▸ .some hv, fun c hc => ?_⟩
      rw [r3.text] at hc
      simp at hc; subst hc
      simp only [Digit]
      omega
  obtain ⟨b, h2, hb, hd1⟩ : ∃ b, Ok (ctx m) (.maybe fractionP) s1 b s2 ∧ RepOpt m.mem b fo ∧
      ∀ c ∈ (s1.elems m.mem).head?, ¬ Digit c := by
    cases hf with
    | none =>
      have e := r2.eq; simp only [List.length_nil, Span.drop_zero] at e; subst e
      exact ⟨_, ok_maybe.2 (.inr ⟨no_fraction hs1 fun c hc => (hd2 c hc).2, rfl, rfl⟩), .none, fun c hc => (hd2 c hc).1⟩
    | @some x h1 =>
      obtain ⟨sp, h, hv, hsp⟩ := ok_fraction hs1 r2 h1 fun c hc => (hd2 c hc).1
      refine ⟨_, ok_maybe.2 (.inl ⟨_, h, rfl⟩), hsp ▸ .some hv, fun c hc => ?_⟩
      rw [r2.text] at hc
      simp at hc; subst hc
      simp only [Digit]
      omega
  obtain ⟨sp, h1, hv, rfl⟩ := ok_integer hs r1 hi hd1
  exact ⟨_, number_split.2 ⟨_, _, _, s1, s2, h1, h2, h3, rfl⟩, .mk hv hb hc⟩

theorem no_number (hs : s.Valid m.mem) (h : ∀ c ∈ (s.elems m.mem).head?, ¬ Digit c) : No (ctx m) (.custom 0) s := by
  have hb : ((ctx m).custom 0).body = .map (.sequence numberParts) (.apply (.construct (.user 0))) := numberBody_eq
  refine no_custom ?_ (.inl (by rw [hb]; rfl))
  rw [hb, no_map, no_sequence rfl]
  exact (seqNo_take (by nofun)).2 (.inl (no_integer hs h))

/-! ### The other parsers -/

theorem arg_split {k : Nat} (hp : parseOK (ctx m) (argP k) = true) (hk : resultFor (ctx m) (.custom k) ≠ .void) :
    Ok (ctx m) (argP k) s w s' ↔ ∃ s1, See (ctx m) wsP s s1 ∧ Ok (ctx m) (.custom k) s1 w s' := by
  rw [ok_sequence hp]
  simp only [seqOk_skip (C := ctx m) (p := wsP) rfl, seqOk_take (C := ctx m) hk, seqOk_nil]
  constructor
  · rintro ⟨vs, ⟨s1, h1, v, s2, ws, h2, ⟨rfl, rfl⟩, rfl⟩, rfl⟩
    exact ⟨s1, h1, h2⟩
  · rintro ⟨s1, h1, h2⟩
    exact ⟨_, ⟨s1, h1, _, _, _, h2, ⟨rfl, rfl⟩, rfl⟩, rfl⟩

theorem no_arg {k : Nat} (hp : parseOK (ctx m) (argP k) = true) (hk : resultFor (ctx m) (.custom k) ≠ .void) {s1 : Span}
    (h1 : See (ctx m) wsP s s1) (h2 : No (ctx m) (.custom k) s1) : No (ctx m) (argP k) s := by
  rw [no_sequence hp]
  exact (seqNo_skip rfl).2 (.inr ⟨s1, h1, (seqNo_take hk).2 (.inl h2)⟩)

theorem see_op {l : List Nat} (hs : s.Valid m.mem) : See (ctx m) (opP l) s s' ↔
    ∃ s1, See (ctx m) wsP s s1 ∧ ∃ c ∈ l, Reads m.mem s1 [c] s' := by
  rw [see_iff ctx_eqv hs]
  simp only [to_sequence_cons, to_sequence_nil, to_map, to_anyOf, to_ignore]
  constructor
  · rintro ⟨_, r, a, _, rfl, h1, _, _, rfl, ⟨c, hc, rfl⟩, rfl⟩
    rw [List.append_nil] at r
    obtain ⟨s1, r1, r2⟩ := r.split hs
    refine ⟨s1, (see_iff ctx_eqv hs).2 ⟨a, r1, to_ignore.2 ?_⟩, c, hc, r2⟩
    have e : s1.elems (ctx m).mem = [c] ++ s'.elems (ctx m).mem := r2.text
    have : (s1.elems (ctx m).mem) = [c] ++ [] ++ s'.elems (ctx m).mem := by simpa using e
    rw [this]; exact h1
  · rintro ⟨s1, h1, c, hc, r2⟩
    obtain ⟨a, r1, h1⟩ := (see_iff ctx_eqv hs).1 h1
    rw [to_ignore] at h1
    refine ⟨_, r1.trans r2, a, [c], rfl, ?_, [c], [], rfl, ⟨c, hc, rfl⟩, rfl⟩
    have e : s1.elems (ctx m).mem = [c] ++ s'.elems (ctx m).mem := r2.text
    rwa [e] at h1

theorem no_op {l : List Nat} (hs : s.Valid m.mem) {s1 : Span} (h1 : See (ctx m) wsP s s1)
    (h2 : ∀ c ∈ (s1.elems m.mem).head?, c ∉ l) : No (ctx m) (opP l) s := by
  rw [no_sequence rfl]
  refine (seqNo_skip rfl).2 (.inr ⟨s1, h1, (seqNo_take (by nofun)).2 (.inl (no_map.2 ?_))⟩)
  exact (Lexical.no_any ctx_eqv (h1.suffix.valid hs)).2 h2

theorem miss_op {l : List Nat} (hs : s.Valid m.mem) {s1 : Span} (h1 : See (ctx m) wsP s s1)
    (h2 : ∀ c ∈ (s1.elems m.mem).head?, c ∉ l) : Miss (ctx m) (opP l) s := by
  obtain ⟨a, r1, h1⟩ := (see_iff ctx_eqv hs).1 h1
  refine (miss_iff ctx_eqv hs).2 (fails_sequence_cons.2 (.inr ⟨a, _, r1.text, h1, fails_sequence_cons.2 (.inl ?_)⟩))
  exact fails_map.2 (fails_anyOf.2 h2)

theorem factor_split : Ok (ctx m) (.custom 2) s w s' ↔
    ∃ vs ds, List1 (ctx m) (argP 1) (.ignore (opP [94])) s vs ds s' ∧ w = .vec vs := by
  have hb : ((ctx m).custom 2).body = .delimit (argP 1) (.ignore (opP [94])) := factorBody_eq
  rw [ok_custom (C := ctx m) (k := 2) id (.inl ⟨by rw [hb]; rfl, rfl⟩), hb]
  simp only [id, exists_eq_right', ok_delimit]; rfl

theorem term_split : Ok (ctx m) (.custom 3) s w s' ↔
    ∃ vs ds, List1 (ctx m) (argP 2) (opP [42, 47]) s vs ds s' ∧ w = .pair (.vec vs) (.vec ds) := by
  have hb : ((ctx m).custom 3).body = .delimit (argP 2) (opP [42, 47]) := termBody_eq
  rw [ok_custom (C := ctx m) (k := 3) id (.inl ⟨by rw [hb]; rfl, rfl⟩), hb]
  simp only [id, exists_eq_right', ok_delimit]; rfl

theorem expr_split : Ok (ctx m) (.custom 4) s w s' ↔
    ∃ vs ds, List1 (ctx m) (argP 3) (opP [43, 45]) s vs ds s' ∧ w = .pair (.vec vs) (.vec ds) := by
  have hb : ((ctx m).custom 4).body = .delimit (argP 3) (opP [43, 45]) := exprBody_eq
  rw [ok_custom (C := ctx m) (k := 4) id (.inl ⟨by rw [hb]; rfl, rfl⟩), hb]
  simp only [id, exists_eq_right', ok_delimit]; rfl

theorem paren_split (hs : s.Valid m.mem) : Ok (ctx m) parenP s w s' ↔
    ∃ s1 s2 s3 s4 v, Reads m.mem s [40] s1 ∧ See (ctx m) wsP s1 s2 ∧ Ok (ctx m) (.custom 4) s2 v s3 ∧
      See (ctx m) wsP s3 s4 ∧ Reads m.mem s4 [41] s' ∧ w = .user 3 0 [v] := by
  rw [ok_map (by nofun) (by nofun)]
  have e : ∀ v, invoke (ctx m) (.construct (.user 3)) [v] = .done [⟨.construct (.user 3), [v]⟩] (.ok (.user 3 0 [v])) :=
    fun _ => rfl
  simp only [e, ok_sequence (C := ctx m) (ps := [.ignore (.allOf [40]), wsP, .custom 4, wsP, .ignore (.allOf [41])]) rfl,
    seqOk_skip (C := ctx m) (p := .ignore (.allOf [40])) rfl, seqOk_skip (C := ctx m) (p := .ignore (.allOf [41])) rfl,
    seqOk_skip (C := ctx m) (p := wsP) rfl, seqOk_take (C := ctx m) (p := .custom 4) (by nofun), seqOk_nil]
  constructor
  · rintro ⟨v, ⟨_, ⟨s1, h1, s2, h2, _, s3, _, h3, ⟨s4, h4, s5, h5, rfl, rfl⟩, rfl⟩, rfl⟩, l, h6⟩
    have r1 := (see_ign hs).1 h1
    have v3 := h3.suffix.valid (h2.suffix.valid (r1.valid hs))
    have h6 : Val.user 3 0 [v] = w := by simp [sequenceValue] at h6; exact h6.2
    exact ⟨s1, s2, s3, s4, v, r1, h2, h3, h4, (see_ign (h4.suffix.valid v3)).1 h5, h6.symm⟩
  · rintro ⟨s1, s2, s3, s4, v, r1, h2, h3, h4, r5, rfl⟩
    have v3 := h3.suffix.valid (h2.suffix.valid (r1.valid hs))
    exact ⟨_, ⟨_, ⟨s1, (see_ign hs).2 r1, s2, h2, v, s3, _, h3, ⟨s4, h4, _, (see_ign (h4.suffix.valid v3)).2 r5, rfl, rfl⟩,
      rfl⟩, rfl⟩, _, rfl⟩

theorem no_paren (hs : s.Valid m.mem) (h : ∀ c ∈ (s.elems m.mem).head?, c ≠ 40) : No (ctx m) parenP s := by
  rw [no_map, no_sequence rfl]
  exact (seqNo_skip rfl).2 (.inl ((miss_ign hs).2 h))

theorem neg_split (hs : s.Valid m.mem) : Ok (ctx m) negP s w s' ↔
    ∃ s1 s2 v, Reads m.mem s [45] s1 ∧ See (ctx m) wsP s1 s2 ∧ Ok (ctx m) (.custom 4) s2 v s' ∧ w = .user 4 0 [v] := by
  rw [ok_map (by nofun) (by nofun)]
  have e : ∀ v, invoke (ctx m) (.construct (.user 4)) [v] = .done [⟨.construct (.user 4), [v]⟩] (.ok (.user 4 0 [v])) :=
    fun _ => rfl
  simp only [e, ok_sequence (C := ctx m) (ps := [.ignore (.allOf [45]), wsP, .custom 4]) rfl,
    seqOk_skip (C := ctx m) (p := .ignore (.allOf [45])) rfl,
    seqOk_skip (C := ctx m) (p := wsP) rfl, seqOk_take (C := ctx m) (p := .custom 4) (by nofun), seqOk_nil]
  constructor
  · rintro ⟨v, ⟨_, ⟨s1, h1, s2, h2, _, s3, _, h3, ⟨rfl, rfl⟩, rfl⟩, rfl⟩, l, h6⟩
    have h6 : Val.user 4 0 [v] = w := by simp [sequenceValue] at h6; exact h6.2
    exact ⟨s1, s2, v, (see_ign hs).1 h1, h2, h3, h6.symm⟩
  · rintro ⟨s1, s2, v, r1, h2, h3, rfl⟩
    exact ⟨_, ⟨_, ⟨s1, (see_ign hs).2 r1, s2, h2, v, _, _, h3, ⟨rfl, rfl⟩, rfl⟩, rfl⟩, _, rfl⟩

theorem no_neg (hs : s.Valid m.mem) (h : ∀ c ∈ (s.elems m.mem).head?, c ≠ 45) : No (ctx m) negP s := by
  rw [no_map, no_sequence rfl]
  exact (seqNo_skip rfl).2 (.inl ((miss_ign hs).2 h))

/-- what the value of each alternative becomes -/
inductive AltOk (m : Machine) (s : Span) (s' : Span) : Val → Prop where
  | paren {v} : Ok (ctx m) parenP s v s' → AltOk m s s' (.var 0 v)
  | neg {v} : No (ctx m) parenP s → Ok (ctx m) negP s v s' → AltOk m s s' (.var 1 v)
  | num {v} : No (ctx m) parenP s → No (ctx m) negP s → Ok (ctx m) (.custom 0) s v s' → AltOk m s s' (.var 2 v)

abbrev alternatives : List (Parser Nat) := [parenP, negP, .custom 0]

theorem results_alternatives : resultsFor (ctx m) alternatives = [.user 3, .user 4, .user 0] := rfl

theorem ok_alternatives : Ok (ctx m) (.choice alternatives) s w s' ↔ AltOk m s s' w := by
  have hr := results_alternatives (m := m)
  rw [ok_choice (C := ctx m) (ps := alternatives) (d := .var 0 (.user 3 0 [])) rfl
    (by rw [hr]; exact (filterOutVoidDeduplicate_snd _).1 rfl) (by rw [hr]; rfl), hr]
  have e : distinct [Ty.user 3, .user 4, .user 0] = [.user 3, .user 4, .user 0] := rfl
  have h0 : resultFor (ctx m) parenP = .user 3 := rfl
  have h1 : resultFor (ctx m) negP = .user 4 := rfl
  have h2 : resultFor (ctx m) (.custom 0) = .user 0 := rfl
  rw [e]
  simp only [FirstOk, h0, h1, h2, reduceCtorEq, if_false, and_false, or_false]
  have c0 : ∀ v, choiceValue [.user 3, .user 4, .user 0] (.var 0 (.user 3 0 [])) (.user 3) v = .var 0 v := fun _ => rfl
  have c1 : ∀ v, choiceValue [.user 3, .user 4, .user 0] (.var 0 (.user 3 0 [])) (.user 4) v = .var 1 v := fun _ => rfl
  have c2 : ∀ v, choiceValue [.user 3, .user 4, .user 0] (.var 0 (.user 3 0 [])) (.user 0) v = .var 2 v := fun _ => rfl
  simp only [c0, c1, c2]
  constructor
  · rintro (⟨v, h, rfl⟩ | ⟨n1, ⟨v, h, rfl⟩ | ⟨n2, ⟨v, h, rfl⟩⟩⟩)
    · exact .paren h
    · exact .neg n1 h
    · exact .num n1 n2 h
  · rintro (h | ⟨n1, h⟩ | ⟨n1, n2, h⟩)
    · exact .inl ⟨_, h, rfl⟩
    · exact .inr ⟨n1, .inl ⟨_, h, rfl⟩⟩
    · exact .inr ⟨n1, .inr ⟨n2, ⟨_, h, rfl⟩⟩⟩

theorem powterm_split : Ok (ctx m) (.custom 1) s w s' ↔ ∃ v, AltOk m s s' v ∧ w = .user 2 0 [v] := by
  have hb : ((ctx m).custom 1).body = .map (.choice alternatives) (.construct (.user 2)) := powtermBody_eq
  rw [ok_custom (C := ctx m) (k := 1) id (.inl ⟨by rw [hb]; rfl, rfl⟩), hb]
  simp only [id, exists_eq_right']
  rw [ok_map (by nofun) (by nofun)]
  have e : ∀ v, invoke (ctx m) (.construct (.user 2)) [v] = .done [⟨.construct (.user 2), [v]⟩] (.ok (.user 2 0 [v])) :=
    fun _ => rfl
  simp only [e, ok_alternatives]
  refine exists_congr fun v => and_congr_right fun _ => ?_
  simp [eq_comm]

theorem no_powterm (hs : s.Valid m.mem) (h : ∀ c ∈ (s.elems m.mem).head?, c ≠ 40 ∧ c ≠ 45 ∧ ¬ Digit c) :
    No (ctx m) (.custom 1) s := by
  have hb : ((ctx m).custom 1).body = .map (.choice alternatives) (.construct (.user 2)) := powtermBody_eq
  refine no_custom ?_ (.inl (by rw [hb]; rfl))
  rw [hb, no_map, no_choice rfl ((filterOutVoidDeduplicate_snd _).1 rfl)]
  have h0 : resultFor (ctx m) parenP ≠ .void := by nofun
  have h1 : resultFor (ctx m) negP ≠ .void := by nofun
  have h2 : resultFor (ctx m) (.custom 0) ≠ .void := by nofun
  simp only [FirstNo, if_neg h0, if_neg h1, if_neg h2, and_true]
  exact ⟨no_paren hs fun c hc => (h c hc).1, no_neg hs fun c hc => (h c hc).2.1, no_number hs fun c hc => (h c hc).2.2⟩

theorem input_split : Ok (ctx m) (.custom 5) s w s' ↔
    ∃ s1 s2, See (ctx m) wsP s s1 ∧ Ok (ctx m) (.custom 4) s1 w s2 ∧ See (ctx m) wsP s2 s' ∧ s'.len = 0 := by
  have hb : ((ctx m).custom 5).body = .complete (.sequence [wsP, .custom 4, wsP]) := inputBody_eq
  rw [ok_custom (C := ctx m) (k := 5) id (.inl ⟨by rw [hb]; rfl, rfl⟩), hb]
  simp only [id, exists_eq_right']
  have hc : Ok (ctx m) (.complete (.sequence [wsP, .custom 4, wsP])) s w s' ↔
      Ok (ctx m) (.sequence [wsP, .custom 4, wsP]) s w s' ∧ s'.len = 0 := by
    simp only [Ok, fun l => (C27_complete (ctx m) (.sequence [wsP, .custom 4, wsP]) s s' l).1 w, exists_and_right]
  rw [hc, ok_sequence rfl]
  simp only [seqOk_skip (C := ctx m) (p := wsP) rfl, seqOk_take (C := ctx m) (p := .custom 4) (by nofun), seqOk_nil]
  constructor
  · rintro ⟨⟨_, ⟨s1, h1, v, s2, _, h2, ⟨s3, h3, rfl, rfl⟩, rfl⟩, rfl⟩, h0⟩
    exact ⟨s1, s2, h1, h2, h3, h0⟩
  · rintro ⟨s1, s2, h1, h2, h3, h0⟩
    exact ⟨⟨_, ⟨s1, h1, _, s2, _, h2, ⟨_, h3, rfl, rfl⟩, rfl⟩, rfl⟩, h0⟩

end Tok3n.Algebraic
