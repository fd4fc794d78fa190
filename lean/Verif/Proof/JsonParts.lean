import Verif.Proof.Json
import Verif.Proof.Lexical
/-
The JSON example: what numbers, strings, white space and punctuation parse.
-/

namespace Tok3n.Json

variable {m : Machine} {s s' : Span} {w : Val}

/-! ### Punctuation and white space -/

theorem see_lit {l : List Nat} (hs : s.Valid m.mem) : See (ctx m) (.allOf l) s s' ↔ Reads m.mem s l s' :=
  Lexical.see_lit ctx_eqv hs
theorem see_ign {l : List Nat} (hs : s.Valid m.mem) : See (ctx m) (.ignore (.allOf l)) s s' ↔ Reads m.mem s l s' :=
  Lexical.see_ign ctx_eqv hs
theorem see_class {l : List Nat} (hs : s.Valid m.mem) :
    See (ctx m) (.ignore (.anyOf l)) s s' ↔ ∃ c ∈ l, Reads m.mem s [c] s' := Lexical.see_class ctx_eqv hs
theorem miss_class {l : List Nat} (hs : s.Valid m.mem) :
    Miss (ctx m) (.ignore (.anyOf l)) s ↔ ∀ c ∈ (s.elems m.mem).head?, c ∉ l := Lexical.miss_class ctx_eqv hs
theorem miss_ign {c : Nat} (hs : s.Valid m.mem) :
    Miss (ctx m) (.ignore (.allOf [c])) s ↔ ∀ d ∈ (s.elems m.mem).head?, d ≠ c := Lexical.miss_ign ctx_eqv hs
theorem see_ws (hs : s.Valid m.mem) : See (ctx m) ws s s' ↔
    ∃ a, Reads m.mem s a s' ∧ Ws a ∧ ∀ c ∈ (s'.elems m.mem).head?, ¬ Ws [c] := by
  simp only [Lexical.see_many (C := ctx m) ctx_eqv hs, ws_iff, List.mem_singleton, forall_eq]; rfl
theorem ok_lit {l : List Nat} (hs : s.Valid m.mem) :
    Ok (ctx m) (.allOf l) s w s' ↔ Reads m.mem s l s' ∧ w = .span ⟨s.ptr, l.length⟩ := Lexical.ok_lit ctx_eqv hs
theorem no_lit {l : List Nat} (hs : s.Valid m.mem) : No (ctx m) (.allOf l) s ↔ ¬ l <+: s.elems m.mem :=
  Lexical.no_lit ctx_eqv hs

/-! ### Numbers -/

theorem integer_ok (hs : s.Valid m.mem) (h : Ok (ctx m) integer s w s') :
    ∃ x sp, Reads m.mem s x s' ∧ Integer x ∧ w = .span sp ∧ sp.elems m.mem = x := by
  obtain ⟨x, h1, rfl, h2⟩ := ((leaf leaf_integer hs).1 w s').1 h
  exact ⟨x, _, h1, integer_sound h2, rfl, h1.elems⟩

theorem ok_integer (hs : s.Valid m.mem) {x : List Nat} (h : Reads m.mem s x s') (hx : Integer x)
    (hy : ∀ c ∈ (s'.elems m.mem).head?, ¬ Digit c) : ∃ sp, Ok (ctx m) integer s (.span sp) s' ∧ sp.elems m.mem = x :=
  ⟨_, ((leaf leaf_integer hs).1 _ s').2 ⟨x, h, rfl, integer_complete hx hy⟩, h.elems⟩

theorem no_integer (hs : s.Valid m.mem) (h : ∀ c ∈ (s.elems m.mem).head?, ¬ Digit c ∧ c ≠ 45) :
    No (ctx m) integer s := (leaf leaf_integer hs).2.2 (integer_fails h)

theorem fraction_split (hs : s.Valid m.mem) : Ok (ctx m) fraction s w s' ↔
    ∃ s1, See (ctx m) (.ignore (.allOf [46])) s s1 ∧ Ok (ctx m) (.join (.oneOrMore (.anyOf digitClass))) s1 w s' := by
  rw [fraction_eq, ok_join_after (q := .oneOrMore (.anyOf digitClass)) (r := .ignore (.allOf [46])) ⟨ctx_ok, rfl, rfl, rfl⟩
    ⟨ctx_ok, rfl, rfl, rfl⟩ ctx_typed (spanLocal_noMap ctx_local rfl) (spanLocal_noMap ctx_local rfl) ?_ hs]
  intro s v s'
  rw [ok_sequence rfl]
  simp only [seqOk_skip (C := ctx m) (p := .ignore (.allOf [46])) rfl,
    seqOk_take (C := ctx m) (p := .oneOrMore (.anyOf digitClass)) nofun, seqOk_nil]
  constructor
  · rintro ⟨vs, ⟨s1, h1, v, s2, ws, h2, ⟨rfl, rfl⟩, rfl⟩, rfl⟩
    exact ⟨s1, h1, h2⟩
  · rintro ⟨s1, h1, h2⟩
    exact ⟨_, ⟨s1, h1, v, _, _, h2, ⟨rfl, rfl⟩, rfl⟩, rfl⟩

theorem fraction_ok (hs : s.Valid m.mem) (h : Ok (ctx m) fraction s w s') :
    ∃ x sp, Reads m.mem s (46 :: x) s' ∧ Digits x ∧ w = .span sp ∧ sp.elems m.mem = x := by
  obtain ⟨s1, h1, h2⟩ := (fraction_split hs).1 h
  rw [see_ign hs] at h1
  obtain ⟨x, h3, rfl, h4⟩ := ((leaf leaf_digits (h1.valid hs)).1 w s').1 h2
  exact ⟨x, _, h1.trans h3, (digits_iff.1 h4).1, rfl, h3.elems⟩

theorem ok_fraction (hs : s.Valid m.mem) {x : List Nat} (h : Reads m.mem s (46 :: x) s') (hx : Digits x)
    (hy : ∀ c ∈ (s'.elems m.mem).head?, ¬ Digit c) : ∃ sp, Ok (ctx m) fraction s (.span sp) s' ∧ sp.elems m.mem = x := by
  obtain ⟨s1, h1, h2⟩ := Reads.split (x := [46]) hs h
  exact ⟨_, (fraction_split hs).2 ⟨s1, (see_ign hs).2 h1,
    ((leaf leaf_digits (h1.valid hs)).1 _ s').2 ⟨x, h2, rfl, digits_iff.2 ⟨hx, hy⟩⟩⟩, h2.elems⟩

theorem no_fraction (hs : s.Valid m.mem) (h : ∀ c ∈ (s.elems m.mem).head?, c ≠ 46) : No (ctx m) fraction s := by
  rw [fraction_eq]
  refine no_join ⟨ctx_ok, rfl, rfl, rfl⟩ ctx_typed (spanLocal_noMap ctx_local rfl) hs ((no_sequence rfl).2 ?_)
  exact (seqNo_skip rfl).2 (.inl <| (miss_ign hs).2 h)

theorem exponent_split (hs : s.Valid m.mem) : Ok (ctx m) exponent s w s' ↔
    ∃ s1, See (ctx m) (.ignore (.anyOf [69, 101])) s s1 ∧ Ok (ctx m) (.join powerP) s1 w s' := by
  rw [exponent_eq, ok_join_after (q := powerP) (r := .ignore (.anyOf [69, 101])) ⟨ctx_ok, rfl, rfl, rfl⟩
    ⟨ctx_ok, rfl, rfl, rfl⟩ ctx_typed (spanLocal_noMap ctx_local rfl) (spanLocal_noMap ctx_local rfl) ?_ hs]
  intro s v s'
  rw [ok_sequence rfl]
  simp only [seqOk_skip (C := ctx m) (p := .ignore (.anyOf [69, 101])) rfl]
  have key : ∀ s1, Ok (ctx m) powerP s1 v s' ↔ _ := fun s1 => ok_sequence (C := ctx m) rfl
  constructor
  · rintro ⟨vs, ⟨s1, h1, h2⟩, rfl⟩
    exact ⟨s1, h1, (key s1).2 ⟨_, h2, rfl⟩⟩
  · rintro ⟨s1, h1, h2⟩
    obtain ⟨vs, h3, rfl⟩ := (key s1).1 h2
    exact ⟨_, ⟨s1, h1, h3⟩, rfl⟩

theorem exponent_ok (hs : s.Valid m.mem) (h : Ok (ctx m) exponent s w s') :
    ∃ x y sp, Reads m.mem s x s' ∧ Exponent x (some y) ∧ w = .span sp ∧ sp.elems m.mem = y := by
  obtain ⟨s1, h1, h2⟩ := (exponent_split hs).1 h
  obtain ⟨e, he, h1⟩ := (see_class hs).1 h1
  obtain ⟨x, h3, rfl, h4⟩ := ((leaf leaf_power (h1.valid hs)).1 w s').1 h2
  obtain ⟨⟨sign, z, rfl, h5, h6⟩, -⟩ := power_iff.1 h4
  exact ⟨_, _, _, h1.trans h3, .some (sign := sign) (by simpa using he) h5 h6, rfl, h3.elems⟩

theorem ok_exponent (hs : s.Valid m.mem) {x y : List Nat} (h : Reads m.mem s x s') (hx : Exponent x (some y))
    (hy : ∀ c ∈ (s'.elems m.mem).head?, ¬ Digit c) : ∃ sp, Ok (ctx m) exponent s (.span sp) s' ∧ sp.elems m.mem = y := by
  cases hx with
  | @some e sign z he hsg hz =>
    obtain ⟨s1, h1, h2⟩ := Reads.split (x := [e]) hs h
    exact ⟨_, (exponent_split hs).2 ⟨s1, (see_class hs).2 ⟨e, by simpa using he, h1⟩,
      ((leaf leaf_power (h1.valid hs)).1 _ s').2 ⟨_, h2, rfl, power_iff.2 ⟨⟨sign, z, rfl, hsg, hz⟩, hy⟩⟩⟩, h2.elems⟩

theorem no_exponent (hs : s.Valid m.mem) (h : ∀ c ∈ (s.elems m.mem).head?, c ≠ 69 ∧ c ≠ 101) : No (ctx m) exponent s := by
  rw [exponent_eq]
  refine no_join ⟨ctx_ok, rfl, rfl, rfl⟩ ctx_typed (spanLocal_noMap ctx_local rfl) hs ((no_sequence rfl).2 ?_)
  exact (seqNo_skip rfl).2 (.inl <| (miss_class hs).2 fun c hc => by simpa using h c hc)

theorem number_split : Ok (ctx m) number s w s' ↔
    ∃ a b c s1 s2, Ok (ctx m) integer s a s1 ∧ Ok (ctx m) (.maybe fraction) s1 b s2 ∧
      Ok (ctx m) (.maybe exponent) s2 c s' ∧ w = .user 0 0 [a, b, c] := by
  have hi : resultFor (ctx m) integer = .span := rfl
  have hf : resultFor (ctx m) (.maybe fraction) = .opt .span := rfl
  have he : resultFor (ctx m) (.maybe exponent) = .opt .span := rfl
  rw [number_eq, ok_map (by rw [integer_eq, fraction_eq, exponent_eq]; nofun) (by nofun)]
  simp only [ok_sequence (C := ctx m) (ps := [integer, .maybe fraction, .maybe exponent])
    (by rw [integer_eq, fraction_eq, exponent_eq]; rfl), seqOk_take (C := ctx m) (p := integer) (by rw [hi]; nofun),
    seqOk_take (C := ctx m) (p := .maybe fraction) (by rw [hf]; nofun),
    seqOk_take (C := ctx m) (p := .maybe exponent) (by rw [he]; nofun), seqOk_nil]
  constructor
  · rintro ⟨v, ⟨vs, ⟨a, s1, _, h1, ⟨b, s2, _, h2, ⟨c, s3, _, h3, ⟨rfl, rfl⟩, rfl⟩, rfl⟩, rfl⟩, rfl⟩, l, h4⟩
    refine ⟨a, b, c, s1, s2, h1, h2, h3, ?_⟩
    have e : invoke (ctx m) (.apply (.construct (.user 0))) [sequenceValue [a, b, c]] =
      .done [⟨.construct (.user 0), [a, b, c]⟩] (.ok (.user 0 0 [a, b, c])) := rfl
    rw [e] at h4; simp at h4; exact h4.2.symm
  · rintro ⟨a, b, c, s1, s2, h1, h2, h3, rfl⟩
    exact ⟨_, ⟨_, ⟨a, s1, _, h1, ⟨b, s2, _, h2, ⟨c, _, _, h3, ⟨rfl, rfl⟩, rfl⟩, rfl⟩, rfl⟩, rfl⟩, _, rfl⟩

theorem number_ok (hs : s.Valid m.mem) (h : Ok (ctx m) number s w s') :
    ∃ i f e fo eo sp a b, Reads m.mem s (i ++ (f ++ e)) s' ∧ Integer i ∧ Fraction f fo ∧ Exponent e eo ∧
      w = .user 0 0 [.span sp, a, b] ∧ sp.elems m.mem = i ∧ RepOpt m.mem a fo ∧ RepOpt m.mem b eo := by
  obtain ⟨a, b, c, s1, s2, h1, h2, h3, rfl⟩ := number_split.1 h
  obtain ⟨i, sp, r1, hi, rfl, hsp⟩ := integer_ok hs h1
  have hs1 := r1.valid hs
  have hf : ∃ f fo, Reads m.mem s1 f s2 ∧ Fraction f fo ∧ RepOpt m.mem b fo := by
    rcases ok_maybe.1 h2 with ⟨v, hv, rfl⟩ | ⟨-, rfl, rfl⟩
    · obtain ⟨x, sp, r, hx, rfl, rfl⟩ := fraction_ok hs1 hv
      exact ⟨_, _, r, .some hx, .some⟩
    · exact ⟨[], none, .refl, .none, .none⟩
  obtain ⟨f, fo, r2, hf, hb⟩ := hf
  have hs2 := r2.valid hs1
  have he : ∃ e eo, Reads m.mem s2 e s' ∧ Exponent e eo ∧ RepOpt m.mem c eo := by
    rcases ok_maybe.1 h3 with ⟨v, hv, rfl⟩ | ⟨-, rfl, rfl⟩
    · obtain ⟨x, y, sp, r, hx, rfl, rfl⟩ := exponent_ok hs2 hv
      exact ⟨_, _, r, hx, .some⟩
    · exact ⟨[], none, .refl, .none, .none⟩
  obtain ⟨e, eo, r3, he, hc⟩ := he
  exact ⟨i, f, e, fo, eo, sp, b, c, r1.trans (r2.trans r3), hi, hf, he, rfl, hsp, hb, hc⟩

/-- a number ends before this text -/
def Ends (y : List Nat) : Prop := ∀ c ∈ y.head?, ¬ Digit c ∧ c ≠ 0x2E ∧ c ≠ 0x45 ∧ c ≠ 0x65

theorem ok_number (hs : s.Valid m.mem) {i f e : List Nat} {fo eo : Option (List Nat)} (r : Reads m.mem s (i ++ (f ++ e)) s')
    (hi : Integer i) (hf : Fraction f fo) (he : Exponent e eo) (hy : Ends (s'.elems m.mem)) :
    ∃ sp a b, Ok (ctx m) number s (.user 0 0 [.span sp, a, b]) s' ∧ sp.elems m.mem = i ∧ RepOpt m.mem a fo ∧
      RepOpt m.mem b eo := by
  obtain ⟨s1, r1, r⟩ := r.split hs
  have hs1 := r1.valid hs
  obtain ⟨s2, r2, r3⟩ := r.split hs1
  have hs2 := r2.valid hs1
  have hd : ∀ c ∈ (s'.elems m.mem).head?, ¬ Digit c := fun c hc => (hy c hc).1
  -- the exponent, and what its text starts with
  obtain ⟨c, h3, hc, hd2⟩ : ∃ c, Ok (ctx m) (.maybe exponent) s2 c s' ∧ RepOpt m.mem c eo ∧
      ∀ c ∈ (s2.elems m.mem).head?, ¬ Digit c ∧ c ≠ 46 := by
    cases he with
    | none =>
      have e := r3.eq; simp only [List.length_nil, Span.drop_zero] at e; subst e
      refine ⟨_, ok_maybe.2 (.inr ⟨no_exponent hs2 fun c hc => (hy c hc).2.2, rfl, rfl⟩), .none, fun c hc => ?_⟩
      exact ⟨(hy c hc).1, (hy c hc).2.1⟩
    | @some e sign x h1 h2 h3 =>
      obtain ⟨sp, h, hsp⟩ := ok_exponent hs2 r3 (.some h1 h2 h3) hd
      refine ⟨_, ok_maybe.2 (.inl ⟨_, h, rfl⟩), hsp ▸ .some, fun c hc => ?_⟩
      rw [r3.text] at hc
      simp at hc; subst hc
      simp only [Digit]
      omega
  obtain ⟨b, h2, hb, hd1⟩ : ∃ b, Ok (ctx m) (.maybe fraction) s1 b s2 ∧ RepOpt m.mem b fo ∧
      ∀ c ∈ (s1.elems m.mem).head?, ¬ Digit c := by
    cases hf with
    | none =>
      have e := r2.eq; simp only [List.length_nil, Span.drop_zero] at e; subst e
      exact ⟨_, ok_maybe.2 (.inr ⟨no_fraction hs1 fun c hc => (hd2 c hc).2, rfl, rfl⟩), .none, fun c hc => (hd2 c hc).1⟩
    | @some x h1 =>
      obtain ⟨sp, h, hsp⟩ := ok_fraction hs1 r2 h1 fun c hc => (hd2 c hc).1
      refine ⟨_, ok_maybe.2 (.inl ⟨_, h, rfl⟩), hsp ▸ .some, fun c hc => ?_⟩
      rw [r2.text] at hc
      simp at hc; subst hc
      simp only [Digit]
      omega
  obtain ⟨sp, h1, hsp⟩ := ok_integer hs r1 hi hd1
  exact ⟨sp, b, c, number_split.2 ⟨_, _, _, s1, s2, h1, h2, h3, rfl⟩, hsp, hb, hc⟩

theorem no_number (hs : s.Valid m.mem) (h : ∀ c ∈ (s.elems m.mem).head?, ¬ Digit c ∧ c ≠ 45) : No (ctx m) number s := by
  rw [number_eq, no_map, no_sequence (by rw [integer_eq, fraction_eq, exponent_eq]; rfl)]
  exact (seqNo_take (by rw [integer_eq]; nofun)).2 (.inl (no_integer hs h))

/-! ### Strings -/

theorem chars_split : Ok (ctx m) chars s w s' ↔
    ∃ v, Ok (ctx m) (.join (.zeroOrMore validChar)) s v s' ∧ w = .user 1 0 [v] := by
  rw [chars, ok_map (by rw [validChar_eq]; nofun) (by nofun)]
  refine exists_congr fun v => and_congr_right fun _ => ?_
  have e : invoke (ctx m) (.construct (.user 1)) [v] = .done [⟨.construct (.user 1), [v]⟩] (.ok (.user 1 0 [v])) := rfl
  rw [e]; simp [eq_comm]

theorem chars_ok (hs : s.Valid m.mem) (h : Ok (ctx m) chars s w s') :
    ∃ x, Reads m.mem s x s' ∧ Characters x ∧ RepString m.mem w x := by
  obtain ⟨v, h1, rfl⟩ := chars_split.1 h
  obtain ⟨x, r, rfl, h2⟩ := ((leaf leaf_chars hs).1 v s').1 h1
  refine ⟨x, r, chars_sound h2, ?_⟩
  have := RepString.mk (mem := m.mem) (sp := ⟨s.ptr, x.length⟩)
  rwa [r.elems] at this

theorem ok_chars (hs : s.Valid m.mem) {x y : List Nat} (r : Reads m.mem s x s') (hx : Characters x)
    (hy : s'.elems m.mem = 34 :: y) : ∃ w, Ok (ctx m) chars s w s' ∧ RepString m.mem w x := by
  refine ⟨_, chars_split.2 ⟨_, ((leaf leaf_chars hs).1 _ s').2 ⟨x, r, rfl, ?_⟩, rfl⟩, ?_⟩
  · rw [hy]; exact chars_complete hx
  · have := RepString.mk (mem := m.mem) (sp := ⟨s.ptr, x.length⟩)
    rwa [r.elems] at this

theorem string_split (hs : s.Valid m.mem) : Ok (ctx m) string s w s' ↔
    ∃ s1 s2, Reads m.mem s [34] s1 ∧ Ok (ctx m) chars s1 w s2 ∧ Reads m.mem s2 [34] s' := by
  have hc : resultFor (ctx m) chars ≠ .void := by rw [chars, validChar_eq]; nofun
  rw [string_eq, ok_sequence (by rw [chars, validChar_eq]; rfl)]
  simp only [seqOk_skip (C := ctx m) (p := quote) rfl, seqOk_take hc, seqOk_nil, see_ign hs]
  constructor
  · rintro ⟨vs, ⟨s1, r1, v, s2, _, h2, ⟨s3, h3, rfl, rfl⟩, rfl⟩, rfl⟩
    have hs2 := h2.suffix.valid (r1.valid hs)
    exact ⟨s1, s2, r1, h2, (see_ign hs2).1 h3⟩
  · rintro ⟨s1, s2, r1, h2, r3⟩
    have hs2 := h2.suffix.valid (r1.valid hs)
    exact ⟨_, ⟨s1, r1, _, s2, _, h2, ⟨_, (see_ign hs2).2 r3, rfl, rfl⟩, rfl⟩, rfl⟩

theorem string_ok (hs : s.Valid m.mem) (h : Ok (ctx m) string s w s') :
    ∃ x, Reads m.mem s (34 :: (x ++ [34])) s' ∧ Characters x ∧ RepString m.mem w x := by
  obtain ⟨s1, s2, r1, h2, r3⟩ := (string_split hs).1 h
  obtain ⟨x, r2, hx, hw⟩ := chars_ok (r1.valid hs) h2
  exact ⟨x, r1.trans (r2.trans r3), hx, hw⟩

theorem ok_string (hs : s.Valid m.mem) {x : List Nat} (r : Reads m.mem s (34 :: (x ++ [34])) s') (hx : Characters x) :
    ∃ w, Ok (ctx m) string s w s' ∧ RepString m.mem w x := by
  obtain ⟨s1, r1, r⟩ := Reads.split (x := [34]) hs r
  obtain ⟨s2, r2, r3⟩ := r.split (r1.valid hs)
  obtain ⟨w, h, hw⟩ := ok_chars (r1.valid hs) r2 hx r3.text
  exact ⟨w, (string_split hs).2 ⟨s1, s2, r1, h, r3⟩, hw⟩

theorem no_string (hs : s.Valid m.mem) (h : ∀ c ∈ (s.elems m.mem).head?, c ≠ 34) : No (ctx m) string s := by
  rw [string_eq, no_sequence (by rw [chars, validChar_eq]; rfl)]
  exact (seqNo_skip rfl).2 (.inl ((miss_ign hs).2 h))

end Tok3n.Json
