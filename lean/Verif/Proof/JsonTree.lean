import Verif.Proof.JsonParts
/-
The JSON example: what values, arrays and objects parse.
-/

namespace Tok3n.Json

variable {m : Machine} {s s' : Span} {w : Val}

abbrev comma : Parser Nat := .ignore (.allOf [44])
/-- the body of arrays and objects -/
abbrev listBody (a b : Nat) (p : Parser Nat) : Parser Nat :=
  .sequence [.ignore (.allOf [a]), .choice [.delimit p comma, ws], .ignore (.allOf [b])]

theorem result_pair : resultFor (ctx m) pair = pairType := rfl
theorem result_string : resultFor (ctx m) string = .user 1 := by rw [string_eq, chars, validChar_eq]; rfl

/-! ### Taking the parsers apart -/

theorem list_split {a b : Nat} {p : Parser Nat} {t : Ty} (ht : resultFor (ctx m) p = t) (hv : t ≠ .void)
    (hp : parseOK (ctx m) (listBody a b p) = true)
    (hc : parseOK (ctx m) (.choice [.delimit p comma, ws]) = true) (hs : s.Valid m.mem) :
    Ok (ctx m) (listBody a b p) s w s' ↔ ∃ s1 s2, Reads m.mem s [a] s1 ∧ Reads m.mem s2 [b] s' ∧
      ((∃ vs ds, List1 (ctx m) p comma s1 vs ds s2 ∧ w = .vec vs) ∨
        (No (ctx m) p s1 ∧ See (ctx m) ws s1 s2 ∧ w = .vec [])) := by
  have hd : resultFor (ctx m) (.delimit p comma) = .vec t := by
    rw [resultFor, ht, show resultFor (ctx m) comma = .void from rfl, delimitTy]
    cases t <;> first | rfl | exact absurd rfl hv
  have hr : resultsFor (ctx m) [.delimit p comma, ws] = [.vec t, .void] := by
    rw [resultsFor, resultsFor, resultsFor, hd]; rfl
  have hdist : distinct [Ty.vec t, .void] = [.vec t] := by simp [distinct]
  have hct : choiceType (resultsFor (ctx m) [.delimit p comma, ws]) = .vec t := by rw [hr, choiceType, hdist]
  have hch : resultFor (ctx m) (.choice [.delimit p comma, ws]) ≠ .void := by
    rw [resultFor, choiceTrait_ty, hct]; nofun
  rw [listBody, ok_sequence hp]
  simp only [seqOk_skip (C := ctx m) (p := .ignore (.allOf [a])) rfl, seqOk_take (C := ctx m) hch,
    seqOk_skip (C := ctx m) (p := .ignore (.allOf [b])) rfl, seqOk_nil]
  have hi : Indexable (resultsFor (ctx m) [.delimit p comma, ws]) := indexable_pair _ _
  simp only [ok_choice (C := ctx m) (d := .vec []) hc hi (by rw [hct]; rfl), FirstOk, hd, hr, hdist,
    if_neg (show Ty.vec t ≠ .void from nofun), ok_delimit, no_delimit, ht,
    show resultFor (ctx m) ws = .void from rfl, if_true, show resultFor (ctx m) comma = .void from rfl,
    delimitValue, vectorValue, choiceValue, if_neg hv, and_false, or_false]
  have hok : ∀ {s1 s2 v}, ((∃ v', (∃ vs ds, List1 (ctx m) p comma s1 vs ds s2 ∧ v' = Val.vec vs) ∧ v = v') ∨
      (No (ctx m) p s1 ∧ See (ctx m) ws s1 s2 ∧ v = Val.vec [])) ↔
      ((∃ vs ds, List1 (ctx m) p comma s1 vs ds s2 ∧ v = .vec vs) ∨
        (No (ctx m) p s1 ∧ See (ctx m) ws s1 s2 ∧ v = .vec [])) := by
    intro s1 s2 v
    exact or_congr_left ⟨fun ⟨_, h, e⟩ => e ▸ h, fun h => ⟨_, h, rfl⟩⟩
  have hsuf : ∀ {s1 s2 v}, ((∃ vs ds, List1 (ctx m) p comma s1 vs ds s2 ∧ v = Val.vec vs) ∨
      (No (ctx m) p s1 ∧ See (ctx m) ws s1 s2 ∧ v = .vec [])) → s2.SuffixOf s1 := by
    rintro s1 s2 v (⟨vs, ds, h, rfl⟩ | ⟨-, h, -⟩)
    · exact (ok_delimit.2 ⟨vs, ds, h, rfl⟩).suffix
    · exact h.suffix
  simp only [hok]
  constructor
  · rintro ⟨vs, ⟨s1, h1, v, s2, _, h2, ⟨s3, h3, rfl, rfl⟩, rfl⟩, rfl⟩
    rw [see_ign hs] at h1
    exact ⟨s1, s2, h1, (see_ign ((hsuf h2).valid (h1.valid hs))).1 h3, h2⟩
  · rintro ⟨s1, s2, h1, h3, h2⟩
    exact ⟨_, ⟨s1, (see_ign hs).2 h1, w, s2, _, h2, ⟨s', (see_ign ((hsuf h2).valid (h1.valid hs))).2 h3, rfl, rfl⟩, rfl⟩, rfl⟩

theorem object_split (hs : s.Valid m.mem) : Ok (ctx m) (.custom 1) s w s' ↔
    ∃ s1 s2, Reads m.mem s [123] s1 ∧ Reads m.mem s2 [125] s' ∧
      ((∃ vs ds, List1 (ctx m) pair comma s1 vs ds s2 ∧ w = .vec vs) ∨
        (No (ctx m) pair s1 ∧ See (ctx m) ws s1 s2 ∧ w = .vec [])) := by
  have hb : ((ctx m).custom 1).body = listBody 123 125 pair := objectBody_eq
  rw [ok_custom (C := ctx m) (k := 1) id (.inl ⟨by rw [hb]; rfl, rfl⟩), hb]
  have := fun w => list_split (m := m) (s := s) (s' := s') (w := w) (a := 123) (b := 125) (p := pair) (t := pairType) rfl nofun
    (by rw [pair_eq, chars, validChar_eq]; rfl) (by rw [pair_eq, chars, validChar_eq]; rfl) hs
  simp only [this, id, exists_eq_right']

theorem array_split (hs : s.Valid m.mem) : Ok (ctx m) (.custom 2) s w s' ↔
    ∃ s1 s2, Reads m.mem s [91] s1 ∧ Reads m.mem s2 [93] s' ∧
      ((∃ vs ds, List1 (ctx m) (.custom 0) comma s1 vs ds s2 ∧ w = .vec vs) ∨
        (No (ctx m) (.custom 0) s1 ∧ See (ctx m) ws s1 s2 ∧ w = .vec [])) := by
  have hb : ((ctx m).custom 2).body = listBody 91 93 (.custom 0) := arrayBody_eq
  rw [ok_custom (C := ctx m) (k := 2) id (.inl ⟨by rw [hb]; rfl, rfl⟩), hb]
  have := fun w => list_split (m := m) (s := s) (s' := s') (w := w) (a := 91) (b := 93) (p := .custom 0) (t := valueType) rfl nofun
    rfl rfl hs
  simp only [this, id, exists_eq_right']

theorem no_list {k a b : Nat} {p : Parser Nat} (hb : ((ctx m).custom k).body = listBody a b p)
    (ht : resultFor (ctx m) (listBody a b p) = ((ctx m).custom k).ty) (hp : parseOK (ctx m) (listBody a b p) = true)
    (hs : s.Valid m.mem) (h : ∀ c ∈ (s.elems m.mem).head?, c ≠ a) : No (ctx m) (.custom k) s := by
  refine no_custom ?_ (.inl (by rw [hb, ht]))
  rw [hb, no_sequence hp]
  exact (seqNo_skip rfl).2 (.inl ((miss_ign hs).2 h))

theorem no_object (hs : s.Valid m.mem) (h : ∀ c ∈ (s.elems m.mem).head?, c ≠ 123) : No (ctx m) (.custom 1) s :=
  no_list (a := 123) (b := 125) (p := pair) objectBody_eq rfl (by rw [pair_eq, chars, validChar_eq]; rfl) hs h

theorem no_array (hs : s.Valid m.mem) (h : ∀ c ∈ (s.elems m.mem).head?, c ≠ 91) : No (ctx m) (.custom 2) s :=
  no_list (a := 91) (b := 93) (p := .custom 0) arrayBody_eq rfl rfl hs h

theorem pair_split (hs : s.Valid m.mem) : Ok (ctx m) pair s w s' ↔
    ∃ s1 s2 s3 s4 s5 s6 k v, See (ctx m) ws s s1 ∧ Reads m.mem s1 [34] s2 ∧ Ok (ctx m) chars s2 k s3 ∧
      Reads m.mem s3 [34] s4 ∧ See (ctx m) ws s4 s5 ∧ Reads m.mem s5 [58] s6 ∧ Ok (ctx m) (.custom 0) s6 v s' ∧
      w = .pair k v := by
  have hc : resultFor (ctx m) chars ≠ .void := by rw [chars, validChar_eq]; nofun
  rw [pair_eq, ok_map (by rw [chars, validChar_eq]; nofun) (by nofun)]
  simp only [ok_sequence (C := ctx m) (ps := [ws, quote, chars, quote, ws, .ignore (.allOf [58]), .custom 0])
    (by rw [chars, validChar_eq]; rfl), seqOk_skip (C := ctx m) (p := ws) rfl, seqOk_skip (C := ctx m) (p := quote) rfl,
    seqOk_skip (C := ctx m) (p := .ignore (.allOf [58])) rfl, seqOk_take (C := ctx m) hc,
    seqOk_take (C := ctx m) (p := .custom 0) nofun, seqOk_nil]
  constructor
  · rintro ⟨_, ⟨_, ⟨s1, h1, s2, h2, k, s3, _, h3, ⟨s4, h4, s5, h5, s6, h6, v, s7, _, h7, ⟨rfl, rfl⟩, rfl⟩, rfl⟩, rfl⟩, l, h8⟩
    have v1 := h1.suffix.valid hs
    have r2 := (see_ign v1).1 h2
    have v3 := h3.suffix.valid (r2.valid v1)
    have r4 := (see_ign v3).1 h4
    have v5 := h5.suffix.valid (r4.valid v3)
    refine ⟨s1, s2, s3, s4, s5, s6, k, v, h1, r2, h3, r4, h5, (see_ign v5).1 h6, h7, ?_⟩
    have e : invoke (ctx m) (.apply (.construct pairType)) [sequenceValue [k, v]] =
      .done [⟨.construct pairType, [k, v]⟩] (.ok (.pair k v)) := rfl
    rw [e] at h8; simp at h8; exact h8.2.symm
  · rintro ⟨s1, s2, s3, s4, s5, s6, k, v, h1, r2, h3, r4, h5, r6, h7, rfl⟩
    have v1 := h1.suffix.valid hs
    have v3 := h3.suffix.valid (r2.valid v1)
    have v5 := h5.suffix.valid (r4.valid v3)
    exact ⟨_, ⟨_, ⟨s1, h1, s2, (see_ign v1).2 r2, k, s3, _, h3, ⟨s4, (see_ign v3).2 r4, s5, h5, s6, (see_ign v5).2 r6,
      v, _, _, h7, ⟨rfl, rfl⟩, rfl⟩, rfl⟩, rfl⟩, _, rfl⟩

theorem no_pair (hs : s.Valid m.mem) {s1 : Span} (h1 : See (ctx m) ws s s1)
    (h : ∀ c ∈ (s1.elems m.mem).head?, c ≠ 34) : No (ctx m) pair s := by
  rw [pair_eq, no_map, no_sequence (by rw [chars, validChar_eq]; rfl)]
  exact (seqNo_skip rfl).2 (.inr ⟨s1, h1, (seqNo_skip rfl).2 (.inl ((miss_ign (h1.suffix.valid hs)).2 h))⟩)

/-! ### Values -/

abbrev alternatives : List (Parser Nat) := [string, number, .custom 1, .custom 2, trueP, falseP, nullP]
abbrev valueTys : List Ty := [.user 1, .user 0, .vec pairType, .vec valueType, .user 3, .user 3, .user 4]

theorem results_alternatives : resultsFor (ctx m) alternatives = valueTys := by
  simp only [alternatives, resultsFor, result_string]; rfl

theorem indexable_alternatives : Indexable valueTys := (filterOutVoidDeduplicate_snd _).1 rfl

/-- what the value of each alternative becomes -/
inductive AltOk (m : Machine) (s : Span) (s' : Span) : Val → Prop where
  | str {v} : Ok (ctx m) string s v s' → AltOk m s s' (.var 0 v)
  | num {v} : No (ctx m) string s → Ok (ctx m) number s v s' → AltOk m s s' (.var 1 v)
  | obj {v} : No (ctx m) string s → No (ctx m) number s → Ok (ctx m) (.custom 1) s v s' → AltOk m s s' (.var 2 v)
  | arr {v} : No (ctx m) string s → No (ctx m) number s → No (ctx m) (.custom 1) s → Ok (ctx m) (.custom 2) s v s' →
      AltOk m s s' (.var 3 v)
  | true {v} : No (ctx m) string s → No (ctx m) number s → No (ctx m) (.custom 1) s → No (ctx m) (.custom 2) s →
      Ok (ctx m) trueP s v s' → AltOk m s s' (.var 4 v)
  | false {v} : No (ctx m) string s → No (ctx m) number s → No (ctx m) (.custom 1) s → No (ctx m) (.custom 2) s →
      No (ctx m) trueP s → Ok (ctx m) falseP s v s' → AltOk m s s' (.var 4 v)
  | null {v} : No (ctx m) string s → No (ctx m) number s → No (ctx m) (.custom 1) s → No (ctx m) (.custom 2) s →
      No (ctx m) trueP s → No (ctx m) falseP s → Ok (ctx m) nullP s v s' → AltOk m s s' (.var 5 v)

theorem ok_alternatives : Ok (ctx m) (.choice alternatives) s w s' ↔ AltOk m s s' w := by
  have hr := results_alternatives (m := m)
  rw [ok_choice (C := ctx m) (ps := alternatives) (d := .var 0 (.user 1 0 [])) ?_ (by rw [hr]; exact indexable_alternatives) (by rw [hr]; rfl), hr]
  · have e : distinct valueTys = [.user 1, .user 0, .vec pairType, .vec valueType, .user 3, .user 4] := rfl
    have h1 : resultFor (ctx m) number = .user 0 := rfl
    have h2 : resultFor (ctx m) (.custom 1) = .vec pairType := rfl
    have h3 : resultFor (ctx m) (.custom 2) = .vec valueType := rfl
    have h4 : resultFor (ctx m) trueP = .user 3 := rfl
    have h5 : resultFor (ctx m) falseP = .user 3 := rfl
    have h6 : resultFor (ctx m) nullP = .user 4 := rfl
    rw [e]
    simp only [FirstOk, result_string, h1, h2, h3, h4, h5, h6, reduceCtorEq, if_false, and_false, or_false]
    have c0 : ∀ v, choiceValue [.user 1, .user 0, .vec pairType, .vec valueType, .user 3, .user 4] (.var 0 (.user 1 0 [])) (.user 1) v = .var 0 v := fun _ => rfl
    have c1 : ∀ v, choiceValue [.user 1, .user 0, .vec pairType, .vec valueType, .user 3, .user 4] (.var 0 (.user 1 0 [])) (.user 0) v = .var 1 v := fun _ => rfl
    have c2 : ∀ v, choiceValue [.user 1, .user 0, .vec pairType, .vec valueType, .user 3, .user 4] (.var 0 (.user 1 0 [])) (.vec pairType) v = .var 2 v := fun _ => rfl
    have c3 : ∀ v, choiceValue [.user 1, .user 0, .vec pairType, .vec valueType, .user 3, .user 4] (.var 0 (.user 1 0 [])) (.vec valueType) v = .var 3 v := fun _ => rfl
    have c4 : ∀ v, choiceValue [.user 1, .user 0, .vec pairType, .vec valueType, .user 3, .user 4] (.var 0 (.user 1 0 [])) (.user 3) v = .var 4 v := fun _ => rfl
    have c5 : ∀ v, choiceValue [.user 1, .user 0, .vec pairType, .vec valueType, .user 3, .user 4] (.var 0 (.user 1 0 [])) (.user 4) v = .var 5 v := fun _ => rfl
    simp only [c0, c1, c2, c3, c4, c5]
    constructor
    · rintro (⟨v, h, rfl⟩ | ⟨n1, ⟨v, h, rfl⟩ | ⟨n2, ⟨v, h, rfl⟩ | ⟨n3, ⟨v, h, rfl⟩ | ⟨n4, ⟨v, h, rfl⟩ | ⟨n5, ⟨v, h, rfl⟩ |
        ⟨n6, ⟨v, h, rfl⟩⟩⟩⟩⟩⟩⟩)
      · exact .str h
      · exact .num n1 h
      · exact .obj n1 n2 h
      · exact .arr n1 n2 n3 h
      · exact .true n1 n2 n3 n4 h
      · exact .false n1 n2 n3 n4 n5 h
      · exact .null n1 n2 n3 n4 n5 n6 h
    · rintro (h | ⟨n1, h⟩ | ⟨n1, n2, h⟩ | ⟨n1, n2, n3, h⟩ | ⟨n1, n2, n3, n4, h⟩ | ⟨n1, n2, n3, n4, n5, h⟩ |
        ⟨n1, n2, n3, n4, n5, n6, h⟩)
      · exact .inl ⟨_, h, rfl⟩
      · exact .inr ⟨n1, .inl ⟨_, h, rfl⟩⟩
      · exact .inr ⟨n1, .inr ⟨n2, .inl ⟨_, h, rfl⟩⟩⟩
      · exact .inr ⟨n1, .inr ⟨n2, .inr ⟨n3, .inl ⟨_, h, rfl⟩⟩⟩⟩
      · exact .inr ⟨n1, .inr ⟨n2, .inr ⟨n3, .inr ⟨n4, .inl ⟨_, h, rfl⟩⟩⟩⟩⟩
      · exact .inr ⟨n1, .inr ⟨n2, .inr ⟨n3, .inr ⟨n4, .inr ⟨n5, .inl ⟨_, h, rfl⟩⟩⟩⟩⟩⟩
      · exact .inr ⟨n1, .inr ⟨n2, .inr ⟨n3, .inr ⟨n4, .inr ⟨n5, .inr ⟨n6, ⟨_, h, rfl⟩⟩⟩⟩⟩⟩⟩
  · rw [alternatives, number_eq, string_eq, chars, validChar_eq, integer_eq, fraction_eq, exponent_eq]; rfl

theorem parse_alternatives : parseOK (ctx m) (.choice alternatives) = true := by
  rw [alternatives, number_eq, string_eq, chars, validChar_eq, integer_eq, fraction_eq, exponent_eq]; rfl

theorem result_alternatives : resultFor (ctx m) (.choice alternatives) = variantType := by
  rw [resultFor_choice, results_alternatives]; rfl

theorem value_body : ((ctx m).custom 0).body = .sequence [ws, .choice alternatives, ws] := valueBody_eq

theorem parse_value_seq : parseOK (ctx m) (.sequence [ws, .choice alternatives, ws]) = true := by
  have := parse_value (m := m)
  rwa [valueBody_eq] at this

theorem result_value_seq : resultFor (ctx m) (.sequence [ws, .choice alternatives, ws]) = variantType := by
  rw [resultFor_sequence, resultsFor, resultsFor, result_alternatives]; rfl

theorem value_split : Ok (ctx m) (.custom 0) s w s' ↔
    ∃ s1 s2 v, See (ctx m) ws s s1 ∧ AltOk m s1 s2 v ∧ See (ctx m) ws s2 s' ∧ w = .user 2 0 [v] := by
  rw [ok_custom (C := ctx m) (k := 0) (fun v => .user 2 0 [v]) (.inr ⟨?_, ?_, nofun, ?_, ?_⟩), value_body]
  · simp only [ok_sequence (C := ctx m) (ps := [ws, .choice alternatives, ws]) parse_value_seq,
      seqOk_skip (C := ctx m) (p := ws) rfl,
      seqOk_take (C := ctx m) (p := .choice alternatives) (by rw [result_alternatives]; nofun), seqOk_nil, ok_alternatives]
    constructor
    · rintro ⟨_, ⟨_, ⟨s1, h1, v, s2, _, h2, ⟨s3, h3, rfl, rfl⟩, rfl⟩, rfl⟩, rfl⟩
      exact ⟨s1, s2, _, h1, h2, h3, rfl⟩
    · rintro ⟨s1, s2, v, h1, h2, h3, rfl⟩
      exact ⟨_, ⟨_, ⟨s1, h1, v, s2, _, h2, ⟨_, h3, rfl, rfl⟩, rfl⟩, rfl⟩, rfl⟩
  · rw [value_body, result_value_seq]; nofun
  · rw [value_body, result_value_seq]; nofun
  · rw [value_body, result_value_seq]; rfl
  · rw [value_body, result_value_seq]; rfl

end Tok3n.Json
