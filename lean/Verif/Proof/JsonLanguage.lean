import Verif.Proof.JsonTree
/-
The JSON example: it accepts the texts of the grammar, and only those.
-/

namespace Tok3n.Json

variable {m : Machine}

theorem const_ok {l : List Nat} {k : Nat} {s s' : Span} {w : Val} (hs : s.Valid m.mem)
    (hv : resultFor (ctx m) (.map (.allOf l) (.const k)) ≠ .void) :
    Ok (ctx m) (.map (.allOf l) (.const k)) s w s' ↔ Reads m.mem s l s' ∧ w = (ctx m).constVal k := by
  rw [ok_map (by nofun) hv]
  simp only [ok_lit hs]
  have e : ∀ v, invoke (ctx m) (.const k) [v] = .done [⟨.const k, [v]⟩] (.ok ((ctx m).constVal k)) := fun _ => rfl
  constructor
  · rintro ⟨v, ⟨r, rfl⟩, l, h⟩
    rw [e] at h; simp at h; exact ⟨r, h.2.symm⟩
  · rintro ⟨r, rfl⟩; exact ⟨_, ⟨r, rfl⟩, _, e _⟩

/-! ### Soundness -/

/-- values that start in less than `n` elements are right -/
def SoundBelow (m : Machine) (n : Nat) : Prop := ∀ s w s', s.Valid m.mem → s.len < n → Ok (ctx m) (.custom 0) s w s' →
  ∃ x d, Reads m.mem s x s' ∧ Element x d ∧ Rep m.mem w d

theorem elements_sound {n : Nat} (ih : SoundBelow m n) {s s' : Span} {vs ds : List Val}
    (h : List1 (ctx m) (.custom 0) comma s vs ds s') : s.Valid m.mem → s.len < n →
    ∃ x es, Reads m.mem s x s' ∧ Elements x es ∧ RepElements m.mem vs es := by
  induction h with
  | last h _ =>
    intro hs hn
    obtain ⟨x, d, r, hx, hd⟩ := ih _ _ _ hs hn h
    exact ⟨x, [d], r, .one hx, .cons hd .nil⟩
  | more h1 h2 _ ih2 =>
    intro hs hn
    obtain ⟨x, d, r, hx, hd⟩ := ih _ _ _ hs hn h1
    have hs1 := r.valid hs
    have r2 := (see_lit hs1).1 (ok_ignore.1 h2).1
    have l1 := r.size; have l2 := r2.size
    obtain ⟨y, es, r3, hy, he⟩ := ih2 (r2.valid hs1) (by omega)
    exact ⟨_, _, r.trans (r2.trans r3), .more hx hy, .cons hd he⟩

theorem member_sound {n : Nat} (ih : SoundBelow m n) {s s' : Span} {w : Val} (hs : s.Valid m.mem) (hn : s.len < n)
    (h : Ok (ctx m) pair s w s') :
    ∃ x raw d k v, Reads m.mem s x s' ∧ Member x (raw, d) ∧ w = .pair k v ∧ RepString m.mem k raw ∧ Rep m.mem v d := by
  obtain ⟨s1, s2, s3, s4, s5, s6, k, v, h1, r2, h3, r4, h5, r6, h7, rfl⟩ := (pair_split hs).1 h
  obtain ⟨a, r1, ha, -⟩ := (see_ws hs).1 h1
  have v1 := r1.valid hs
  have v2 := r2.valid v1
  obtain ⟨raw, r3, hraw, hk⟩ := chars_ok v2 h3
  have v3 := r3.valid v2
  have v4 := r4.valid v3
  obtain ⟨b, r5, hb, -⟩ := (see_ws v4).1 h5
  have v5 := r5.valid v4
  have l1 := r1.size; have l2 := r2.size; have l3 := r3.size; have l4 := r4.size; have l5 := r5.size; have l6 := r6.size
  obtain ⟨x, d, r7, hx, hd⟩ := ih _ _ _ (r6.valid v5) (by omega) h7
  exact ⟨_, raw, d, k, v, r1.trans (r2.trans (r3.trans (r4.trans (r5.trans (r6.trans r7))))), .mk ha hraw hb hx, rfl, hk, hd⟩

theorem members_sound {n : Nat} (ih : SoundBelow m n) {s s' : Span} {vs ds : List Val}
    (h : List1 (ctx m) pair comma s vs ds s') : s.Valid m.mem → s.len < n →
    ∃ x ms, Reads m.mem s x s' ∧ Members x ms ∧ RepMembers m.mem vs ms := by
  induction h with
  | last h _ =>
    intro hs hn
    obtain ⟨x, raw, d, k, v, r, hx, rfl, hk, hd⟩ := member_sound ih hs hn h
    exact ⟨x, [(raw, d)], r, .one hx, .cons hk hd .nil⟩
  | more h1 h2 _ ih2 =>
    intro hs hn
    obtain ⟨x, raw, d, k, v, r, hx, rfl, hk, hd⟩ := member_sound ih hs hn h1
    have hs1 := r.valid hs
    have r2 := (see_lit hs1).1 (ok_ignore.1 h2).1
    have l1 := r.size; have l2 := r2.size
    obtain ⟨y, es, r3, hy, he⟩ := ih2 (r2.valid hs1) (by omega)
    exact ⟨_, _, r.trans (r2.trans r3), .more hx hy, .cons hk hd he⟩

theorem object_sound_below {n : Nat} (ih : SoundBelow m n) {s s' : Span} {w : Val} (hs : s.Valid m.mem) (hn : s.len ≤ n)
    (h : Ok (ctx m) (.custom 1) s w s') :
    ∃ x ms vs, Reads m.mem s x s' ∧ Value x (.obj ms) ∧ w = .vec vs ∧ RepMembers m.mem vs ms := by
  obtain ⟨s1, s2, r1, r3, h1⟩ := (object_split hs).1 h
  have v1 := r1.valid hs
  have l1 := r1.size
  simp at l1
  rcases h1 with ⟨vs, ds, h2, rfl⟩ | ⟨-, h2, rfl⟩
  · obtain ⟨x, ms, r2, hx, hm⟩ := members_sound ih h2 v1 (by omega)
    exact ⟨_, ms, vs, r1.trans (r2.trans r3), .obj hx, rfl, hm⟩
  · obtain ⟨a, r2, ha, -⟩ := (see_ws v1).1 h2
    exact ⟨_, [], [], r1.trans (r2.trans r3), .emptyObj ha, rfl, .nil⟩

theorem array_sound_below {n : Nat} (ih : SoundBelow m n) {s s' : Span} {w : Val} (hs : s.Valid m.mem) (hn : s.len ≤ n)
    (h : Ok (ctx m) (.custom 2) s w s') :
    ∃ x es vs, Reads m.mem s x s' ∧ Value x (.arr es) ∧ w = .vec vs ∧ RepElements m.mem vs es := by
  obtain ⟨s1, s2, r1, r3, h1⟩ := (array_split hs).1 h
  have v1 := r1.valid hs
  have l1 := r1.size
  simp at l1
  rcases h1 with ⟨vs, ds, h2, rfl⟩ | ⟨-, h2, rfl⟩
  · obtain ⟨x, ms, r2, hx, hm⟩ := elements_sound ih h2 v1 (by omega)
    exact ⟨_, ms, vs, r1.trans (r2.trans r3), .arr hx, rfl, hm⟩
  · obtain ⟨a, r2, ha, -⟩ := (see_ws v1).1 h2
    exact ⟨_, [], [], r1.trans (r2.trans r3), .emptyArr ha, rfl, .nil⟩

theorem alt_sound {n : Nat} (ih : SoundBelow m n) {s s' : Span} {w : Val} (hs : s.Valid m.mem) (hn : s.len ≤ n)
    (h : AltOk m s s' w) : ∃ x d, Reads m.mem s x s' ∧ Value x d ∧ Rep m.mem (.user 2 0 [w]) d := by
  cases h with
  | str h =>
    obtain ⟨x, r, hx, hw⟩ := string_ok hs h
    exact ⟨_, _, r, .str hx, .str hw⟩
  | num _ h =>
    obtain ⟨i, f, e, fo, eo, sp, a, b, r, hi, hf, he, rfl, rfl, ha, hb⟩ := number_ok hs h
    exact ⟨_, _, r, .num hi hf he, .num ha hb⟩
  | obj _ _ h =>
    obtain ⟨x, ms, vs, r, hx, rfl, hm⟩ := object_sound_below ih hs hn h
    exact ⟨_, _, r, hx, .obj hm⟩
  | arr _ _ _ h =>
    obtain ⟨x, ms, vs, r, hx, rfl, hm⟩ := array_sound_below ih hs hn h
    exact ⟨_, _, r, hx, .arr hm⟩
  | true _ _ _ _ h =>
    obtain ⟨r, rfl⟩ := (const_ok hs (by nofun)).1 h
    exact ⟨_, _, r, .true, .true⟩
  | false _ _ _ _ _ h =>
    obtain ⟨r, rfl⟩ := (const_ok hs (by nofun)).1 h
    exact ⟨_, _, r, .false, .false⟩
  | null _ _ _ _ _ _ h =>
    obtain ⟨r, rfl⟩ := (const_ok hs (by nofun)).1 h
    exact ⟨_, _, r, .null, .null⟩

theorem soundBelow (n : Nat) : SoundBelow m n := by
  induction n with
  | zero => intro s w s' _ h; omega
  | succ n ih =>
    intro s w s' hs hn h
    obtain ⟨s1, s2, v, h1, h2, h3, rfl⟩ := value_split.1 h
    obtain ⟨a, r1, ha, -⟩ := (see_ws hs).1 h1
    have l1 := r1.size
    obtain ⟨x, d, r2, hx, hd⟩ := alt_sound ih (r1.valid hs) (by omega) h2
    obtain ⟨b, r3, hb, -⟩ := (see_ws (r2.valid (r1.valid hs))).1 h3
    exact ⟨_, d, r1.trans (r2.trans r3), .mk ha hx hb, hd⟩

theorem value_sound {s s' : Span} {w : Val} (hs : s.Valid m.mem) (h : Ok (ctx m) (.custom 0) s w s') :
    ∃ x d, Reads m.mem s x s' ∧ Element x d ∧ Rep m.mem w d := soundBelow _ s w s' hs (Nat.lt_succ_self _) h

theorem object_sound {s s' : Span} {w : Val} (hs : s.Valid m.mem) (h : Ok (ctx m) (.custom 1) s w s') :
    ∃ x ms vs, Reads m.mem s x s' ∧ Value x (.obj ms) ∧ w = .vec vs ∧ RepMembers m.mem vs ms :=
  object_sound_below (soundBelow _) hs le_rfl h

theorem array_sound {s s' : Span} {w : Val} (hs : s.Valid m.mem) (h : Ok (ctx m) (.custom 2) s w s') :
    ∃ x es vs, Reads m.mem s x s' ∧ Value x (.arr es) ∧ w = .vec vs ∧ RepElements m.mem vs es :=
  array_sound_below (soundBelow _) hs le_rfl h

/-! ### Completeness -/

theorem Stops.ends {y : List Nat} (h : Stops y) : Ends y := fun c hc => (h c hc).2

theorem stops_cons {c : Nat} {y : List Nat} (h : c = 44 ∨ c = 93 ∨ c = 125) : Stops (c :: y) := by
  intro d hd
  simp at hd; subst hd
  simp only [Ws, Digit, List.mem_singleton, forall_eq]
  omega

theorem ends_ws {b y : List Nat} (hb : Ws b) (hy : Ends y) : Ends (b ++ y) := by
  cases b with
  | nil => exact hy
  | cons c b =>
    intro d hd
    simp at hd; subst hd
    have := hb c (by simp)
    simp only [Digit]; omega

/-- a value starts with one of these -/
theorem Integer.head {x : List Nat} (h : Integer x) : ∃ c z, x = c :: z ∧ (Digit c ∨ c = 45) := by
  cases h with
  | digit h => exact ⟨_, _, rfl, .inl h⟩
  | digits h _ => exact ⟨_, _, rfl, .inl ⟨by have := h.1; omega, h.2⟩⟩
  | negDigit h => exact ⟨_, _, rfl, .inr rfl⟩
  | negDigits h _ => exact ⟨_, _, rfl, .inr rfl⟩

theorem Value.head {x : List Nat} {d : Doc} (h : Value x d) :
    ∃ c z, x = c :: z ∧ (Digit c ∨ c ∈ [45, 123, 91, 34, 116, 102, 110]) := by
  cases h with
  | num hi _ _ =>
    obtain ⟨c, z, rfl, hc⟩ := hi.head
    exact ⟨c, _, rfl, by simp; tauto⟩
  | _ => exact ⟨_, _, rfl, by simp⟩

theorem Value.not_ws {x y : List Nat} {d : Doc} (h : Value x d) : ∀ c ∈ (x ++ y).head?, ¬ Ws [c] := by
  obtain ⟨c, z, rfl, hc⟩ := h.head
  intro d hd
  simp at hd; subst hd
  simp only [Digit, List.mem_cons, List.not_mem_nil, or_false] at hc
  simp only [Ws, List.mem_singleton, forall_eq]
  omega

theorem no_const {l : List Nat} {c k : Nat} {s : Span} (hs : s.Valid m.mem) (h : ∀ d ∈ (s.elems m.mem).head?, d ≠ c) :
    No (ctx m) (.map (.allOf (c :: l)) (.const k)) s := by
  rw [no_map, no_lit hs]
  rintro ⟨t, ht⟩
  rw [← ht] at h
  exact h c (by simp) rfl

/-- no alternative matches where no value starts -/
theorem no_value {s s1 : Span} (hs : s.Valid m.mem) (h1 : See (ctx m) ws s s1)
    (h : ∀ c ∈ (s1.elems m.mem).head?, ¬ Digit c ∧ c ∉ [45, 123, 91, 34, 116, 102, 110]) : No (ctx m) (.custom 0) s := by
  have v1 := h1.suffix.valid hs
  have hr := results_alternatives (m := m)
  refine no_custom ?_ (.inr ⟨by rw [value_body, result_value_seq]; nofun, nofun, by rw [value_body, result_value_seq]; rfl⟩)
  rw [value_body, no_sequence parse_value_seq]
  refine (seqNo_skip rfl).2 (.inr ⟨s1, h1, (seqNo_take (by rw [result_alternatives]; nofun)).2 (.inl ?_)⟩)
  rw [no_choice parse_alternatives (by rw [hr]; exact indexable_alternatives)]
  have key : ∀ a ∈ [45, 123, 91, 34, 116, 102, 110], ∀ c ∈ (s1.elems m.mem).head?, c ≠ a :=
    fun a ha c hc e => (h c hc).2 (e ▸ ha)
  simp only [FirstNo, result_string, show resultFor (ctx m) number = .user 0 from rfl,
    show resultFor (ctx m) (.custom 1) = .vec pairType from rfl, show resultFor (ctx m) (.custom 2) = .vec valueType from rfl,
    show resultFor (ctx m) trueP = .user 3 from rfl, show resultFor (ctx m) falseP = .user 3 from rfl,
    show resultFor (ctx m) nullP = .user 4 from rfl, reduceCtorEq, if_false, and_true]
  exact ⟨no_string v1 (key 34 (by simp)), no_number v1 fun c hc => ⟨(h c hc).1, key 45 (by simp) c hc⟩,
    no_object v1 (key 123 (by simp)), no_array v1 (key 91 (by simp)), no_const v1 (key 116 (by simp)),
    no_const v1 (key 102 (by simp)), no_const v1 (key 110 (by simp))⟩

theorem see_ws_of {s s' : Span} {a : List Nat} (hs : s.Valid m.mem) (r : Reads m.mem s a s') (ha : Ws a)
    (h : ∀ c ∈ (s'.elems m.mem).head?, ¬ Ws [c]) : See (ctx m) ws s s' := (see_ws hs).2 ⟨a, r, ha, h⟩

theorem no_comma {s : Span} (hs : s.Valid m.mem) (h : ∀ c ∈ (s.elems m.mem).head?, c ≠ 44) : No (ctx m) comma s := by
  rw [no_ignore, miss_ignore.symm]; exact (miss_ign hs).2 h

/-- the first character of the text read -/
theorem Reads.head {s s' : Span} {c : Nat} {x : List Nat} (r : Reads m.mem s (c :: x) s') :
    (s.elems m.mem).head? = some c := by rw [r.text]; rfl

mutual
theorem value_complete {x : List Nat} {d : Doc} (h : Value x d) {s s' : Span} (hs : s.Valid m.mem) (r : Reads m.mem s x s')
    (hy : Ends (s'.elems m.mem)) : ∃ v, AltOk m s s' v ∧ Rep m.mem (.user 2 0 [v]) d := by
  have other : ∀ {c z}, x = c :: z → ∀ a, a ≠ c → ∀ d ∈ (s.elems m.mem).head?, d ≠ a := by
    rintro c z rfl a hac d hd
    rw [Json.Reads.head r] at hd
    simp at hd; omega
  have ndig : ∀ {c z}, x = c :: z → ¬ Digit c → c ≠ 45 → No (ctx m) number s := by
    rintro c z rfl h1 h2
    refine no_number hs fun d hd => ?_
    rw [Json.Reads.head r] at hd
    simp at hd; subst hd; exact ⟨h1, h2⟩
  match h with
  | .str hx =>
    obtain ⟨w, h, hw⟩ := ok_string hs r hx
    exact ⟨_, .str h, .str hw⟩
  | .num hi hf he =>
    obtain ⟨sp, a, b, h, rfl, ha, hb⟩ := ok_number hs r hi hf he hy
    refine ⟨_, .num (no_string hs fun c hc => ?_) h, .num ha hb⟩
    obtain ⟨c', z, e, hc'⟩ := hi.head
    rw [e, List.cons_append] at r
    rw [Json.Reads.head r] at hc
    simp at hc; subst hc
    simp only [Digit] at hc'; omega
  | .emptyObj ha =>
    obtain ⟨s1, r1, r⟩ := Reads.split (x := [123]) hs r
    have v1 := r1.valid hs
    obtain ⟨s2, r2, r3⟩ := r.split v1
    have hd := Json.Reads.head r3
    have hw := see_ws_of v1 r2 ha (by rw [hd]; simp [Ws])
    refine ⟨_, .obj (no_string hs (other rfl 34 (by simp))) (ndig rfl (by simp [Digit]) (by simp))
      ((object_split hs).2 ⟨s1, s2, r1, r3, .inr ⟨no_pair v1 hw (by rw [hd]; simp), hw, rfl⟩⟩), .obj .nil⟩
  | .obj hm =>
    obtain ⟨s1, r1, r⟩ := Reads.split (x := [123]) hs r
    have v1 := r1.valid hs
    obtain ⟨s2, r2, r3⟩ := r.split v1
    have hd := Json.Reads.head r3
    obtain ⟨vs, ds, h, hr⟩ := members_complete hm v1 r2 (by rw [r3.text]; exact stops_cons (by simp)) (by rw [hd]; simp)
    exact ⟨_, .obj (no_string hs (other rfl 34 (by simp))) (ndig rfl (by simp [Digit]) (by simp))
      ((object_split hs).2 ⟨s1, s2, r1, r3, .inl ⟨vs, ds, h, rfl⟩⟩), .obj hr⟩
  | .emptyArr ha =>
    obtain ⟨s1, r1, r⟩ := Reads.split (x := [91]) hs r
    have v1 := r1.valid hs
    obtain ⟨s2, r2, r3⟩ := r.split v1
    have hd := Json.Reads.head r3
    have hw := see_ws_of v1 r2 ha (by rw [hd]; simp [Ws])
    refine ⟨_, .arr (no_string hs (other rfl 34 (by simp))) (ndig rfl (by simp [Digit]) (by simp))
      (no_object hs (other rfl 123 (by simp)))
      ((array_split hs).2 ⟨s1, s2, r1, r3, .inr ⟨no_value v1 hw (by rw [hd]; simp [Digit]), hw, rfl⟩⟩), .arr .nil⟩
  | .arr hm =>
    obtain ⟨s1, r1, r⟩ := Reads.split (x := [91]) hs r
    have v1 := r1.valid hs
    obtain ⟨s2, r2, r3⟩ := r.split v1
    have hd := Json.Reads.head r3
    obtain ⟨vs, ds, h, hr⟩ := elements_complete hm v1 r2 (by rw [r3.text]; exact stops_cons (by simp)) (by rw [hd]; simp)
    exact ⟨_, .arr (no_string hs (other rfl 34 (by simp))) (ndig rfl (by simp [Digit]) (by simp))
      (no_object hs (other rfl 123 (by simp)))
      ((array_split hs).2 ⟨s1, s2, r1, r3, .inl ⟨vs, ds, h, rfl⟩⟩), .arr hr⟩
  | .true =>
    exact ⟨_, .true (no_string hs (other rfl 34 (by simp))) (ndig rfl (by simp [Digit]) (by simp))
      (no_object hs (other rfl 123 (by simp))) (no_array hs (other rfl 91 (by simp)))
      ((const_ok hs (by nofun)).2 ⟨r, rfl⟩), .true⟩
  | .false =>
    exact ⟨_, .false (no_string hs (other rfl 34 (by simp))) (ndig rfl (by simp [Digit]) (by simp))
      (no_object hs (other rfl 123 (by simp))) (no_array hs (other rfl 91 (by simp))) (no_const hs (other rfl 116 (by simp)))
      ((const_ok hs (by nofun)).2 ⟨r, rfl⟩), .false⟩
  | .null =>
    exact ⟨_, .null (no_string hs (other rfl 34 (by simp))) (ndig rfl (by simp [Digit]) (by simp))
      (no_object hs (other rfl 123 (by simp))) (no_array hs (other rfl 91 (by simp))) (no_const hs (other rfl 116 (by simp)))
      (no_const hs (other rfl 102 (by simp)))
      ((const_ok hs (by nofun)).2 ⟨r, rfl⟩), .null⟩

theorem element_complete {x : List Nat} {d : Doc} (h : Element x d) {s s' : Span} (hs : s.Valid m.mem) (r : Reads m.mem s x s')
    (hy : Stops (s'.elems m.mem)) : ∃ v, Ok (ctx m) (.custom 0) s v s' ∧ Rep m.mem v d := by
  match h with
  | .mk ha hx hb =>
    obtain ⟨s1, r1, r⟩ := r.split hs
    have v1 := r1.valid hs
    obtain ⟨s2, r2, r3⟩ := r.split v1
    have v2 := r2.valid v1
    obtain ⟨v, h, hv⟩ := value_complete hx v1 r2 (by rw [r3.text]; exact ends_ws hb hy.ends)
    exact ⟨_, value_split.2 ⟨s1, s2, v, see_ws_of hs r1 ha (by rw [r2.text]; exact hx.not_ws), h,
      see_ws_of v2 r3 hb fun c hc => (hy c hc).1, rfl⟩, hv⟩

theorem elements_complete {x : List Nat} {es : List Doc} (h : Elements x es) {s s' : Span} (hs : s.Valid m.mem)
    (r : Reads m.mem s x s') (hy : Stops (s'.elems m.mem)) (hc : ∀ c ∈ (s'.elems m.mem).head?, c ≠ 44) :
    ∃ vs ds, List1 (ctx m) (.custom 0) comma s vs ds s' ∧ RepElements m.mem vs es := by
  match h with
  | .one hx =>
    obtain ⟨v, h, hv⟩ := element_complete hx hs r hy
    exact ⟨_, _, .last h (.inl (no_comma (r.valid hs) hc)), .cons hv .nil⟩
  | .more hx he =>
    obtain ⟨s1, r1, r⟩ := r.split hs
    have v1 := r1.valid hs
    obtain ⟨s2, r2, r3⟩ := Reads.split (x := [44]) v1 r
    obtain ⟨v, h, hv⟩ := element_complete hx hs r1 (by rw [r2.text]; exact stops_cons (by simp))
    obtain ⟨vs, ds, h2, hvs⟩ := elements_complete he (r2.valid v1) r3 hy hc
    exact ⟨_, _, .more h (ok_ignore.2 ⟨(see_lit v1).2 r2, rfl⟩) h2, .cons hv hvs⟩

theorem member_complete {x : List Nat} {md : List Nat × Doc} (h : Member x md) {s s' : Span} (hs : s.Valid m.mem)
    (r : Reads m.mem s x s') (hy : Stops (s'.elems m.mem)) :
    ∃ k v, Ok (ctx m) pair s (.pair k v) s' ∧ RepString m.mem k md.1 ∧ Rep m.mem v md.2 := by
  match h with
  | .mk (a := a) (raw := raw) (b := b) ha hraw hb hx =>
    obtain ⟨s1, r1, r⟩ := r.split hs
    have v1 := r1.valid hs
    obtain ⟨s2, r2, r⟩ := Reads.split (x := [34]) v1 r
    have v2 := r2.valid v1
    obtain ⟨s3, r3, r⟩ := r.split v2
    have v3 := r3.valid v2
    obtain ⟨s4, r4, r⟩ := Reads.split (x := [34]) v3 r
    have v4 := r4.valid v3
    obtain ⟨s5, r5, r⟩ := r.split v4
    have v5 := r5.valid v4
    obtain ⟨s6, r6, r7⟩ := Reads.split (x := [58]) v5 r
    have v6 := r6.valid v5
    obtain ⟨k, h3, hk⟩ := ok_chars v2 r3 hraw r4.text
    obtain ⟨v, h7, hv⟩ := element_complete hx v6 r7 hy
    exact ⟨k, v, (pair_split hs).2 ⟨s1, s2, s3, s4, s5, s6, k, v,
      see_ws_of hs r1 ha (by rw [Json.Reads.head r2]; simp [Ws]), r2, h3, r4,
      see_ws_of v4 r5 hb (by rw [Json.Reads.head r6]; simp [Ws]), r6, h7, rfl⟩, hk, hv⟩

theorem members_complete {x : List Nat} {ms : List (List Nat × Doc)} (h : Members x ms) {s s' : Span} (hs : s.Valid m.mem)
    (r : Reads m.mem s x s') (hy : Stops (s'.elems m.mem)) (hc : ∀ c ∈ (s'.elems m.mem).head?, c ≠ 44) :
    ∃ vs ds, List1 (ctx m) pair comma s vs ds s' ∧ RepMembers m.mem vs ms := by
  match h with
  | .one hx =>
    obtain ⟨k, v, h, hk, hv⟩ := member_complete hx hs r hy
    exact ⟨_, _, .last h (.inl (no_comma (r.valid hs) hc)), .cons hk hv .nil⟩
  | .more hx he =>
    obtain ⟨s1, r1, r⟩ := r.split hs
    have v1 := r1.valid hs
    obtain ⟨s2, r2, r3⟩ := Reads.split (x := [44]) v1 r
    obtain ⟨k, v, h, hk, hv⟩ := member_complete hx hs r1 (by rw [r2.text]; exact stops_cons (by simp))
    obtain ⟨vs, ds, h2, hvs⟩ := members_complete he (r2.valid v1) r3 hy hc
    exact ⟨_, _, .more h (ok_ignore.2 ⟨(see_lit v1).2 r2, rfl⟩) h2, .cons hk hv hvs⟩
end

theorem object_complete {x : List Nat} {ms : List (List Nat × Doc)} (h : Value x (.obj ms)) {s s' : Span}
    (hs : s.Valid m.mem) (r : Reads m.mem s x s') :
    ∃ vs, Ok (ctx m) (.custom 1) s (.vec vs) s' ∧ RepMembers m.mem vs ms := by
  cases h with
  | emptyObj ha =>
    obtain ⟨s1, r1, r⟩ := Reads.split (x := [123]) hs r
    have v1 := r1.valid hs
    obtain ⟨s2, r2, r3⟩ := r.split v1
    have hd := Json.Reads.head r3
    have hw := see_ws_of v1 r2 ha (by rw [hd]; simp [Ws])
    exact ⟨_, (object_split hs).2 ⟨s1, s2, r1, r3, .inr ⟨no_pair v1 hw (by rw [hd]; simp), hw, rfl⟩⟩, .nil⟩
  | obj hm =>
    obtain ⟨s1, r1, r⟩ := Reads.split (x := [123]) hs r
    have v1 := r1.valid hs
    obtain ⟨s2, r2, r3⟩ := r.split v1
    have hd := Json.Reads.head r3
    obtain ⟨vs, ds, h, hr⟩ := members_complete hm v1 r2 (by rw [r3.text]; exact stops_cons (by simp)) (by rw [hd]; simp)
    exact ⟨_, (object_split hs).2 ⟨s1, s2, r1, r3, .inl ⟨vs, ds, h, rfl⟩⟩, hr⟩

theorem array_complete {x : List Nat} {es : List Doc} (h : Value x (.arr es)) {s s' : Span}
    (hs : s.Valid m.mem) (r : Reads m.mem s x s') :
    ∃ vs, Ok (ctx m) (.custom 2) s (.vec vs) s' ∧ RepElements m.mem vs es := by
  cases h with
  | emptyArr ha =>
    obtain ⟨s1, r1, r⟩ := Reads.split (x := [91]) hs r
    have v1 := r1.valid hs
    obtain ⟨s2, r2, r3⟩ := r.split v1
    have hd := Json.Reads.head r3
    have hw := see_ws_of v1 r2 ha (by rw [hd]; simp [Ws])
    exact ⟨_, (array_split hs).2 ⟨s1, s2, r1, r3, .inr ⟨no_value v1 hw (by rw [hd]; simp [Digit]), hw, rfl⟩⟩, .nil⟩
  | arr hm =>
    obtain ⟨s1, r1, r⟩ := Reads.split (x := [91]) hs r
    have v1 := r1.valid hs
    obtain ⟨s2, r2, r3⟩ := r.split v1
    have hd := Json.Reads.head r3
    obtain ⟨vs, ds, h, hr⟩ := elements_complete hm v1 r2 (by rw [r3.text]; exact stops_cons (by simp)) (by rw [hd]; simp)
    exact ⟨_, (array_split hs).2 ⟨s1, s2, r1, r3, .inl ⟨vs, ds, h, rfl⟩⟩, hr⟩

/-! ### A value represents one document -/

theorem RepString.unique {mem : Mem Nat} {v : Val} {x y : List Nat} (h : RepString mem v x) (h' : RepString mem v y) :
    x = y := by cases h; cases h'; rfl
theorem RepOpt.unique {mem : Mem Nat} {v : Val} {x y : Option (List Nat)} (h : RepOpt mem v x) (h' : RepOpt mem v y) :
    x = y := by cases h <;> cases h' <;> rfl

mutual
theorem Rep.unique {mem : Mem Nat} {v : Val} {d d' : Doc} (h : Rep mem v d) (h' : Rep mem v d') : d = d' := by
  match h with
  | .str h => cases h' with | str h' => rw [h.unique h']
  | .num h1 h2 => cases h' with | num h1' h2' => rw [h1.unique h1', h2.unique h2']
  | .obj h => cases h' with | obj h' => rw [RepMembers.unique h h']
  | .arr h => cases h' with | arr h' => rw [RepElements.unique h h']
  | .true => cases h'; rfl
  | .false => cases h'; rfl
  | .null => cases h'; rfl
theorem RepMembers.unique {mem : Mem Nat} {vs : List Val} {d d' : List (List Nat × Doc)} (h : RepMembers mem vs d)
    (h' : RepMembers mem vs d') : d = d' := by
  match h with
  | .nil => cases h'; rfl
  | .cons h1 h2 h3 => cases h' with
    | cons h1' h2' h3' => rw [h1.unique h1', Rep.unique h2 h2', RepMembers.unique h3 h3']
theorem RepElements.unique {mem : Mem Nat} {vs : List Val} {d d' : List Doc} (h : RepElements mem vs d)
    (h' : RepElements mem vs d') : d = d' := by
  match h with
  | .nil => cases h'; rfl
  | .cons h2 h3 => cases h' with
    | cons h2' h3' => rw [Rep.unique h2 h2', RepElements.unique h3 h3']
end

end Tok3n.Json
