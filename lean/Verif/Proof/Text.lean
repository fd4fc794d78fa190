import Verif.Proof.Rules
import Verif.Spec.Text
/-
What parsers match, as lists of characters: the PEG relation restated for a given split of
the input, and its link to `lookahead`.
-/

namespace Tok3n

variable {α : Type} [DecidableEq α]

section
variable {mem : Mem α} {s s1 s' : Span} {x y : List α}

theorem Reads.eq (h : Reads mem s x s') : s' = s.drop x.length := h.advanced.eq_drop
theorem Reads.le (h : Reads mem s x s') : x.length ≤ s.len := h.advanced.le
theorem Reads.size (h : Reads mem s x s') : x.length + s'.len = s.len := h.advanced.size

theorem Reads.refl : Reads mem s [] s := ⟨⟨by simp, .inl ⟨rfl, rfl⟩⟩, by simp⟩
theorem Reads.trans (h : Reads mem s x s1) (h' : Reads mem s1 y s') : Reads mem s (x ++ y) s' := by
  refine ⟨⟨?_, ?_⟩, ?_⟩
  · have := h.size; have := h'.size
    simp; omega
  · rw [List.length_append]
    rcases h.advanced.start with ⟨h1, h2⟩ | ⟨b, o, h1, h2⟩ <;>
      rcases h'.advanced.start with ⟨h3, h4⟩ | ⟨b', o', h3, h4⟩
    · exact .inl ⟨by omega, by rw [h4, h2]⟩
    · exact .inr ⟨b', o', by rw [← h2, h3], by rw [h4, h1, Nat.zero_add]⟩
    · exact .inr ⟨b, o, h1, by rw [h4, h2, h3, Nat.add_zero]⟩
    · rw [h2] at h3
      simp only [Ptr.at.injEq] at h3
      obtain ⟨rfl, rfl⟩ := h3
      exact .inr ⟨b, o, h1, by rw [h4, Nat.add_assoc]⟩
  · rw [h.text, h'.text, List.append_assoc]

theorem Reads.valid (h : Reads mem s x s') (hs : s.Valid mem) : s'.Valid mem := by
  rw [h.eq]; exact hs.drop h.le
theorem Reads.elems (h : Reads mem s x s') : (⟨s.ptr, x.length⟩ : Span).elems mem = x := by
  rw [Span.elems_take h.le, h.text]; simp

/-- any split of the text of a readable span is a reading -/
theorem Reads.of_text (hs : s.Valid mem) (h : s.elems mem = x ++ y) : Reads mem s x (s.drop x.length) := by
  have hl := hs.elems_length
  rw [h] at hl; simp at hl
  refine ⟨hs.advanced (by omega), ?_⟩
  rw [Span.elems_drop, h]; simp

theorem Reads.of_advanced {k : Nat} (hs : s.Valid mem) (h : s.Advanced k s') :
    ∃ x, x.length = k ∧ Reads mem s x s' := by
  have hle := h.le
  have hl := hs.elems_length
  refine ⟨(s.elems mem).take k, by simp; omega, ?_⟩
  have e : ((s.elems mem).take k).length = k := by simp; omega
  refine ⟨by rw [e]; exact h, ?_⟩
  rw [h.eq_drop, Span.elems_drop, List.take_append_drop]

theorem Reads.of_suffix (hs : s.Valid mem) (h : s'.SuffixOf s) : ∃ x, Reads mem s x s' := by
  obtain ⟨k, h⟩ := h
  obtain ⟨x, -, h⟩ := Reads.of_advanced hs h
  exact ⟨x, h⟩

/-- the remaining text determines what was read -/
theorem Reads.unique (h : Reads mem s x s') (h' : Reads mem s y s') : x = y := by
  have := h.text
  rw [h'.text] at this
  exact (List.append_cancel_right this).symm

end

/-! ### Matching a given text -/

section
variable {body : Nat → Parser α}

/-- `p` matches exactly `x` of `x ++ y` -/
def To (body : Nat → Parser α) (p : Parser α) (x y : List α) : Prop := Peg (· == ·) body p (x ++ y) (some x.length)
/-- `p` fails on `xs` -/
def Fails (body : Nat → Parser α) (p : Parser α) (xs : List α) : Prop := Peg (· == ·) body p xs none

theorem To.of {p : Parser α} {xs : List α} {k : Nat} (h : Peg (· == ·) body p xs (some k)) :
    ∃ x y, xs = x ++ y ∧ x.length = k ∧ To body p x y := by
  have hle : k ≤ xs.length := h.le k rfl
  have e : (xs.take k).length = k := by simp; omega
  refine ⟨xs.take k, xs.drop k, by simp, e, ?_⟩
  rw [To, List.take_append_drop, e]; exact h

variable {p q : Parser α} {ps : List (Parser α)} {x y xs : List α} {n : Nat}

theorem to_anyOf {l : List α} : To body (.anyOf l) x y ↔ ∃ c ∈ l, x = [c] := by
  constructor
  · intro h
    rw [To] at h
    generalize hk : some x.length = o at h
    generalize hxs : x ++ y = xs at h
    cases h with
    | hit _ hm =>
      obtain ⟨rfl, c, rest, rfl, a, ha, hac⟩ := hm
      cases hk' : x with
      | nil => rw [hk'] at hk; simp at hk
      | cons d x' =>
        rw [hk'] at hk hxs
        simp only [Option.some.injEq, List.length_cons, Nat.add_eq_right, List.length_eq_zero_iff] at hk
        subst hk
        simp only [List.cons_append, List.nil_append, List.cons.injEq] at hxs
        have : a = c := by simpa using hac
        exact ⟨d, by rw [hxs.1, ← this]; exact ha, rfl⟩
    | miss => simp at hk
  · rintro ⟨c, hc, rfl⟩
    exact .hit trivial ⟨rfl, c, y, rfl, c, hc, by simp⟩

theorem fails_anyOf {l : List α} : Fails body (.anyOf l) xs ↔ ∀ c ∈ xs.head?, c ∉ l := by
  constructor
  · intro h
    cases h with
    | miss _ h =>
      intro c hc hl
      cases xs with
      | nil => simp at hc
      | cons d xs =>
        simp at hc; subst hc
        exact h 1 ⟨rfl, _, _, rfl, _, hl, by simp⟩
  · intro h
    refine .miss trivial ?_
    rintro k ⟨rfl, c, rest, rfl, a, ha, hac⟩
    have : a = c := by simpa using hac
    subst this
    exact h a (by simp) ha

theorem to_noneOf {l : List α} : To body (.noneOf l) x y ↔ ∃ c, c ∉ l ∧ x = [c] := by
  constructor
  · intro h
    rw [To] at h
    generalize hk : some x.length = o at h
    generalize hxs : x ++ y = xs at h
    cases h with
    | hit _ hm =>
      obtain ⟨rfl, c, rest, rfl, ha⟩ := hm
      cases hk' : x with
      | nil => rw [hk'] at hk; simp at hk
      | cons d x' =>
        rw [hk'] at hk hxs
        simp only [Option.some.injEq, List.length_cons, Nat.add_eq_right, List.length_eq_zero_iff] at hk
        subst hk
        simp only [List.cons_append, List.nil_append, List.cons.injEq] at hxs
        refine ⟨d, fun hd => ?_, rfl⟩
        have := ha d hd
        simp [hxs.1] at this
    | miss => simp at hk
  · rintro ⟨c, hc, rfl⟩
    refine .hit trivial ⟨rfl, c, y, rfl, fun a ha => ?_⟩
    have : a ≠ c := fun e => hc (e ▸ ha)
    simpa using this

theorem fails_noneOf {l : List α} : Fails body (.noneOf l) xs ↔ ∀ c ∈ xs.head?, c ∈ l := by
  constructor
  · intro h
    cases h with
    | miss _ h =>
      intro c hc
      by_contra hl
      cases xs with
      | nil => simp at hc
      | cons d xs =>
        simp at hc; subst hc
        refine h 1 ⟨rfl, _, _, rfl, fun a ha => ?_⟩
        have : a ≠ d := fun e => hl (e ▸ ha)
        simpa using this
  · intro h
    refine .miss trivial ?_
    rintro k ⟨rfl, c, rest, rfl, ha⟩
    have := ha c (h c (by simp))
    simp at this

theorem forall₂_beq {l front : List α} : List.Forall₂ (fun a b => (a == b) = true) l front ↔ l = front := by
  simp only [beq_iff_eq]
  exact List.forall₂_eq_eq_eq ▸ Iff.rfl

theorem to_allOf {l : List α} : To body (.allOf l) x y ↔ x = l := by
  constructor
  · intro h
    rw [To] at h
    generalize hk : some x.length = o at h
    generalize hxs : x ++ y = xs at h
    cases h with
    | hit _ hm =>
      obtain ⟨rfl, front, rest, rfl, hf⟩ := hm
      rw [forall₂_beq] at hf; subst hf
      simp only [Option.some.injEq] at hk
      exact (List.append_inj hxs hk).1
    | miss => simp at hk
  · rintro rfl
    exact .hit trivial ⟨rfl, _, _, rfl, forall₂_beq.2 rfl⟩

theorem fails_allOf {l : List α} : Fails body (.allOf l) xs ↔ ¬ l <+: xs := by
  constructor
  · intro h
    cases h with
    | miss _ h =>
      rintro ⟨t, rfl⟩
      exact h _ ⟨rfl, _, _, rfl, forall₂_beq.2 rfl⟩
  · intro h
    refine .miss trivial ?_
    rintro k ⟨rfl, front, rest, rfl, hf⟩
    rw [forall₂_beq] at hf; subst hf
    exact h ⟨_, rfl⟩

theorem to_epsilon : To body .epsilon x y ↔ x = [] := by
  constructor
  · intro h
    rw [To] at h
    generalize hk : some x.length = o at h
    cases h with
    | hit hb => exact hb.elim
    | miss hb => exact hb.elim
    | epsilon => simpa using hk
  · rintro rfl; exact .epsilon

theorem fails_epsilon : ¬ Fails body .epsilon xs := by
  intro h
  cases h with
  | miss hb => exact hb

theorem to_sequence_nil : To body (.sequence []) x y ↔ x = [] := by
  constructor
  · intro h
    rw [To] at h
    generalize hk : some x.length = o at h
    cases h with
    | hit hb => exact hb.elim
    | miss hb => exact hb.elim
    | sequenceNil => simpa using hk
  · rintro rfl; exact .sequenceNil

omit [DecidableEq α] in
/-- splitting at a match inside a given text -/
theorem split_at {x y : List α} {k j : Nat} (h : k + j = x.length) :
    ∃ x1 x2, x = x1 ++ x2 ∧ x1.length = k ∧ x2.length = j ∧ (x ++ y).drop k = x2 ++ y := by
  have e : (x.take k).length = k := by simp; omega
  refine ⟨x.take k, x.drop k, by simp, e, by simp; omega, ?_⟩
  rw [List.drop_append_of_le_length (by omega)]

omit [DecidableEq α] in
theorem drop_left' {x y : List α} {k : Nat} (h : x.length = k) : (x ++ y).drop k = y := by
  subst h; simp

theorem to_sequence_cons : To body (.sequence (p :: ps)) x y ↔
    ∃ x1 x2, x = x1 ++ x2 ∧ To body p x1 (x2 ++ y) ∧ To body (.sequence ps) x2 y := by
  constructor
  · intro h
    rw [To] at h
    generalize hk : some x.length = o at h
    cases h with
    | hit hb => exact hb.elim
    | miss hb => exact hb.elim
    | @sequenceMore _ _ _ k o h1 h2 =>
      cases o with
      | none => simp at hk
      | some j =>
        obtain ⟨x1, x2, rfl, rfl, rfl, e⟩ := split_at (y := y) (k := k) (j := j) (x := x) (by simpa using hk.symm)
        rw [e] at h2
        rw [List.append_assoc] at h1
        exact ⟨x1, x2, rfl, h1, h2⟩
    | sequenceMiss => simp at hk
  · rintro ⟨x1, x2, rfl, h1, h2⟩
    have := Peg.sequenceMore (o := some x2.length) h1 (by rw [drop_left' rfl]; exact h2)
    rw [To, List.append_assoc, List.length_append]
    exact this

theorem fails_sequence_nil : ¬ Fails body (.sequence []) xs := by
  intro h
  cases h with
  | miss hb => exact hb

theorem fails_sequence_cons : Fails body (.sequence (p :: ps)) xs ↔
    Fails body p xs ∨ ∃ x y, xs = x ++ y ∧ To body p x y ∧ Fails body (.sequence ps) y := by
  constructor
  · intro h
    rw [Fails] at h
    generalize hk : none = o at h
    cases h with
    | hit hb => exact hb.elim
    | miss hb => exact hb.elim
    | @sequenceMore _ _ _ k o h1 h2 =>
      cases o with
      | some j => simp at hk
      | none =>
        obtain ⟨x, y, rfl, rfl, h⟩ := To.of h1
        rw [drop_left' rfl] at h2
        exact .inr ⟨x, y, rfl, h, h2⟩
    | sequenceMiss h => exact .inl h
  · rintro (h | ⟨x, y, rfl, h1, h2⟩)
    · exact .sequenceMiss h
    · exact Peg.sequenceMore (o := none) h1 (by rw [drop_left' rfl]; exact h2)

theorem to_choice_nil : ¬ To body (.choice []) x y := by
  intro h
  rw [To] at h
  generalize hk : some x.length = o at h
  cases h with
  | hit hb => exact hb
  | miss hb => exact hb
  | choiceNil => simp at hk

theorem to_choice_cons : To body (.choice (p :: ps)) x y ↔
    To body p x y ∨ (Fails body p (x ++ y) ∧ To body (.choice ps) x y) := by
  constructor
  · intro h
    rw [To] at h
    generalize hk : some x.length = o at h
    cases h with
    | hit hb => exact hb.elim
    | miss hb => exact hb.elim
    | choiceHit h => rw [Option.some.injEq] at hk; subst hk; exact .inl h
    | choiceMiss h1 h2 => subst hk; exact .inr ⟨h1, h2⟩
  · rintro (h | ⟨h1, h2⟩)
    · exact .choiceHit h
    · exact .choiceMiss h1 h2

theorem fails_choice_nil : Fails body (.choice []) xs := .choiceNil

theorem fails_choice_cons : Fails body (.choice (p :: ps)) xs ↔ Fails body p xs ∧ Fails body (.choice ps) xs := by
  constructor
  · intro h
    rw [Fails] at h
    generalize hk : none = o at h
    cases h with
    | hit hb => exact hb.elim
    | miss hb => exact hb.elim
    | choiceHit => simp at hk
    | choiceMiss h1 h2 => subst hk; exact ⟨h1, h2⟩
  · rintro ⟨h1, h2⟩
    exact .choiceMiss h1 h2

theorem to_maybe : To body (.maybe p) x y ↔ To body p x y ∨ (x = [] ∧ Fails body p y) := by
  constructor
  · intro h
    rw [To] at h
    generalize hk : some x.length = o at h
    cases h with
    | hit hb => exact hb.elim
    | miss hb => exact hb.elim
    | maybeHit h => rw [Option.some.injEq] at hk; subst hk; exact .inl h
    | maybeMiss h =>
      have : x = [] := by simpa using hk
      subst this
      exact .inr ⟨rfl, h⟩
  · rintro (h | ⟨rfl, h⟩)
    · exact .maybeHit h
    · exact .maybeMiss h

theorem to_exactly_zero : To body (.exactly p 0) x y ↔ x = [] := by
  constructor
  · intro h
    rw [To] at h
    generalize hk : some x.length = o at h
    cases h with
    | hit hb => exact hb.elim
    | miss hb => exact hb.elim
    | exactlyNil => simpa using hk
  · rintro rfl; exact .exactlyNil

theorem to_exactly_succ : To body (.exactly p (n + 1)) x y ↔
    ∃ x1 x2, x = x1 ++ x2 ∧ To body p x1 (x2 ++ y) ∧ To body (.exactly p n) x2 y := by
  constructor
  · intro h
    rw [To] at h
    generalize hk : some x.length = o at h
    cases h with
    | hit hb => exact hb.elim
    | miss hb => exact hb.elim
    | @exactlyMore _ _ _ k o h1 h2 =>
      cases o with
      | none => simp at hk
      | some j =>
        obtain ⟨x1, x2, rfl, rfl, rfl, e⟩ := split_at (y := y) (k := k) (j := j) (x := x) (by simpa using hk.symm)
        rw [e] at h2
        rw [List.append_assoc] at h1
        exact ⟨x1, x2, rfl, h1, h2⟩
    | exactlyMiss => simp at hk
  · rintro ⟨x1, x2, rfl, h1, h2⟩
    have := Peg.exactlyMore (o := some x2.length) h1 (by rw [drop_left' rfl]; exact h2)
    rw [To, List.append_assoc, List.length_append]
    exact this

theorem to_zeroOrMore : To body (.zeroOrMore p) x y ↔ (x = [] ∧ Fails body p y) ∨
    ∃ x1 x2, x = x1 ++ x2 ∧ To body p x1 (x2 ++ y) ∧ To body (.zeroOrMore p) x2 y := by
  constructor
  · intro h
    rw [To] at h
    generalize hk : some x.length = o at h
    cases h with
    | hit hb => exact hb.elim
    | miss hb => exact hb.elim
    | zeroStop h =>
      have : x = [] := by simpa using hk
      subst this
      exact .inl ⟨rfl, h⟩
    | @zeroMore _ _ k j h1 h2 =>
      obtain ⟨x1, x2, rfl, rfl, rfl, e⟩ := split_at (y := y) (k := k) (j := j) (x := x) (by simpa using hk.symm)
      rw [e] at h2
      rw [List.append_assoc] at h1
      exact .inr ⟨x1, x2, rfl, h1, h2⟩
  · rintro (⟨rfl, h⟩ | ⟨x1, x2, rfl, h1, h2⟩)
    · exact .zeroStop h
    · have := Peg.zeroMore h1 (by rw [drop_left' rfl]; exact h2)
      rw [To, List.append_assoc, List.length_append]
      exact this

theorem to_oneOrMore : To body (.oneOrMore p) x y ↔
    ∃ x1 x2, x = x1 ++ x2 ∧ To body p x1 (x2 ++ y) ∧ To body (.zeroOrMore p) x2 y := by
  constructor
  · intro h
    rw [To] at h
    generalize hk : some x.length = o at h
    cases h with
    | hit hb => exact hb.elim
    | miss hb => exact hb.elim
    | oneMiss => simp at hk
    | @oneMore _ _ k j h1 h2 =>
      obtain ⟨x1, x2, rfl, rfl, rfl, e⟩ := split_at (y := y) (k := k) (j := j) (x := x) (by simpa using hk.symm)
      rw [e] at h2
      rw [List.append_assoc] at h1
      exact ⟨x1, x2, rfl, h1, h2⟩
  · rintro ⟨x1, x2, rfl, h1, h2⟩
    have := Peg.oneMore h1 (by rw [drop_left' rfl]; exact h2)
    rw [To, List.append_assoc, List.length_append]
    exact this

theorem fails_oneOrMore : Fails body (.oneOrMore p) xs ↔ Fails body p xs := by
  constructor
  · intro h
    rw [Fails] at h
    generalize hk : none = o at h
    cases h with
    | hit hb => exact hb.elim
    | miss hb => exact hb.elim
    | oneMiss h => exact h
    | oneMore => simp at hk
  · exact .oneMiss

theorem peg_join {o : Option Nat} : Peg (· == ·) body (.join p) xs o ↔ Peg (· == ·) body p xs o := by
  constructor
  · intro h
    cases h with
    | hit hb => exact hb.elim
    | miss hb => exact hb.elim
    | join h => exact h
  · exact .join

theorem peg_ignore {o : Option Nat} : Peg (· == ·) body (.ignore p) xs o ↔ Peg (· == ·) body p xs o := by
  constructor
  · intro h
    cases h with
    | hit hb => exact hb.elim
    | miss hb => exact hb.elim
    | ignore h => exact h
  · exact .ignore

theorem peg_map {f : Fn} {o : Option Nat} : Peg (· == ·) body (.map p f) xs o ↔ Peg (· == ·) body p xs o := by
  constructor
  · intro h
    cases h with
    | hit hb => exact hb.elim
    | miss hb => exact hb.elim
    | map h => exact h
  · exact .map

theorem to_ignore : To body (.ignore p) x y ↔ To body p x y := peg_ignore
theorem fails_ignore : Fails body (.ignore p) xs ↔ Fails body p xs := peg_ignore
theorem to_map {f : Fn} : To body (.map p f) x y ↔ To body p x y := peg_map
theorem fails_map {f : Fn} : Fails body (.map p f) xs ↔ Fails body p xs := peg_map
theorem to_join : To body (.join p) x y ↔ To body p x y := peg_join
theorem fails_join : Fails body (.join p) xs ↔ Fails body p xs := peg_join

/-- a class, repeated: all of the text is in the class, and what follows is not -/
theorem to_zeroOrMore_class {f : α → Prop} (h1 : ∀ x y, To body p x y ↔ ∃ c, f c ∧ x = [c])
    (h2 : ∀ xs, Fails body p xs ↔ ∀ c ∈ xs.head?, ¬ f c) :
    To body (.zeroOrMore p) x y ↔ (∀ c ∈ x, f c) ∧ ∀ c ∈ y.head?, ¬ f c := by
  induction x with
  | nil =>
    rw [to_zeroOrMore, h2]
    constructor
    · rintro (⟨-, h⟩ | ⟨x1, x2, h, h3, -⟩)
      · exact ⟨by simp, h⟩
      · obtain ⟨c, -, rfl⟩ := (h1 _ _).1 h3
        simp at h
    · rintro ⟨-, h⟩; exact .inl ⟨rfl, h⟩
  | cons c x ih =>
    rw [to_zeroOrMore]
    constructor
    · rintro (⟨h, -⟩ | ⟨x1, x2, h, h3, h4⟩)
      · simp at h
      · obtain ⟨d, hd, rfl⟩ := (h1 _ _).1 h3
        simp only [List.cons_append, List.nil_append, List.cons.injEq] at h
        obtain ⟨rfl, rfl⟩ := h
        obtain ⟨h5, h6⟩ := ih.1 h4
        exact ⟨by simpa using ⟨hd, h5⟩, h6⟩
    · rintro ⟨h3, h4⟩
      simp only [List.mem_cons, forall_eq_or_imp] at h3
      exact .inr ⟨[c], x, rfl, (h1 _ _).2 ⟨c, h3.1, rfl⟩, ih.2 ⟨h3.2, h4⟩⟩

theorem to_many {l : List α} : To body (.zeroOrMore (.anyOf l)) x y ↔ (∀ c ∈ x, c ∈ l) ∧ ∀ c ∈ y.head?, c ∉ l :=
  to_zeroOrMore_class (fun _ _ => to_anyOf) fun _ => fails_anyOf

theorem to_some {l : List α} :
    To body (.oneOrMore (.anyOf l)) x y ↔ x ≠ [] ∧ (∀ c ∈ x, c ∈ l) ∧ ∀ c ∈ y.head?, c ∉ l := by
  rw [to_oneOrMore]
  constructor
  · rintro ⟨x1, x2, rfl, h1, h2⟩
    obtain ⟨c, hc, rfl⟩ := to_anyOf.1 h1
    obtain ⟨h3, h4⟩ := to_many.1 h2
    exact ⟨by simp, by simpa using ⟨hc, h3⟩, h4⟩
  · rintro ⟨h1, h2, h3⟩
    cases x with
    | nil => exact (h1 rfl).elim
    | cons c x =>
      simp only [List.mem_cons, forall_eq_or_imp] at h2
      exact ⟨[c], x, rfl, to_anyOf.2 ⟨c, h2.1, rfl⟩, to_many.2 ⟨h2.2, h3⟩⟩

theorem fails_some {l : List α} : Fails body (.oneOrMore (.anyOf l)) xs ↔ ∀ c ∈ xs.head?, c ∉ l := by
  rw [fails_oneOrMore, fails_anyOf]

end

/-! ### lookahead -/

section
variable {C : Ctx α α} {p : Parser α} {s s' : Span}

/-- what custom parsers stand for -/
def bodies (C : Ctx α α) : Nat → Parser α := fun k => (C.custom k).body

theorem see_iff (he : C.eqv = (· == ·)) (hs : s.Valid C.mem) :
    See C p s s' ↔ ∃ x, Reads C.mem s x s' ∧ To (bodies C) p x (s'.elems C.mem) := by
  have h := (C45_lookahead C p s hs).1 [] s'
  rw [See, h]
  constructor
  · rintro ⟨-, k, hp, ha⟩
    obtain ⟨x, rfl, hx⟩ := Reads.of_advanced hs ha
    refine ⟨x, hx, ?_⟩
    rw [To, ← hx.text, ← he]; exact hp
  · rintro ⟨x, hx, hp⟩
    rw [To, ← hx.text, ← he] at hp
    exact ⟨rfl, _, hp, hx.advanced⟩

theorem miss_iff (he : C.eqv = (· == ·)) (hs : s.Valid C.mem) :
    Miss C p s ↔ Fails (bodies C) p (s.elems C.mem) := by
  have h := (C45_lookahead C p s hs).2.1 [] s
  rw [Miss, h, he]
  exact ⟨fun h => h.2.2, fun h => ⟨rfl, rfl, h⟩⟩

/-- `join` of a parser that drops nothing, if nothing throws: the span of what the grammar matches -/
theorem leaf_join [LinearOrder α] (he : C.eqv = (· == ·)) (hn : ∀ c, C.throws c = none) (ht : C.Typed) (hl : C.Local)
    (hc : Compiles C (.join p)) (hk : KeepsAll C p) (hlook : LookaheadTells C (.join p)) (hs : s.Valid C.mem) :
    (∀ w s', Ok C (.join p) s w s' ↔ ∃ x, Reads C.mem s x s' ∧ w = .span ⟨s.ptr, x.length⟩ ∧
      To (bodies C) p x (s'.elems C.mem)) ∧
    (No C (.join p) s ↔ Fails (bodies C) p (s.elems C.mem)) := by
  -- what success and failure of `parse` say
  have hok : ∀ w s', Ok C (.join p) s w s' → ∃ x, Reads C.mem s x s' ∧ w = .span ⟨s.ptr, x.length⟩ ∧
      To (bodies C) p x (s'.elems C.mem) := by
    rintro w s' ⟨l, h⟩
    obtain ⟨x, hx, hto⟩ := (see_iff (p := .join p) he hs).1 (hlook.success s hs _ _ _ h)
    obtain ⟨-, n, rfl, ha⟩ := ((C30_join C p hc ht hl hk s hs l s').1 w).1 h
    have : n = x.length := by
      have := ha.size; have := hx.size; omega
    subst this
    exact ⟨x, hx, rfl, to_join.1 hto⟩
  have hno : No C (.join p) s → Fails (bodies C) p (s.elems C.mem) := fun ⟨l, h⟩ =>
    fails_join.1 ((miss_iff (p := .join p) he hs).1 (hlook.failure s hs _ _ h))
  -- `parse` ends if the grammar has an outcome
  have hend : ∀ o, Peg (· == ·) (bodies C) p (s.elems C.mem) o → (∃ w s', Ok C (.join p) s w s') ∨ No C (.join p) s := by
    intro o ho
    cases hm : Parse C (.join p) s with
    | diverge =>
      have h1 := (C45_lookahead C (.join p) s hs).2.2.1.1 (hlook.loop s hs hm) o
      rw [he] at h1
      exact (h1 (peg_join.2 ho)).elim
    | done l r =>
      cases r with
      | ok r =>
        obtain ⟨rv, rr⟩ := r
        cases rv with
        | none =>
          have := Parse_failsBack _ _ _ _ hm
          subst this
          exact .inr ⟨_, hm⟩
        | some v => exact .inl ⟨_, _, _, hm⟩
      | err e =>
        have hj : JoinSafe C (.join p) := by
          intro q hq
          cases hq with
          | refl => exact KeepsAll.spanLocal hl hk
          | step hch hq =>
            cases hch with
            | join =>
              exact KeepsAll.spanLocal hl fun r hr => hk r (hq.trans (.step .join hr))
        obtain ⟨x, rfl⟩ := C03_memory_safe C (.join p) s hc ht hj hs l e hm
        exact (C49_no_throw C (.join p) s l x hn hm).elim
  refine ⟨fun w s' => ⟨hok w s', ?_⟩, ⟨hno, ?_⟩⟩
  · rintro ⟨x, hx, rfl, hto⟩
    have hpeg : Peg (· == ·) (bodies C) p (s.elems C.mem) (some x.length) := by rw [hx.text]; exact hto
    rcases hend _ hpeg with ⟨w, s1, h⟩ | h
    · obtain ⟨z, hz, rfl, hto'⟩ := hok _ _ h
      have hpeg' : Peg (· == ·) (bodies C) p (s.elems C.mem) (some z.length) := by rw [hz.text]; exact hto'
      have := C45_deterministic _ _ _ _ _ _ hpeg hpeg'
      simp only [Option.some.injEq] at this
      have e : s1 = s' := by rw [hz.eq, hx.eq, this]
      subst e
      rw [this]; exact h
    · have := C45_deterministic _ _ _ _ _ _ hpeg (hno h)
      simp at this
  · intro hf
    rcases hend _ hf with ⟨w, s1, h⟩ | h
    · obtain ⟨z, hz, rfl, hto'⟩ := hok _ _ h
      have hpeg' : Peg (· == ·) (bodies C) p (s.elems C.mem) (some z.length) := by rw [hz.text]; exact hto'
      have := C45_deterministic _ _ _ _ _ _ hf hpeg'
      simp at this
    · exact h

/-- checks that every `join` in the parser is over a parser that drops nothing, without custom parsers and filters -/
def leafB [LinearOrder α] (C : Ctx α α) (q : Parser α) : Bool :=
  keepsB C q && match q with
    | .filter _ _ | .custom _ => false
    | .join r => r.wf && (tyOK C r && parseOK C (.join r))
    | _ => true

theorem join_leaf [LinearOrder α] (he : C.eqv = (· == ·)) (hn : ∀ c, C.throws c = none) (ht : C.Typed) (hl : C.Local)
    (hok : C.OK) (hp : everyNode (leafB C) (.join p) = true) (hs : s.Valid C.mem) :
    (∀ w s', Ok C (.join p) s w s' ↔ ∃ x, Reads C.mem s x s' ∧ w = .span ⟨s.ptr, x.length⟩ ∧
      To (bodies C) p x (s'.elems C.mem)) ∧
    (No C (.join p) s ↔ Fails (bodies C) p (s.elems C.mem)) := by
  have hreach : ∀ q r, everyNode (leafB C) q = true → ParseReach C q r → leafB C r = true := fun q r hq hr =>
    everyNode_ok (reach_closed (ok := leafB C) (fun k => by simp [leafB]) hq hr)
  have hkeep : ∀ q, everyNode (leafB C) q = true → KeepsAll C q := fun q hq r hr => by
    have := hreach q r hq hr
    simp only [leafB, Bool.and_eq_true] at this
    exact keepsB_sound this.1
  have hjoin : ∀ r, leafB C (.join r) = true → Compiles C (.join r) := fun r hr => by
    simp only [leafB, Bool.and_eq_true] at hr
    exact ⟨hok, by rw [Parser.wf]; exact hr.2.1, by rw [tyOK], hr.2.2.2⟩
  have hp' : everyNode (leafB C) p = true := by
    simp only [everyNode, Bool.and_eq_true] at hp; exact hp.2
  refine leaf_join he hn ht hl (hjoin p (everyNode_ok hp)) (hkeep p hp') ?_ hs
  refine C30_lookahead C _ ht hl fun q hq => ⟨?_, ?_, ?_⟩
  · rintro r f rfl
    have := hreach _ _ hp hq
    simp [leafB] at this
  · rintro k rfl
    have := hreach _ _ hp hq
    simp [leafB] at this
  · rintro r rfl
    have h1 := hreach _ _ hp hq
    have h2 := reach_closed (ok := leafB C) (fun k => by simp [leafB]) hp hq
    simp only [everyNode, Bool.and_eq_true] at h2
    exact ⟨hjoin r h1, hkeep r h2.2⟩

end

end Tok3n
