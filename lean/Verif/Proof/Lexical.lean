import Verif.Proof.Text
/-
Characters, classes of characters and white space, for contexts whose characters are compared by equality; sequences
taken apart.
-/

namespace Tok3n

section
variable {α β : Type} {C : Ctx α β} {p : Parser α} {ps : List (Parser α)} {s s' : Span} {vs : List Val}

theorem seqOk_nil : SeqOk C ([] : List (Parser α)) s vs s' ↔ vs = [] ∧ s' = s := Iff.rfl
theorem seqOk_skip (h : resultFor C p = .void) :
    SeqOk C (p :: ps) s vs s' ↔ ∃ s1, See C p s s1 ∧ SeqOk C ps s1 vs s' := by rw [SeqOk, if_pos h]
theorem seqOk_take (h : resultFor C p ≠ .void) :
    SeqOk C (p :: ps) s vs s' ↔ ∃ v s1 ws, Ok C p s v s1 ∧ SeqOk C ps s1 ws s' ∧ vs = v :: ws := by rw [SeqOk, if_neg h]

/-- neither a `map` nor a custom parser -/
def noMapB : Parser α → Bool
  | .map _ _ => false
  | .custom _ => false
  | _ => true

theorem spanLocal_noMap (hl : C.Local) (hp : everyNode noMapB p = true) : SpanLocal C p := by
  refine ⟨hl, fun q f h => ?_⟩
  have := everyNode_ok (reach_closed (ok := noMapB) (fun k => rfl) hp h)
  simp [noMapB] at this

theorem seqNo_skip (h : resultFor C p = .void) :
    SeqNo C (p :: ps) s ↔ Miss C p s ∨ ∃ s1, See C p s s1 ∧ SeqNo C ps s1 := by rw [SeqNo, if_pos h]
theorem seqNo_take (h : resultFor C p ≠ .void) :
    SeqNo C (p :: ps) s ↔ No C p s ∨ ∃ v s1, Ok C p s v s1 ∧ SeqNo C ps s1 := by rw [SeqNo, if_neg h]

theorem Reads.split [DecidableEq β] {mem : Mem β} {x y : List β} (hs : s.Valid mem) (h : Reads mem s (x ++ y) s') :
    ∃ s1, Reads mem s x s1 ∧ Reads mem s1 y s' := by
  have h1 : Reads mem s x (s.drop x.length) :=
    .of_text hs (y := y ++ s'.elems mem) (by rw [h.text, List.append_assoc])
  refine ⟨_, h1, ?_⟩
  have h2 := h1.text
  rw [h.text, List.append_assoc, List.append_cancel_left_eq] at h2
  have h3 : Reads mem (s.drop x.length) y ((s.drop x.length).drop y.length) := .of_text (h1.valid hs) h2.symm
  have h4 := h1.trans h3
  have e : s' = (s.drop x.length).drop y.length := by rw [h.eq, h4.eq]
  rw [e]; exact h3

end

namespace Lexical

variable {C : Ctx Nat Nat} {s s' : Span} {w : Val} {l : List Nat}

theorem see_lit (he : C.eqv = (· == ·)) (hs : s.Valid C.mem) : See C (.allOf l) s s' ↔ Reads C.mem s l s' := by
  rw [see_iff he hs]
  simp only [to_allOf]
  exact ⟨fun ⟨_, h, e⟩ => e ▸ h, fun h => ⟨_, h, rfl⟩⟩

theorem see_ign (he : C.eqv = (· == ·)) (hs : s.Valid C.mem) :
    See C (.ignore (.allOf l)) s s' ↔ Reads C.mem s l s' := by
  rw [see_ignore, see_lit he hs]

theorem see_any (he : C.eqv = (· == ·)) (hs : s.Valid C.mem) :
    See C (.anyOf l) s s' ↔ ∃ c ∈ l, Reads C.mem s [c] s' := by
  rw [see_iff he hs]
  simp only [to_anyOf]
  constructor
  · rintro ⟨_, h, c, hc, rfl⟩; exact ⟨c, hc, h⟩
  · rintro ⟨c, hc, h⟩; exact ⟨_, h, c, hc, rfl⟩

theorem miss_any (he : C.eqv = (· == ·)) (hs : s.Valid C.mem) :
    Miss C (.anyOf l) s ↔ ∀ c ∈ (s.elems C.mem).head?, c ∉ l := by
  rw [miss_iff he hs, fails_anyOf]

theorem see_class (he : C.eqv = (· == ·)) (hs : s.Valid C.mem) :
    See C (.ignore (.anyOf l)) s s' ↔ ∃ c ∈ l, Reads C.mem s [c] s' := by rw [see_ignore, see_any he hs]

theorem miss_class (he : C.eqv = (· == ·)) (hs : s.Valid C.mem) :
    Miss C (.ignore (.anyOf l)) s ↔ ∀ c ∈ (s.elems C.mem).head?, c ∉ l := by rw [miss_ignore, miss_any he hs]

theorem miss_ign (he : C.eqv = (· == ·)) {c : Nat} (hs : s.Valid C.mem) :
    Miss C (.ignore (.allOf [c])) s ↔ ∀ d ∈ (s.elems C.mem).head?, d ≠ c := by
  rw [miss_ignore, miss_iff he hs, fails_allOf]
  cases s.elems C.mem with
  | nil => simp
  | cons d x => simp [eq_comm]

/-- as many characters of the class as there are -/
theorem see_many (he : C.eqv = (· == ·)) (hs : s.Valid C.mem) : See C (.ignore (.zeroOrMore (.anyOf l))) s s' ↔
    ∃ a, Reads C.mem s a s' ∧ (∀ c ∈ a, c ∈ l) ∧ ∀ c ∈ (s'.elems C.mem).head?, c ∉ l := by
  rw [see_ignore, see_iff he hs]
  simp only [to_many]

theorem matches_lit {xs : List Nat} {k : Nat} :
    Matches (· == ·) (.allOf l) xs k ↔ k = l.length ∧ l <+: xs := by
  simp only [Matches, forall₂_beq]
  constructor
  · rintro ⟨h, _, r, rfl, rfl⟩; exact ⟨h, r, rfl⟩
  · rintro ⟨h, r, rfl⟩; exact ⟨h, _, r, rfl, rfl⟩

theorem ok_lit (he : C.eqv = (· == ·)) (hs : s.Valid C.mem) :
    Ok C (.allOf l) s w s' ↔ Reads C.mem s l s' ∧ w = .span ⟨s.ptr, l.length⟩ := by
  constructor
  · rintro ⟨log, h⟩
    obtain ⟨-, k, hk, rfl, ha⟩ := (C07_basic_parse C (.allOf l) trivial s hs log w s').1.1 h
    rw [he] at hk
    obtain ⟨rfl, r, hr⟩ := matches_lit.1 hk
    have h1 := Reads.of_text hs hr.symm
    rw [← ha.eq_drop] at h1
    exact ⟨h1, rfl⟩
  · rintro ⟨h, rfl⟩
    exact ⟨[], (C07_basic_parse C (.allOf l) trivial s hs [] _ s').1.2
      ⟨rfl, _, by rw [he]; exact matches_lit.2 ⟨rfl, _, h.text.symm⟩, rfl, h.advanced⟩⟩

theorem no_lit (he : C.eqv = (· == ·)) (hs : s.Valid C.mem) : No C (.allOf l) s ↔ ¬ l <+: s.elems C.mem := by
  constructor
  · rintro ⟨log, h⟩ hl
    obtain ⟨-, -, h⟩ := (C07_basic_parse C (.allOf l) trivial s hs log .unit s).2.1 h
    exact h _ (by rw [he]; exact matches_lit.2 ⟨rfl, hl⟩)
  · intro h
    exact ⟨[], (C07_basic_parse C (.allOf l) trivial s hs [] .unit s).2.2
      ⟨rfl, rfl, fun k hk => h (matches_lit.1 (by rw [he] at hk; exact hk)).2⟩⟩

theorem matches_any {xs : List Nat} {k : Nat} :
    Matches (· == ·) (.anyOf l) xs k ↔ k = 1 ∧ ∃ c ∈ l, ∃ r, xs = c :: r := by
  constructor
  · rintro ⟨rfl, c, r, rfl, a, ha, hac⟩
    have : a = c := by simpa using hac
    exact ⟨rfl, c, this ▸ ha, r, rfl⟩
  · rintro ⟨rfl, c, hc, r, rfl⟩
    exact ⟨rfl, c, r, rfl, c, hc, by simp⟩

theorem ok_any (he : C.eqv = (· == ·)) (hs : s.Valid C.mem) :
    Ok C (.anyOf l) s w s' ↔ ∃ c ∈ l, Reads C.mem s [c] s' ∧ w = .span ⟨s.ptr, 1⟩ := by
  constructor
  · rintro ⟨log, h⟩
    obtain ⟨-, k, hk, rfl, ha⟩ := (C07_basic_parse C (.anyOf l) trivial s hs log w s').1.1 h
    rw [he] at hk
    obtain ⟨rfl, c, hc, r, hr⟩ := matches_any.1 hk
    have h1 := Reads.of_text (x := [c]) hs hr
    rw [List.length_singleton, ← ha.eq_drop] at h1
    exact ⟨c, hc, h1, rfl⟩
  · rintro ⟨c, hc, h, rfl⟩
    exact ⟨[], (C07_basic_parse C (.anyOf l) trivial s hs [] _ s').1.2
      ⟨rfl, _, by rw [he]; exact matches_any.2 ⟨rfl, c, hc, _, h.text⟩, rfl, h.advanced⟩⟩

theorem no_any (he : C.eqv = (· == ·)) (hs : s.Valid C.mem) :
    No C (.anyOf l) s ↔ ∀ c ∈ (s.elems C.mem).head?, c ∉ l := by
  constructor
  · rintro ⟨log, h⟩ c hc hl
    obtain ⟨-, -, h⟩ := (C07_basic_parse C (.anyOf l) trivial s hs log .unit s).2.1 h
    obtain ⟨r, hr⟩ : ∃ r, s.elems C.mem = c :: r := by
      cases e : s.elems C.mem with
      | nil => rw [e] at hc; simp at hc
      | cons d x => rw [e] at hc; simp at hc; subst hc; exact ⟨x, rfl⟩
    exact h _ (by rw [he]; exact matches_any.2 ⟨rfl, c, hl, r, hr⟩)
  · intro h
    refine ⟨[], (C07_basic_parse C (.anyOf l) trivial s hs [] .unit s).2.2 ⟨rfl, rfl, fun k hk => ?_⟩⟩
    rw [he] at hk
    obtain ⟨rfl, c, hc, r, hr⟩ := matches_any.1 hk
    exact h c (by rw [hr]; rfl) hc

end Lexical

end Tok3n
