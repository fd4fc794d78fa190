import Verif.Proof.Laws
import Verif.Props.Peg
import Verif.Props.Replace
import Verif.Props.Exact
/-
C63: equations between parsers that users rely on when they rewrite a grammar.
-/

namespace Tok3n

variable {α β : Type}

section
variable (C : Ctx α β)

theorem sameLookahead_of_peg {p q : Parser α}
    (h : ∀ xs o, Peg C.eqv (fun k => (C.custom k).body) p xs o ↔ Peg C.eqv (fun k => (C.custom k).body) q xs o) :
    SameLookahead C p q := by
  intro s hs
  obtain ⟨p1, p2, p3, p4⟩ := C45_lookahead C p s hs
  cases hm : Look C p s with
  | diverge =>
    refine ((C45_lookahead C q s hs).2.2.1.2 fun o ho => ?_).symm
    exact p3.1 hm o ((h _ o).2 ho)
  | done l r =>
    cases r with
    | err e => exact (p4 l e hm).elim
    | ok r =>
      obtain ⟨v, s'⟩ := r
      cases v with
      | none =>
        obtain ⟨rfl, rfl, hp⟩ := (p2 l s').1 hm
        exact (((C45_lookahead C q s' hs).2.1 [] s').2 ⟨rfl, rfl, (h _ _).1 hp⟩).symm
      | some v =>
        obtain ⟨rfl, hv⟩ := Look_unit hm
        simp only [reduceCtorEq, false_and, Option.some.injEq, false_or] at hv
        subst hv
        obtain ⟨-, k, hp, ha⟩ := (p1 [] s').1 hm
        exact (((C45_lookahead C q s hs).1 [] s').2 ⟨rfl, k, (h _ _).1 hp, ha⟩).symm

theorem sameLookahead_of_verdict {p q : Parser α}
    (h : ∀ s : Span, s.Valid C.mem → lookVerdict C p s = lookVerdict C q s) : SameLookahead C p q := by
  intro s hs
  have h := h s hs
  unfold lookVerdict at h
  have key : ∀ x : Parser α, Look C x s = match verdict (Look C x s) with
      | .accept s' => M.pure (R.successVoid s') | .reject => M.pure (R.failure s) | .error e => .done [] (.err e)
      | .loop => .diverge := by
    intro x
    have hg := Look_good (C := C) x s
    cases hm : Look C x s with
    | diverge => rfl
    | done l r =>
      cases r with
      | err e => exact ((C45_lookahead C x s hs).2.2.2 l e hm).elim
      | ok r =>
        rw [hm] at hg
        obtain ⟨v, s'⟩ := r
        obtain ⟨rfl, hv⟩ := Look_unit hm
        cases v with
        | none =>
          have : s' = s := (show Good s ⟨none, s'⟩ from hg).fail rfl
          subst this; rfl
        | some v =>
          simp only [reduceCtorEq, false_and, Option.some.injEq, false_or] at hv
          subst hv; rfl
  rw [key p, key q, h]

theorem orElses_cons (v : Verdict) (vs : List Verdict) : orElses (v :: vs) = v.orElse (orElses vs) := rfl

/-- `~p` recognises what `p | eps` does. -/
theorem C63_maybe (p : Parser α) : SameLookahead C (.maybe p) (.choice [p, .epsilon]) := by
  refine sameLookahead_of_peg C fun xs o => ?_
  rw [peg_maybe, peg_choice, peg_choice]
  simp only [peg_epsilon, peg_choice_nil, reduceCtorEq, false_and, or_false, Option.some.injEq]
  refine or_congr_right ⟨fun ⟨h, h'⟩ => ⟨h', 0, h, rfl⟩, ?_⟩
  rintro ⟨h, k, rfl, rfl⟩
  exact ⟨rfl, h⟩

/-- `+p` recognises what `p >> *p` does. -/
theorem C63_one_or_more (p : Parser α) : SameLookahead C (.oneOrMore p) (.sequence [p, .zeroOrMore p]) := by
  refine sameLookahead_of_peg C fun xs o => ?_
  rw [peg_oneOrMore, peg_sequence]
  refine or_congr_left ⟨?_, ?_⟩
  · rintro ⟨k, j, rfl, h, h'⟩
    exact ⟨k, some j, rfl, h, .sequenceMore (o := some 0) h' .sequenceNil⟩
  · rintro ⟨k, o', rfl, h, h'⟩
    rcases peg_sequence.1 h' with ⟨j, o'', rfl, h1, h2⟩ | ⟨rfl, h1⟩
    · rw [peg_sequence_nil] at h2; subst h2
      exact ⟨k, j, rfl, h, h1⟩
    · exact (peg_zeroOrMore_none h1).elim

/-- `*p` recognises what `~+p` does … -/
theorem C63_zero_or_more (p : Parser α) : SameLookahead C (.zeroOrMore p) (.maybe (.oneOrMore p)) := by
  refine sameLookahead_of_peg C fun xs o => ?_
  rw [peg_maybe, peg_zeroOrMore]
  simp only [peg_oneOrMore]
  constructor
  · rintro (⟨k, j, rfl, h, h'⟩ | ⟨rfl, h⟩)
    · exact .inl ⟨k + j, rfl, .inl ⟨k, j, rfl, h, h'⟩⟩
    · exact .inr ⟨rfl, .inr ⟨trivial, h⟩⟩
  · rintro (⟨i, rfl, ⟨k, j, e, h, h'⟩ | ⟨e, -⟩⟩ | ⟨rfl, ⟨k, j, e, -⟩ | ⟨-, h⟩⟩)
    · cases e; exact .inl ⟨k, j, rfl, h, h'⟩
    · cases e
    · cases e
    · exact .inr ⟨rfl, h⟩

/-- … and what `(p >> *p) | eps` does. -/
theorem C63_unfold (p : Parser α) :
    SameLookahead C (.zeroOrMore p) (.choice [.sequence [p, .zeroOrMore p], .epsilon]) := by
  intro s hs
  rw [C63_zero_or_more C p s hs]
  exact (C62_lookahead C [.maybe] _ _ (C63_one_or_more C p) s hs).trans (C63_maybe C _ s hs)

/-- `exactly<N + 1>(p)` recognises what `p >> exactly<N>(p)` does, and `exactly<1>(p)` what `p` does. -/
theorem C63_exactly (p : Parser α) (n : Nat) :
    SameLookahead C (.exactly p (n + 1)) (.sequence [p, .exactly p n]) ∧ SameLookahead C (.exactly p 1) p := by
  constructor
  · refine sameLookahead_of_peg C fun xs o => ?_
    rw [peg_exactly, peg_sequence]
    refine or_congr_left ⟨?_, ?_⟩
    · rintro ⟨k, o', rfl, h, h'⟩
      refine ⟨k, o', rfl, h, ?_⟩
      cases o' with
      | none => exact .sequenceMiss h'
      | some j => exact .sequenceMore (o := some 0) h' .sequenceNil
    · rintro ⟨k, o', rfl, h, h'⟩
      refine ⟨k, o', rfl, h, ?_⟩
      rcases peg_sequence.1 h' with ⟨j, o'', rfl, h1, h2⟩ | ⟨rfl, h1⟩
      · rw [peg_sequence_nil] at h2; subst h2
        exact h1
      · exact h1
  · refine sameLookahead_of_peg C fun xs o => ?_
    rw [peg_exactly]
    simp only [peg_exactly_zero]
    constructor
    · rintro (⟨k, o', rfl, h, rfl⟩ | ⟨rfl, h⟩) <;> exact h
    · intro h
      cases o with
      | none => exact .inr ⟨rfl, h⟩
      | some k => exact .inl ⟨k, some 0, rfl, h, rfl⟩

/-- `delimit(p, d)` recognises what `p >> *(d >> p)` does. -/
theorem C63_delimit (p d : Parser α) :
    SameLookahead C (.delimit p d) (.sequence [p, .zeroOrMore (.sequence [d, p])]) := by
  refine sameLookahead_of_peg C fun xs o => ?_
  rw [peg_delimit, peg_sequence]
  refine or_congr_left ⟨?_, ?_⟩
  · rintro ⟨k, j, rfl, h, h'⟩
    exact ⟨k, some j, rfl, h, .sequenceMore (o := some 0) h' .sequenceNil⟩
  · rintro ⟨k, o', rfl, h, h'⟩
    rcases peg_sequence.1 h' with ⟨j, o'', rfl, h1, h2⟩ | ⟨rfl, h1⟩
    · rw [peg_sequence_nil] at h2; subst h2
      exact ⟨k, j, rfl, h, h1⟩
    · exact (peg_zeroOrMore_none h1).elim

/-- `a >> (b | c)` recognises what `(a >> b) | (a >> c)` does. -/
theorem C63_factor (a b c : Parser α) :
    SameLookahead C (.sequence [a, .choice [b, c]]) (.choice [.sequence [a, b], .sequence [a, c]]) := by
  refine sameLookahead_of_verdict C fun s hs => ?_
  simp only [lookVerdict_sequence, lookVerdict_choice, List.map_cons, List.map_nil, andThens_pair, orElses_pair]
  cases lookVerdict C a s with
  | accept t =>
    simp only [Verdict.andThen]
    rw [lookVerdict_choice]
    simp only [List.map_cons, List.map_nil, orElses_pair]
  | _ => rfl

/-- Parentheses in a sequence make no difference to what is recognised. -/
theorem C63_sequence_group (before inner after : List (Parser α)) :
    SameLookahead C (.sequence (before ++ .sequence inner :: after)) (.sequence (before ++ inner ++ after)) := by
  refine sameLookahead_of_verdict C fun s hs => ?_
  rw [lookVerdict_sequence, lookVerdict_sequence, List.map_append, List.map_append, List.map_append, andThens_append,
    List.append_assoc, andThens_append]
  refine Verdict.andThen_congr fun t _ => ?_
  rw [List.map_cons, andThens_cons, andThens_append, lookVerdict_sequence]

/-- Parentheses in a choice make no difference to what is recognised. -/
theorem C63_choice_group (before inner after : List (Parser α)) :
    SameLookahead C (.choice (before ++ .choice inner :: after)) (.choice (before ++ inner ++ after)) := by
  refine sameLookahead_of_verdict C fun s hs => ?_
  rw [lookVerdict_choice, lookVerdict_choice]
  simp only [List.map_append, List.map_cons, orElses_append, orElses_cons, Verdict.orElse_assoc, lookVerdict_choice]

/-- `eps` can be left out of a sequence. -/
theorem C63_epsilon (before after : List (Parser α)) :
    SameLookahead C (.sequence (before ++ .epsilon :: after)) (.sequence (before ++ after)) := by
  refine sameLookahead_of_verdict C fun s hs => ?_
  have he : ∀ t, lookVerdict C .epsilon t = .accept t := fun t => by rw [lookVerdict, Look_epsilon]; rfl
  rw [lookVerdict_sequence, lookVerdict_sequence, List.map_append, List.map_append, andThens_append, andThens_append]
  refine Verdict.andThen_congr fun t _ => ?_
  rw [List.map_cons, andThens_cons, he]
  rfl

/-- What comes after an alternative that never fails is never tried. -/
theorem C63_unreachable (before after : List (Parser α)) (q : Parser α)
    (hq : ∀ s : Span, s.Valid C.mem → ∀ log s', ¬ LookFails C q s log s') :
    SameLookahead C (.choice (before ++ q :: after)) (.choice (before ++ [q])) := by
  refine sameLookahead_of_verdict C fun s hs => ?_
  simp only [lookVerdict_choice, List.map_append, List.map_cons, List.map_nil, orElses_append, orElses_cons]
  congr 1
  cases hv : lookVerdict C q s with
  | reject =>
    unfold lookVerdict verdict at hv
    split at hv
    · cases hv
    · cases hv
    · next l r hr =>
      split at hv
      · cases hv
      · next hn =>
        obtain ⟨v, s'⟩ := r
        cases v with
        | none => exact (hq s hs _ s' hr).elim
        | some v => simp at hn
  | _ => rfl

/-- An alternative that has already been tried can be left out. -/
theorem C63_repeated (xs ys zs : List (Parser α)) (p : Parser α) :
    SameLookahead C (.choice (xs ++ p :: (ys ++ p :: zs))) (.choice (xs ++ p :: (ys ++ zs))) := by
  refine sameLookahead_of_verdict C fun s hs => ?_
  simp only [lookVerdict_choice, List.map_append, List.map_cons, orElses_append, orElses_cons]
  congr 1
  cases lookVerdict C p s <;> rfl

theorem lookVerdict_complete (p : Parser α) (s : Span) : lookVerdict C (.complete p) s =
    (lookVerdict C p s).andThen fun s' => if s'.empty then .accept s' else .reject := by
  rw [lookVerdict, Look_complete, lookVerdict]
  simp only [lookComplete, M.bind_eq, den]
  cases hm : Look C p s with
  | diverge => rfl
  | done l r =>
    cases r with
    | err e => rfl
    | ok r =>
      rw [verdict_bind_ok]
      obtain ⟨v, s'⟩ := r
      cases v with
      | none => rfl
      | some v => cases he : s'.empty <;> simp [R.hasValue, he, verdict, Verdict.andThen, R.failure, M.pure]

/-- `complete` of a sequence is the sequence with `complete` around its last part. -/
theorem C63_complete (before : List (Parser α)) (p : Parser α) :
    SameLookahead C (.complete (.sequence (before ++ [p]))) (.sequence (before ++ [.complete p])) := by
  refine sameLookahead_of_verdict C fun s hs => ?_
  rw [lookVerdict_complete]
  rw [lookVerdict_sequence, lookVerdict_sequence, List.map_append, List.map_append, andThens_append, andThens_append,
    Verdict.andThen_assoc]
  refine Verdict.andThen_congr fun t _ => ?_
  simp only [List.map_cons, List.map_nil, andThens_cons, lookVerdict_complete, Verdict.andThen_assoc]
  refine Verdict.andThen_congr fun u _ => ?_
  show (if u.empty then Verdict.accept u else .reject) = _
  split <;> rfl

/-- What recognises the same, parses the same: if `p` and `q` are looked ahead alike, and both say when parsing what
they say when looking ahead, parsing them accepts the same inputs up to the same place. -/
theorem C63_parse (p q : Parser α) (h : SameLookahead C p q) (hp : LookaheadExactOn C p) (hq : LookaheadExactOn C q)
    (s : Span) (hs : s.Valid C.mem) : parseVerdict C p s = parseVerdict C q s := by
  rw [← hp s hs, ← hq s hs, lookVerdict, lookVerdict, h s hs]

end

/-- The other factoring is wrong: `("a" | "ab") >> "c"` fails on "abc", `("a" >> "c") | ("ab" >> "c")` does not. -/
theorem C63_no_right_factor :
    LookFails (Ex.ctx "abc") (.sequence [.choice [Ex.all "a", Ex.all "ab"], Ex.all "c"]) (Ex.input "abc") []
      (Ex.input "abc") ∧
    Looks (Ex.ctx "abc") (.choice [.sequence [Ex.all "a", Ex.all "c"], .sequence [Ex.all "ab", Ex.all "c"]])
      (Ex.input "abc") [] ⟨.at 0 3, 0⟩ :=
  ⟨Ex.looks _ 6 rfl, Ex.looks _ 6 rfl⟩

/-- The order of alternatives matters: `"a" | "ab"` and `"ab" | "a"` on "ab". -/
theorem C63_order_matters :
    Looks (Ex.ctx "ab") (.choice [Ex.all "a", Ex.all "ab"]) (Ex.input "ab") [] ⟨.at 0 1, 1⟩ ∧
    Looks (Ex.ctx "ab") (.choice [Ex.all "ab", Ex.all "a"]) (Ex.input "ab") [] ⟨.at 0 2, 0⟩ :=
  ⟨Ex.looks _ 6 rfl, Ex.looks _ 6 rfl⟩

-- an alternative that never fails, as C63_unreachable demands
example (C : Ctx Nat Nat) (p : Parser Nat) (s : Span) (_ : s.Valid C.mem) (log : List Call) (s' : Span) :
    ¬ LookFails C (.zeroOrMore p) s log s' := by
  intro h
  rw [LookFails, Look_zeroOrMore] at h
  obtain ⟨_, _, _, _, h, _⟩ := M.bind_eq_ok.1 h
  cases h

-- parsers that are looked ahead exactly and alike, as C63_parse demands: ignore(+"a") and ignore("a" >> *"a")
example (s : Span) (hs : s.Valid (Ex.ctx "aa").mem) :
    parseVerdict (Ex.ctx "aa") (.ignore (.oneOrMore (Ex.all "a"))) s =
      parseVerdict (Ex.ctx "aa") (.ignore (.sequence [Ex.all "a", .zeroOrMore (Ex.all "a")])) s :=
  C63_parse _ _ _ (C62_lookahead _ [.ignore] _ _ (C63_one_or_more _ _)) (fun s _ => (C15_lookahead_exact _ _).2.1 s)
    (fun s _ => (C15_lookahead_exact _ _).2.1 s) s hs

end Tok3n
