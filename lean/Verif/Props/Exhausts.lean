import Verif.Spec.Exhausts
import Verif.Props.Laws
import Verif.Props.Order
import Verif.Props.Repetition
import Verif.Props.Language
/-
C88: what a repetition has consumed, it does not give back.
-/

namespace Tok3n

variable {α β : Type}

section
variable (C : Ctx α β)

theorem looks_lookVerdict {p : Parser α} {s s' : Span} : (∃ log, Looks C p s log s') ↔ lookVerdict C p s = .accept s' := by
  refine ⟨fun ⟨log, h⟩ => ?_, lookVerdict_accept C⟩
  rw [lookVerdict, show Look C p s = _ from h]; rfl

theorem lookFails_lookVerdict {p : Parser α} {s : Span} : (∃ log, LookFails C p s log s) ↔ lookVerdict C p s = .reject := by
  refine ⟨fun ⟨log, h⟩ => ?_, fun h => ?_⟩
  · rw [lookVerdict, show Look C p s = _ from h]; rfl
  · obtain ⟨log, s', h⟩ := lookVerdict_reject C h
    cases Look_failsBack p _ _ _ h
    exact ⟨log, h⟩

theorem exhausts_iff {r p : Parser α} : Exhausts C r p ↔
    ∀ s : Span, s.Valid C.mem → ∀ s', lookVerdict C r s = .accept s' → lookVerdict C p s' = .reject := by
  constructor
  · intro h s hs s' hv
    obtain ⟨log, hl⟩ := lookVerdict_accept C hv
    exact (lookFails_lookVerdict C).1 (h s hs log s' hl)
  · intro h s hs log s' hl
    exact (lookFails_lookVerdict C).2 (h s hs s' ((looks_lookVerdict C).1 ⟨log, hl⟩))

theorem partVerdict_accept {p : Parser α} {s s' : Span} :
    partVerdict C p s = .accept s' ↔ ∃ log v, partRun C p s = .done log (.ok ⟨some v, s'⟩) := by
  constructor
  · intro h
    unfold partVerdict verdict at h
    split at h
    · cases h
    · cases h
    · next l r hr =>
      split at h
      · next hv =>
        obtain ⟨v, s1⟩ := r
        cases h
        cases v with
        | none => cases hv
        | some v => exact ⟨l, v, hr⟩
      · cases h
  · rintro ⟨log, v, h⟩
    rw [partVerdict, h]; rfl

theorem partVerdict_reject {p : Parser α} {s : Span} : partVerdict C p s = .reject ↔ AltRejects C s p := by
  constructor
  · intro h
    unfold partVerdict verdict at h
    split at h
    · cases h
    · cases h
    · next l r hr =>
      split at h
      · cases h
      · next hv =>
        obtain ⟨v, s1⟩ := r
        cases v with
        | none => exact ⟨l, s1, hr⟩
        | some v => exact (hv rfl).elim
  · rintro ⟨log, s', h⟩
    rw [partVerdict, h]; rfl

theorem exhaustsPart_iff {r p : Parser α} : ExhaustsPart C r p ↔
    ∀ s : Span, s.Valid C.mem → ∀ s', partVerdict C r s = .accept s' → partVerdict C p s' = .reject := by
  constructor
  · intro h s hs s' hv
    obtain ⟨log, v, hl⟩ := (partVerdict_accept C).1 hv
    exact (partVerdict_reject C).2 (h s hs log v s' hl)
  · intro h s hs log v s' hl
    exact (partVerdict_reject C).1 (h s hs s' ((partVerdict_accept C).2 ⟨log, v, hl⟩))

/-! ### What exhausts what -/

/-- **C88.** Where `*p` and `+p` stop, `p` fails: looking ahead … -/
theorem C88_repetition (p : Parser α) : Exhausts C (.zeroOrMore p) p ∧ Exhausts C (.oneOrMore p) p := by
  have hz : Exhausts C (.zeroOrMore p) p := by
    intro s _ log s' h
    obtain ⟨_, _, _, _, l', h, _⟩ := (C19_lookahead C p s s' log).1.1 h
    exact ⟨l', h⟩
  refine ⟨hz, (exhausts_iff C).2 fun s hs s' h => ?_⟩
  rw [(C20_then C p s).2] at h
  cases hp : lookVerdict C p s with
  | accept s1 =>
    rw [hp] at h
    exact (exhausts_iff C).1 hz s1 (look_accept_valid hs hp) s' h
  | _ => rw [hp] at h; cases h

/-- … and as part of a sequence that is parsed. -/
theorem C88_repetition_part (p : Parser α) : ExhaustsPart C (.zeroOrMore p) p ∧ ExhaustsPart C (.oneOrMore p) p := by
  by_cases hv : resultFor C p = .void
  · have hz : resultFor C (.zeroOrMore p) = .void := by rw [resultFor, voidOr, if_pos hv]
    have ho : resultFor C (.oneOrMore p) = .void := by rw [resultFor, voidOr, if_pos hv]
    obtain ⟨h1, h2⟩ := C88_repetition C p
    rw [exhausts_iff] at h1 h2
    simp only [exhaustsPart_iff, partVerdict_look hv, partVerdict_look hz, partVerdict_look ho]
    exact ⟨h1, h2⟩
  · have hz : resultFor C (.zeroOrMore p) ≠ .void := by rw [resultFor, voidOr, if_neg hv]; simp
    have ho : resultFor C (.oneOrMore p) ≠ .void := by rw [resultFor, voidOr, if_neg hv]; simp
    simp only [exhaustsPart_iff, partVerdict_parse hv, partVerdict_parse hz, partVerdict_parse ho]
    have key : ∀ s s', parseVerdict C (.zeroOrMore p) s = .accept s' → parseVerdict C p s' = .reject := by
      intro s s' h
      rw [← partVerdict_parse hz, partVerdict_accept] at h
      obtain ⟨log, v, h⟩ := h
      rw [partRun, if_neg hz] at h
      obtain ⟨_, _, _, _, l', h, _⟩ := ((C19_zero_or_more C p s s' log).1 v).1 h
      rw [parseVerdict, show Parse C p s' = _ from h]; rfl
    refine ⟨fun s _ s' h => key s s' h, fun s _ s' h => ?_⟩
    rw [(C20_then C p s).1] at h
    cases hp : parseVerdict C p s with
    | accept s1 => rw [hp] at h; exact key s1 s' h
    | _ => rw [hp] at h; cases h

/-- Where `delimit(p, d)` stops, `d >> p` fails.  (But not `d`: a trailing delimiter is left.) -/
theorem C88_delimit (p d : Parser α) : Exhausts C (.delimit p d) (.sequence [d, p]) := by
  rw [exhausts_iff]
  intro s hs s' h
  have e := C63_delimit C p d s hs
  rw [lookVerdict, e, ← lookVerdict, lookVerdict_sequence] at h
  simp only [List.map_cons, List.map_nil, andThens_pair] at h
  cases hp : lookVerdict C p s with
  | accept s1 =>
    rw [hp] at h
    exact (exhausts_iff C).1 (C88_repetition C _).1 s1 (look_accept_valid hs hp) s' h
  | _ => rw [hp] at h; cases h

/-- A sequence exhausts what its last part exhausts, and a choice what all its alternatives exhaust. -/
theorem C88_last (before : List (Parser α)) (r p : Parser α) (h : Exhausts C r p) :
    Exhausts C (.sequence (before ++ [r])) p := by
  rw [exhausts_iff] at h ⊢
  intro s hs s' hv
  rw [lookVerdict_sequence] at hv
  induction before generalizing s with
  | nil =>
    refine h s hs s' ?_
    simpa [andThens_cons, andThens, Verdict.andThen_accept] using hv
  | cons q qs ih =>
    rw [List.cons_append, List.map_cons, andThens_cons] at hv
    cases hq : lookVerdict C q s with
    | accept s1 => rw [hq] at hv; exact ih s1 (look_accept_valid hs hq) hv
    | _ => rw [hq] at hv; cases hv

theorem C88_choice (rs : List (Parser α)) (p : Parser α) (h : ∀ r ∈ rs, Exhausts C r p) : Exhausts C (.choice rs) p := by
  simp only [exhausts_iff] at h ⊢
  intro s hs s' hv
  rw [lookVerdict_choice] at hv
  induction rs with
  | nil => cases hv
  | cons q qs ih =>
    rw [List.map_cons, orElses_cons] at hv
    cases hq : lookVerdict C q s with
    | reject => rw [hq] at hv; exact ih (fun r hr => h r (.tail _ hr)) hv
    | accept s1 => rw [hq] at hv; cases hv; exact h q (.head _) s hs s' hq
    | _ => rw [hq] at hv; cases hv

/-! ### What follows -/

/-- **C88.** If `r` exhausts `p`, and `p` accepts wherever `q` does, then a sequence in which `q` comes right behind `r`
never looks ahead successfully, on no input at all. -/
theorem C88_never (before after : List (Parser α)) (r p q : Parser α) (he : Exhausts C r p) (hc : Covers C p q) (s : Span)
    (hs : s.Valid C.mem) (log : List Call) (s' : Span) :
    ¬ Looks C (.sequence (before ++ r :: q :: after)) s log s' := by
  intro h
  have hv := (looks_lookVerdict C).1 ⟨log, h⟩
  clear h
  rw [lookVerdict_sequence] at hv
  induction before generalizing s with
  | nil =>
    rw [List.nil_append, List.map_cons, andThens_cons] at hv
    cases hr : lookVerdict C r s with
    | accept s1 =>
      have hp := (exhausts_iff C).1 he s hs s1 hr
      rw [hr] at hv
      simp only [Verdict.andThen, List.map_cons, andThens_cons] at hv
      cases hq : lookVerdict C q s1 with
      | accept s2 =>
        have := (lookVerdict_accepts C).2 (hc s1 (look_accept_valid hs hr) ⟨_, _, (lookVerdict_accept C hq).choose_spec⟩)
        rw [hp] at this
        cases this
      | _ => rw [hq] at hv; cases hv
    | _ => rw [hr] at hv; cases hv
  | cons x xs ih =>
    rw [List.cons_append, List.map_cons, andThens_cons] at hv
    cases hx : lookVerdict C x s with
    | accept s1 => rw [hx] at hv; exact ih s1 (look_accept_valid hs hx) hv
    | _ => rw [hx] at hv; cases hv

/-- Nor does it parse successfully, if that holds of the parts as the sequence runs them. -/
theorem C88_never_parse [LinearOrder α] (before after : List (Parser α)) (r p q : Parser α)
    (hw : Compiles C (.sequence (before ++ r :: q :: after))) (he : ExhaustsPart C r p) (hc : CoversPart C p q) (s : Span)
    (hs : s.Valid C.mem) (log : List Call) (v : Val) (s' : Span) :
    ¬ Parses C (.sequence (before ++ r :: q :: after)) s log v s' := by
  intro h
  have hv : parseVerdict C (.sequence (before ++ r :: q :: after)) s = .accept s' := by
    rw [parseVerdict, show Parse C _ s = _ from h]; rfl
  rw [parseVerdict_sequence hw.parse] at hv
  clear h hw
  induction before generalizing s with
  | nil =>
    rw [List.nil_append, List.map_cons, andThens_cons] at hv
    cases hr : partVerdict C r s with
    | accept s1 =>
      have hp := (exhaustsPart_iff C).1 he s hs s1 hr
      rw [hr] at hv
      simp only [Verdict.andThen, List.map_cons, andThens_cons] at hv
      cases hq : partVerdict C q s1 with
      | accept s2 =>
        obtain ⟨l, v, h⟩ := (partVerdict_accept C).1 hq
        obtain ⟨l, v, s3, h⟩ := hc s1 (accept_valid hs hr) ⟨l, v, s2, h⟩
        rw [(partVerdict_accept C).2 ⟨l, v, h⟩] at hp
        cases hp
      | _ => rw [hq] at hv; cases hv
    | _ => rw [hr] at hv; cases hv
  | cons x xs ih =>
    rw [List.cons_append, List.map_cons, andThens_cons] at hv
    cases hx : partVerdict C x s with
    | accept s1 => rw [hx] at hv; exact ih s1 (accept_valid hs hx) hv
    | _ => rw [hx] at hv; cases hv

/-- **C88.** Behind what exhausts `p`, `*p` and `~p` make no difference: `*p >> *p` is `*p`, `+p >> ~p` is `+p`. -/
theorem C88_absorb (before after : List (Parser α)) (r p : Parser α) (he : Exhausts C r p) :
    SameLookahead C (.sequence (before ++ r :: .zeroOrMore p :: after)) (.sequence (before ++ r :: after)) ∧
    SameLookahead C (.sequence (before ++ r :: .maybe p :: after)) (.sequence (before ++ r :: after)) := by
  have hz : ∀ s, s.Valid C.mem → lookVerdict C p s = .reject → lookVerdict C (.zeroOrMore p) s = .accept s := by
    intro s hs h
    obtain ⟨l, h⟩ := (lookFails_lookVerdict C).2 h
    exact (looks_lookVerdict C).1 ⟨_, (C19_lookahead C p s s ([] ++ l)).1.2 ⟨0, [], [], .nil, l, h, rfl⟩⟩
  have hm : ∀ s, s.Valid C.mem → lookVerdict C p s = .reject → lookVerdict C (.maybe p) s = .accept s := by
    intro s hs h
    obtain ⟨l, h⟩ := (lookFails_lookVerdict C).2 h
    exact (looks_lookVerdict C).1 ⟨_, (C18_lookahead C p s s l).1.2 (.inr ⟨h, rfl⟩)⟩
  have key : ∀ z : Parser α, (∀ s, s.Valid C.mem → lookVerdict C p s = .reject → lookVerdict C z s = .accept s) →
      SameLookahead C (.sequence (before ++ r :: z :: after)) (.sequence (before ++ r :: after)) := by
    intro z hz
    refine sameLookahead_of_verdict C fun s hs => ?_
    rw [lookVerdict_sequence, lookVerdict_sequence]
    induction before generalizing s with
    | nil =>
      simp only [List.nil_append, List.map_cons, andThens_cons]
      refine Verdict.andThen_congr fun s1 h1 => ?_
      rw [andThens_cons, hz s1 (look_accept_valid hs h1) ((exhausts_iff C).1 he s hs s1 h1)]; rfl
    | cons x xs ih =>
      rw [List.cons_append, List.cons_append, List.map_cons, List.map_cons, andThens_cons, andThens_cons]
      exact Verdict.andThen_congr fun s1 h1 => ih s1 (look_accept_valid hs h1)
  exact ⟨key _ hz, key _ hm⟩

/-- **C88.** An optional part is not optional if what comes behind it begins alike: if `p` accepts wherever `q` does,
`~p >> q` accepts no more than `p >> q`. -/
theorem C88_optional (before after : List (Parser α)) (p q : Parser α) (hc : Covers C p q) (hr : LookReturns C q) :
    SameLookahead C (.sequence (before ++ .maybe p :: q :: after)) (.sequence (before ++ p :: q :: after)) := by
  refine sameLookahead_of_verdict C fun s hs => ?_
  rw [lookVerdict_sequence, lookVerdict_sequence]
  induction before generalizing s with
  | nil =>
    simp only [List.nil_append, List.map_cons, andThens_cons]
    have e : lookVerdict C (.maybe p) s = (lookVerdict C p s).orElse (.accept s) := by
      rw [lookVerdict, C63_maybe C p s hs, ← lookVerdict, lookVerdict_choice]
      simp only [List.map_cons, List.map_nil, orElses_cons]
      rw [show lookVerdict C .epsilon s = .accept s by rw [lookVerdict, Look_epsilon]; rfl]; rfl
    rw [e]
    cases hp : lookVerdict C p s with
    | reject =>
      show (lookVerdict C q s).andThen _ = .reject
      rcases lookVerdict_cases C hs (hr s hs) with h | h
      · have := (lookVerdict_accepts C).2 (hc s hs ((lookVerdict_accepts C).1 h))
        rw [hp] at this
        cases this
      · rw [h]; rfl
    | _ => rfl
  | cons x xs ih =>
    rw [List.cons_append, List.cons_append, List.map_cons, List.map_cons, andThens_cons, andThens_cons]
    exact Verdict.andThen_congr fun s1 h1 => ih s1 (look_accept_valid hs h1)

/-- **C88.** Character classes: one accepts wherever one with fewer elements does. -/
theorem C88_classes (xs ys : List α) (h : ∀ a ∈ ys, a ∈ xs) :
    Covers C (.anyOf xs) (.anyOf ys) ∧ CoversPart C (.anyOf xs) (.anyOf ys) := by
  have key : ∀ es k, Matches C.eqv (.anyOf ys) es k → Matches C.eqv (.anyOf xs) es k := by
    rintro es k ⟨hk, x, rest, e, a, ha, he⟩
    exact ⟨hk, x, rest, e, a, h a ha, he⟩
  constructor
  · rintro s hs ⟨log, s', hl⟩
    obtain ⟨-, k, hk, ha⟩ := ((C07_basic_lookahead C _ (show IsBasic (.anyOf ys) from trivial) s hs log s').1).1 hl
    exact ⟨[], s', ((C07_basic_lookahead C _ (show IsBasic (.anyOf xs) from trivial) s hs [] s').1).2 ⟨rfl, k, key _ _ hk, ha⟩⟩
  · rintro s hs ⟨log, v, s', hl⟩
    have e : ∀ zs : List α, partRun C (.anyOf zs) s = Parse C (.anyOf zs) s := fun zs => by
      rw [partRun, if_neg]; rw [resultFor]; simp
    unfold AltAccepts
    rw [e] at hl ⊢
    obtain ⟨-, k, hk, hv, ha⟩ := ((C07_basic_parse C _ (show IsBasic (.anyOf ys) from trivial) s hs log v s').1).1 hl
    exact ⟨[], v, s', ((C07_basic_parse C _ (show IsBasic (.anyOf xs) from trivial) s hs [] v s').1).2
      ⟨rfl, k, key _ _ hk, hv, ha⟩⟩

theorem word_star_append {eqv : α → β → Bool} {body : Nat → Parser α} {p : Parser α} {u v : List β}
    (h : Word eqv body (.zeroOrMore p) u) (h' : Word eqv body (.zeroOrMore p) v) : Word eqv body (.zeroOrMore p) (u ++ v) := by
  generalize hq : Parser.zeroOrMore p = q at h
  induction h with
  | zeroNil => cases hq; exact h'
  | zeroMore h1 _ _ ih => cases hq; rw [List.append_assoc]; exact .zeroMore h1 (ih rfl)
  | basic hb => subst hq; exact hb.elim
  | _ => cases hq

theorem word_star_snoc {eqv : α → β → Bool} {body : Nat → Parser α} {p : Parser α} {u v : List β}
    (h : Word eqv body p u) (h' : Word eqv body (.zeroOrMore p) v) :
    ∃ x y, u ++ v = x ++ y ∧ Word eqv body (.zeroOrMore p) x ∧ Word eqv body p y := by
  generalize hq : Parser.zeroOrMore p = q at h'
  induction h' generalizing u with
  | zeroNil => exact ⟨[], u, by simp, .zeroNil, h⟩
  | zeroMore h1 _ _ ih =>
    cases hq
    obtain ⟨x, y, e, hx, hy⟩ := ih h1 rfl
    exact ⟨u ++ x, y, by rw [e, List.append_assoc], .zeroMore h hx, hy⟩
  | basic hb => subst hq; exact hb.elim
  | _ => cases hq

/-- **C88.** So `*p >> p` describes the same words as `+p`, and accepts none of them. -/
theorem C88_language (p : Parser α) :
    (∀ w, WordC C (.sequence [.zeroOrMore p, p]) w ↔ WordC C (.oneOrMore p) w) ∧
    ∀ s, s.Valid C.mem → ∀ log s', ¬ Looks C (.sequence [.zeroOrMore p, p]) s log s' := by
  refine ⟨fun w => ⟨fun h => ?_, fun h => ?_⟩, fun s hs log s' =>
    C88_never C [] [] _ p p (C88_repetition C p).1 (fun _ _ h => h) s hs log s'⟩
  · cases h with
    | basic hb => exact hb.elim
    | sequenceMore h1 h2 =>
      cases h2 with
      | basic hb => exact hb.elim
      | sequenceMore h2 h3 =>
        cases h3 with
        | basic hb => exact hb.elim
        | sequenceNil =>
          rw [List.append_nil]
          cases h1 with
          | basic hb => exact hb.elim
          | zeroNil => simpa using Word.oneOrMore h2 .zeroNil
          | zeroMore h3 h4 =>
            rw [List.append_assoc]
            refine .oneOrMore h3 (word_star_append h4 ?_)
            simpa using Word.zeroMore h2 .zeroNil
  · cases h with
    | basic hb => exact hb.elim
    | oneOrMore h1 h2 =>
      obtain ⟨x, y, e, hx, hy⟩ := word_star_snoc h1 h2
      rw [e]
      refine .sequenceMore hx ?_
      simpa using Word.sequenceMore hy .sequenceNil

end

/-! ### Concrete cases -/

-- an identifier that must end in a digit, written the wrong way: *(letter or digit) >> digit never succeeds
example (text : String) (s : Span) (hs : s.Valid (Ex.ctx text).mem) :
    (∀ log s', ¬ Looks (Ex.ctx text) (.sequence [.zeroOrMore (Ex.any "01ab"), Ex.any "01"]) s log s') ∧
    ∀ log v s', ¬ Parses (Ex.ctx text) (.sequence [.zeroOrMore (Ex.any "01ab"), Ex.any "01"]) s log v s' := by
  obtain ⟨h1, h2⟩ := C88_classes (Ex.ctx text) (Ex.str "01ab") (Ex.str "01") (by decide)
  exact ⟨fun log s' => C88_never _ [] [] _ _ _ (C88_repetition _ _).1 h1 s hs log s',
    fun log v s' => C88_never_parse _ [] [] _ _ _ ⟨Ex.ctx_ok _, rfl, rfl, rfl⟩ (C88_repetition_part _ _).1 h2 s hs log v s'⟩

-- "a" >> (*" " | +" "): the alternatives of C88_choice and the last part of C88_last
example (text : String) : Exhausts (Ex.ctx text)
    (.sequence [Ex.all "a", .choice [.zeroOrMore (Ex.all " "), .oneOrMore (Ex.all " ")]]) (Ex.all " ") :=
  C88_last _ [_] _ _ (C88_choice _ _ _ (by
    simp only [List.mem_cons, List.not_mem_nil, or_false, forall_eq_or_imp, forall_eq]
    exact C88_repetition _ _))

/-- What comes behind the trailing delimiter is what counts: `delimit(a, ",") >> ","` accepts "a,", but
`delimit(a, ",") >> "," >> a` accepts nothing. -/
theorem C88_trailing :
    Looks (Ex.ctx "a,") (.sequence [.delimit (Ex.all "a") (Ex.all ","), Ex.all ","]) (Ex.input "a,") [] ⟨.at 0 2, 0⟩ ∧
    ∀ (text : String) (s : Span), s.Valid (Ex.ctx text).mem → ∀ log s',
      ¬ Looks (Ex.ctx text) (.sequence [.delimit (Ex.all "a") (Ex.all ","), .sequence [Ex.all ",", Ex.all "a"]]) s log s' :=
  ⟨Ex.looks _ 8 rfl, fun _ s hs log s' =>
    C88_never _ [] [] _ _ _ (C88_delimit _ _ _) (fun _ _ h => h) s hs log s'⟩

/-- `~p >> p` fails on the text of one `p`. -/
theorem C88_refuted_optional :
    LookFails (Ex.ctx "a") (.sequence [.maybe (Ex.all "a"), Ex.all "a"]) (Ex.input "a") [] (Ex.input "a") ∧
    Looks (Ex.ctx "aa") (.sequence [.maybe (Ex.all "a"), Ex.all "a"]) (Ex.input "aa") [] ⟨.at 0 2, 0⟩ :=
  ⟨Ex.looks _ 8 rfl, Ex.looks _ 8 rfl⟩

end Tok3n
