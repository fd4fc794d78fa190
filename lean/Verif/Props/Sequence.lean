import Verif.Proof.Sequence
import Verif.Props.Choice
/-
C15, C16, C17, C44: sequences and `operator>>`.
-/

namespace Tok3n

variable {α β : Type}

/-! ## C15 Sequence -/

/-- The type of a sequence: the tuple of the non-void types of its parts, in order; the type
itself if there is one, void if there is none. -/
theorem C15_type (C : Ctx α β) (ps : List (Parser α)) :
    resultFor C (.sequence ps) = sequenceType (ps.map (resultFor C)) := by
  rw [resultFor_sequence, resultsFor_eq]

/-- A sequence succeeds exactly if its parts succeed one after the other, each starting
where the one before stopped; what remains is what the last one left, the callbacks run are
those of the parts in order, the value is that of the non-void parts in order.  It fails
exactly if some part fails on what the parts before it left; then the input is given back
and no later part is run.

`partRun` is `parse`, for parts without value `lookahead`; missing from C15 is that for
those `parse` is what counts (C44, `C15_parts_parse`). -/
theorem C15_sequence_partial [LinearOrder α] (C : Ctx α β) (ps : List (Parser α))
    (hc : Compiles C (.sequence ps)) (s s' : Span) (log : List Call) :
    (∀ w, Parses C (.sequence ps) s log w s' ↔
      ∃ vs, InTurn (ps.map (partRun C)) s log vs s' ∧
        w = sequenceValue (withValue (ps.map (resultFor C)) vs)) ∧
    (ParseFails C (.sequence ps) s log s' ↔ s' = s ∧ ∃ before p after blog plog vs s1 s2,
      ps = before ++ p :: after ∧ InTurn (before.map (partRun C)) s blog vs s1 ∧
      partRun C p s1 = .done plog (.ok ⟨none, s2⟩) ∧ log = blog ++ plog) := by
  obtain ⟨d, hd⟩ := defaultVal_sequence hc.parse
  constructor
  · intro w
    unfold Parses
    rw [Parse_sequence_eq hd, allOrNothing_some]
    simp only [inOrder_some, resultsFor_eq]
  · unfold ParseFails
    rw [Parse_sequence_eq hd, allOrNothing_none, inOrder_none]
    apply and_congr_right'
    constructor
    · rintro ⟨before, m, after, l, l', vs, s1, s2, he, hf, hm, rfl⟩
      obtain ⟨qs, rest, rfl, rfl, hr⟩ := List.map_eq_append_iff.1 he
      obtain ⟨p, after', rfl, rfl, rfl⟩ := List.map_eq_cons_iff.1 hr
      exact ⟨qs, p, after', l, l', vs, s1, s2, rfl, hf, hm, rfl⟩
    · rintro ⟨before, p, after, l, l', vs, s1, s2, rfl, hf, hm, rfl⟩
      exact ⟨_, _, _, l, l', vs, s1, s2, by rw [List.map_append, List.map_cons], hf, hm, rfl⟩

/-- `lookahead` of a sequence, for every list of parts. -/
theorem C15_lookahead (C : Ctx α β) (ps : List (Parser α)) (s s' : Span) (log : List Call) :
    (Looks C (.sequence ps) s log s' ↔ ∃ vs, InTurn (ps.map (Look C)) s log vs s') ∧
    (LookFails C (.sequence ps) s log s' ↔ s' = s ∧ ∃ before p after blog plog vs s1 s2,
      ps = before ++ p :: after ∧ InTurn (before.map (Look C)) s blog vs s1 ∧
      Look C p s1 = .done plog (.ok ⟨none, s2⟩) ∧ log = blog ++ plog) := by
  constructor
  · unfold Looks
    rw [Look_sequence_eq, allOrNothing_some]
    simp only [inOrder_some, and_true]
  · unfold LookFails
    rw [Look_sequence_eq, allOrNothing_none, inOrder_none]
    apply and_congr_right'
    constructor
    · rintro ⟨before, m, after, l, l', vs, s1, s2, he, hf, hm, rfl⟩
      obtain ⟨qs, rest, rfl, rfl, hr⟩ := List.map_eq_append_iff.1 he
      obtain ⟨p, after', rfl, rfl, rfl⟩ := List.map_eq_cons_iff.1 hr
      exact ⟨qs, p, after', l, l', vs, s1, s2, rfl, hf, hm, rfl⟩
    · rintro ⟨before, p, after, l, l', vs, s1, s2, rfl, hf, hm, rfl⟩
      exact ⟨_, _, _, l, l', vs, s1, s2, by rw [List.map_append, List.map_cons], hf, hm, rfl⟩

/-- If `lookahead` of the parts without value says what their `parse` says, then the
sequence accepts (rejects, throws, loops) exactly as running `parse` of the parts one after
the other. -/
theorem C15_parts_parse [LinearOrder α] (C : Ctx α β) (ps : List (Parser α)) (hc : Compiles C (.sequence ps))
    (hf : ∀ p ∈ ps, resultFor C p = .void → LookaheadExact C p) (s : Span) :
    parseVerdict C (.sequence ps) s = andThens (ps.map (parseVerdict C)) s := by
  rw [parseVerdict_sequence hc.parse]
  congr 1
  apply List.map_congr_left
  intro p hp
  funext s'
  exact partVerdict_exact (hf p hp) s'

/-- That is so for `eps` and every `ignore(p)`, and for every parser without `filter` and
`join` whose callbacks do not throw. -/
theorem C15_lookahead_exact (C : Ctx α β) (p : Parser α) :
    LookaheadExact C (.epsilon) ∧ LookaheadExact C (.ignore p) ∧
    (Plain C p → (∀ s log e, ¬ ParseErr C p s log e) → LookaheadExact C p) := by
  refine ⟨fun s => ?_, fun s => ?_, fun hp he s => (plain_verdict hp (he s)).symm⟩
  · rw [lookVerdict, parseVerdict, Look_epsilon, Parse_epsilon]
  · rw [lookVerdict, parseVerdict, Look_ignore, Parse_ignore]

-- "(" >> ignore(" ") >> f("a") on "( ab": a pair, one callback
example : let p := Parser.sequence [Ex.all "(", .ignore (Ex.all " "), .map (Ex.all "a") (.user 0)]
    Compiles (Ex.ctx "( ab") p ∧
    Parses (Ex.ctx "( ab") p (Ex.input "( ab") [⟨.user 0, [.span ⟨.at 0 2, 1⟩]⟩]
      (.tup [.span ⟨.at 0 0, 1⟩, .user 0 0 [.span ⟨.at 0 2, 1⟩]]) ⟨.at 0 3, 1⟩ :=
  ⟨⟨Ex.ctx_ok _, rfl, rfl, rfl⟩, Ex.parses _ 5 rfl⟩

/-- In general it is false: see C44. -/
theorem C15_refuted_void_filter :
    let p := Parser.filter (.ignore (Ex.all "b")) (.user 2)
    (∃ log, ParseFails (Ex.ctx "ab") p ⟨.at 0 1, 1⟩ log ⟨.at 0 1, 1⟩) ∧
    (∃ log v, Parses (Ex.ctx "ab") (.sequence [Ex.all "a", p]) (Ex.input "ab") log v ⟨.at 0 2, 0⟩) :=
  ⟨⟨_, Ex.parses _ 4 rfl⟩, ⟨_, _, Ex.parses _ 5 rfl⟩⟩

/-! ## C16 `operator>>` -/

/-- `p >> q`, with its rewrites, accepts, rejects, throws and loops exactly where the plain
two-part sequence does, and leaves the same input.  For all parsers. -/
theorem C16_flatten [LinearOrder α] (C : Ctx α β) (p q : Parser α) (hc : Compiles C (.sequence [p, q]))
    (hr : Compiles C (sequenceOp p q)) (s : Span) (hs : s.Valid C.mem) :
    parseVerdict C (sequenceOp p q) s = parseVerdict C (.sequence [p, q]) s ∧
    lookVerdict C (sequenceOp p q) s = lookVerdict C (.sequence [p, q]) s := by
  constructor
  · rw [parseVerdict_sequence hc.parse]
    show _ = andThens [_, _] s
    rw [andThens_pair, ← partVerdict_sequenceOp hc.parse (fun _ => hr.parse) hs]
    have h := sequenceOp_case p q
    replace hr := hr.parse
    generalize heq : sequenceOp p q = r at h hr
    cases h with
    | lit h1 h2 => rw [partVerdict_parse (by nofun)]
    | both h1 h2 => rw [parseVerdict_sequence hr, partVerdict_sequence fun _ => hr]
    | left h1 => rw [parseVerdict_sequence hr, partVerdict_sequence fun _ => hr]
    | right h1 => rw [parseVerdict_sequence hr, partVerdict_sequence fun _ => hr]
    | plain => rw [parseVerdict_sequence hr, partVerdict_sequence fun _ => hr]
  · rw [lookVerdict_sequenceOp hs, lookVerdict_sequence]
    exact (andThens_pair _ _ _).symm

/-- It is running `p`, then `q` on what `p` left: for `lookahead` always, for `parse` if
parts without value are looked ahead exactly (see `C15_lookahead_exact`). -/
theorem C16_then [LinearOrder α] (C : Ctx α β) (p q : Parser α) (hc : Compiles C (.sequence [p, q]))
    (hr : Compiles C (sequenceOp p q)) (s : Span) (hs : s.Valid C.mem) :
    lookVerdict C (sequenceOp p q) s = (lookVerdict C p s).andThen (lookVerdict C q) ∧
    ((resultFor C p = .void → LookaheadExact C p) → (resultFor C q = .void → LookaheadExact C q) →
      parseVerdict C (sequenceOp p q) s = (parseVerdict C p s).andThen (parseVerdict C q)) := by
  refine ⟨lookVerdict_sequenceOp hs, fun h1 h2 => ?_⟩
  rw [(C16_flatten C p q hc hr s hs).1, C15_parts_parse C _ hc]
  · exact andThens_pair _ _ _
  · intro x hx
    simp only [List.mem_cons, List.not_mem_nil, or_false] at hx
    rcases hx with rfl | rfl
    · exact h1
    · exact h2

/-- Regrouping a chain of `>>` changes nothing.  For all parsers. -/
theorem C16_regroup [LinearOrder α] (C : Ctx α β) (p q r : Parser α)
    (hpq : Compiles C (.sequence [p, q])) (hpq' : Compiles C (sequenceOp p q))
    (hqr : Compiles C (.sequence [q, r])) (hqr' : Compiles C (sequenceOp q r))
    (hl : Compiles C (.sequence [sequenceOp p q, r])) (hl' : Compiles C (sequenceOp (sequenceOp p q) r))
    (hr : Compiles C (.sequence [p, sequenceOp q r])) (hr' : Compiles C (sequenceOp p (sequenceOp q r)))
    (s : Span) (hs : s.Valid C.mem) :
    parseVerdict C (sequenceOp (sequenceOp p q) r) s = parseVerdict C (sequenceOp p (sequenceOp q r)) s ∧
    lookVerdict C (sequenceOp (sequenceOp p q) r) s = lookVerdict C (sequenceOp p (sequenceOp q r)) s := by
  constructor
  · rw [(C16_flatten C _ _ hl hl' s hs).1, (C16_flatten C _ _ hr hr' s hs).1, parseVerdict_sequence hl.parse,
      parseVerdict_sequence hr.parse]
    show andThens [_, _] s = andThens [_, _] s
    rw [andThens_pair, andThens_pair, partVerdict_sequenceOp hpq.parse (fun _ => hpq'.parse) hs,
      Verdict.andThen_assoc]
    refine Verdict.andThen_congr fun s1 h1 => ?_
    rw [partVerdict_sequenceOp hqr.parse (fun _ => hqr'.parse) (accept_valid hs h1)]
  · rw [lookVerdict_sequenceOp hs, lookVerdict_sequenceOp hs, lookVerdict_sequenceOp hs, Verdict.andThen_assoc]
    refine Verdict.andThen_congr fun s1 h1 => ?_
    refine (lookVerdict_sequenceOp ?_).symm
    unfold lookVerdict verdict at h1
    split at h1
    · cases h1
    · cases h1
    · next hr =>
      split at h1
      · cases h1; exact ((Look_good p s).ok hr).1.valid hs
      · cases h1

-- ("a" >> f("b")) >> ("c" >> ignore("d")) is flattened; ("a" >> "b") >> "c" and
-- "a" >> ("b" >> f("c")) are different types
example :
    let p := sequenceOp (Ex.all "a") (.map (Ex.all "b") (.user 0))
    let q := sequenceOp (Ex.all "c") (.ignore (Ex.all "d"))
    sequenceOp p q = .sequence [Ex.all "a", .map (Ex.all "b") (.user 0), Ex.all "c", .ignore (Ex.all "d")] ∧
    Compiles (Ex.ctx "abcd") (.sequence [p, q]) ∧ Compiles (Ex.ctx "abcd") (sequenceOp p q) ∧
    sequenceOp (sequenceOp (Ex.all "a") (Ex.all "b")) (.map (Ex.all "c") (.user 0)) ≠
      sequenceOp (Ex.all "a") (sequenceOp (Ex.all "b") (.map (Ex.all "c") (.user 0))) := by
  refine ⟨rfl, ⟨Ex.ctx_ok _, rfl, rfl, rfl⟩, ⟨Ex.ctx_ok _, rfl, rfl, rfl⟩, ?_⟩
  simp [sequenceOp]

/-! ## C17 Literal fusion -/

/-- `"ab"_all >> "cd"_all` is `"abcd"_all`.  It accepts exactly if `"ab"` is followed by
`"cd"`, i.e. if the unfused sequence accepts; with the same remaining input; the two spans
of the unfused sequence are adjacent and its value is the span covering both.  It fails
exactly if the unfused sequence fails. -/
theorem C17_fusion (C : Ctx α β) (l r : List α) (s : Span) (hs : s.Valid C.mem) (log : List Call) (s' : Span) :
    sequenceOp (.allOf l) (.allOf r) = .allOf (l ++ r) ∧
    (∀ v, Parses C (.sequence [.allOf l, .allOf r]) s log v s' ↔
      ∃ a, v = .tup [.span ⟨s.ptr, l.length⟩, .span ⟨a, r.length⟩] ∧ s.Advanced l.length ⟨a, s.len - l.length⟩ ∧
        Parses C (.allOf (l ++ r)) s log (.span ⟨s.ptr, l.length + r.length⟩) s') ∧
    (∀ v, Parses C (.allOf (l ++ r)) s log v s' → v = .span ⟨s.ptr, l.length + r.length⟩ ∧
      s.Advanced (l.length + r.length) s') ∧
    (ParseFails C (.allOf (l ++ r)) s log s' ↔ ParseFails C (.sequence [.allOf l, .allOf r]) s log s') := by
  have hd : defaultVal C (sequenceType (resultsFor C [.allOf l, .allOf r])) =
      some (.tup [.span Span.default, .span Span.default]) := rfl
  have hseq : Parse C (.sequence [.allOf l, .allOf r]) s = M.pure
      (if startsWith C.eqv (l ++ r) (s.elems C.mem) then
        R.success (.tup [.span ⟨s.ptr, l.length⟩, .span ⟨s.ptr.shift l.length, r.length⟩])
          (s.drop (l.length + r.length))
       else R.failure s) := by
    rw [Parse_sequence_eq hd]
    have hp : ∀ arr s, partRun C (.allOf arr) s = Parse C (.allOf arr) s := fun _ _ => rfl
    simp only [List.map_cons, List.map_nil, inOrder, hp, Parse_lit hs, M.pure_bind, startsWith_append]
    by_cases h : startsWith C.eqv l (s.elems C.mem) = true
    · have hl : l.length ≤ s.len := by rw [← hs.elems_length]; exact startsWith_length h
      simp only [h, if_true, R.success, Parse_lit (hs.drop hl), M.pure_bind, Span.elems_drop, Bool.true_and]
      by_cases h' : startsWith C.eqv r ((s.elems C.mem).drop l.length) = true
      · simp only [h', if_true, M.pure_bind, Span.drop_drop]; rfl
      · simp only [Bool.not_eq_true] at h'
        simp only [h', R.failure]
        rfl
    · simp only [Bool.not_eq_true] at h
      simp only [h, R.failure, Bool.false_and]
      rfl
  have hlit := Parse_lit (C := C) (arr := l ++ r) hs
  have hlen : startsWith C.eqv (l ++ r) (s.elems C.mem) = true → l.length + r.length ≤ s.len := by
    intro h
    rw [← hs.elems_length, ← List.length_append]; exact startsWith_length h
  refine ⟨rfl, fun v => ?_, fun v => ?_, ?_⟩
  · unfold Parses
    rw [hseq, hlit]
    by_cases h : startsWith C.eqv (l ++ r) (s.elems C.mem) = true
    · have hl := hlen h
      have hadv := hs.advanced (n := l.length) (by omega)
      simp only [h, if_true, R.success, M.pure, M.done.injEq, Res.ok.injEq, R.mk.injEq, Option.some.injEq,
        List.length_append]
      constructor
      · rintro ⟨rfl, rfl, rfl⟩
        exact ⟨_, rfl, hadv, rfl, trivial, rfl⟩
      · rintro ⟨a, rfl, h1, rfl, -, rfl⟩
        have := h1.eq_drop
        simp only [Span.drop, Span.mk.injEq] at this
        rw [← this.1]
        exact ⟨rfl, rfl, rfl⟩
    · simp only [Bool.not_eq_true] at h
      simp [h, R.failure, M.pure]
  · unfold Parses
    rw [hlit]
    by_cases h : startsWith C.eqv (l ++ r) (s.elems C.mem) = true
    · have hl := hlen h
      simp only [h, if_true, R.success, M.pure, M.done.injEq, Res.ok.injEq, R.mk.injEq, Option.some.injEq,
        List.length_append]
      rintro ⟨-, rfl, rfl⟩
      exact ⟨rfl, hs.advanced hl⟩
    · simp only [Bool.not_eq_true] at h
      simp [h, R.failure, M.pure]
  · unfold ParseFails
    rw [hseq, hlit]
    by_cases h : startsWith C.eqv (l ++ r) (s.elems C.mem) = true
    · simp [h, R.success, M.pure]
    · simp only [Bool.not_eq_true] at h
      simp [h, R.failure, M.pure]

example : Parses (Ex.ctx "abcde") (.sequence [Ex.all "ab", Ex.all "cd"]) (Ex.input "abcde") []
      (.tup [.span ⟨.at 0 0, 2⟩, .span ⟨.at 0 2, 2⟩]) ⟨.at 0 4, 1⟩ ∧
    Parses (Ex.ctx "abcde") (sequenceOp (Ex.all "ab") (Ex.all "cd")) (Ex.input "abcde") []
      (.span ⟨.at 0 0, 4⟩) ⟨.at 0 4, 1⟩ := ⟨Ex.parses _ 4 rfl, Ex.parses _ 4 rfl⟩

/-! ## C44 Parts without value -/

/-- A part without value, and without `filter` and `join`, whose own `parse` fails on what
the parts before it left makes the sequence fail.
Missing: parts with `filter` or `join`; it is false of them (below). -/
theorem C44_sequence_partial [LinearOrder α] (C : Ctx α β) (before : List (Parser α)) (p : Parser α)
    (after : List (Parser α)) (hc : Compiles C (.sequence (before ++ p :: after)))
    (hp : resultFor C p = .void → Plain C p) (s s1 s2 : Span) (blog plog : List Call) (vs : List Val)
    (hb : InTurn (before.map (partRun C)) s blog vs s1) (hf : ParseFails C p s1 plog s2) :
    ∃ log, ParseFails C (.sequence (before ++ p :: after)) s log s := by
  have h : ∃ l, partRun C p s1 = .done l (.ok ⟨none, s2⟩) := by
    by_cases hv : resultFor C p = .void
    · rw [partRun, if_pos hv]
      exact ⟨_, (C05_lookahead_partial C p (hp hv) s1).2.1 _ _ hf⟩
    · rw [partRun, if_neg hv]; exact ⟨_, hf⟩
  obtain ⟨l, h⟩ := h
  exact ⟨blog ++ l, (C15_sequence_partial C _ hc s s _).2.2
    ⟨rfl, before, p, after, blog, l, vs, s1, s2, rfl, hb, h, rfl⟩⟩

/-- If the `parse` of all alternatives fails, and those without value contain no `filter`
and `join`, the choice fails (for choices with right indices, see C12). -/
theorem C44_choice_partial [LinearOrder α] (C : Ctx α β) (ps : List (Parser α))
    (hc : Compiles C (.choice ps)) (hi : Indexable (ps.map (resultFor C)))
    (hp : ∀ p ∈ ps, resultFor C p = .void → Plain C p) (s : Span)
    (hf : ∀ p ∈ ps, ∃ log, ParseFails C p s log s) : ∃ log, ParseFails C (.choice ps) s log s := by
  have h : ∃ log, AllFail (ps.map fun q => partRun C q s) log := by
    clear hc hi
    induction ps with
    | nil => exact ⟨[], .nil⟩
    | cons p ps ih =>
      obtain ⟨log, h⟩ := ih (fun q hq => hp q (by simp [hq])) fun q hq => hf q (by simp [hq])
      obtain ⟨l, hl⟩ := hf p (by simp)
      by_cases hv : resultFor C p = .void
      · exact ⟨_, .cons (by show partRun C p s = _; rw [partRun, if_pos hv]; exact (C05_lookahead_partial C p (hp p (by simp) hv) s).2.1 _ _ hl) h⟩
      · exact ⟨_, .cons (by show partRun C p s = _; rw [partRun, if_neg hv]; exact hl) h⟩
  obtain ⟨log, h⟩ := h
  exact ⟨log, (C11_ordered_choice_partial C ps hc hi s s log).2.2 ⟨rfl, h⟩⟩

example : let p := Parser.sequence [.map (Ex.all "a") (.user 0), .complete (.ignore (Ex.all "b"))]
    Compiles (Ex.ctx "abc") p ∧ Plain (Ex.ctx "abc") (.complete (.ignore (Ex.all "b"))) ∧
    ParseFails (Ex.ctx "abc") (.complete (.ignore (Ex.all "b"))) ⟨.at 0 1, 2⟩ [] ⟨.at 0 1, 2⟩ ∧
    ParseFails (Ex.ctx "abc") p (Ex.input "abc") [⟨.user 0, [.span ⟨.at 0 0, 1⟩]⟩] (Ex.input "abc") :=
  ⟨⟨Ex.ctx_ok _, rfl, rfl, rfl⟩, plain_of Ex.ctx_plain rfl, Ex.parses _ 4 rfl, Ex.parses _ 5 rfl⟩

/-- It is false of a void filter: `"a" >> filter<false>(ignore("b"))` accepts "ab" and does
not even call the filter function. -/
theorem C44_refuted_sequence :
    let p := Parser.filter (.ignore (Ex.all "b")) (.user 2)
    Compiles (Ex.ctx "ab") (sequenceOp (Ex.all "a") p) ∧
    ParseFails (Ex.ctx "ab") p ⟨.at 0 1, 1⟩ [⟨.user 2, []⟩] ⟨.at 0 1, 1⟩ ∧
    Parses (Ex.ctx "ab") (sequenceOp (Ex.all "a") p) (Ex.input "ab") [] (.span ⟨.at 0 0, 1⟩) ⟨.at 0 2, 0⟩ :=
  ⟨⟨Ex.ctx_ok _, rfl, rfl, rfl⟩, Ex.parses _ 4 rfl, Ex.parses _ 5 rfl⟩

/-- … and in a choice: `filter<false>(ignore("a")) | "b"` accepts "a". -/
theorem C44_refuted_choice :
    let p := Parser.filter (.ignore (Ex.all "a")) (.user 2)
    Compiles (Ex.ctx "a") (choiceOp p (Ex.all "b")) ∧
    (∀ q ∈ [p, Ex.all "b"], ∃ log, ParseFails (Ex.ctx "a") q (Ex.input "a") log (Ex.input "a")) ∧
    Parses (Ex.ctx "a") (choiceOp p (Ex.all "b")) (Ex.input "a") [] (.span Span.default) ⟨.at 0 1, 0⟩ := by
  refine ⟨⟨Ex.ctx_ok _, rfl, rfl, rfl⟩, ?_, Ex.parses _ 5 rfl⟩
  intro q hq
  simp only [List.mem_cons, List.not_mem_nil, or_false] at hq
  rcases hq with rfl | rfl
  · exact ⟨_, Ex.parses _ 4 rfl⟩
  · exact ⟨_, Ex.parses _ 4 rfl⟩

end Tok3n
