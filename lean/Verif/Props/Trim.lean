import Verif.Proof.Lexical
/-
C30: parsers that drop something only at their start or end.
-/

namespace Tok3n

variable {α β : Type}

/-- the parts of a sequence without those at the start and at the end that have no value -/
def trim (C : Ctx α β) (ps : List (Parser α)) : List (Parser α) :=
  ((ps.dropWhile fun q => decide (resultFor C q = .void)).reverse.dropWhile fun q => decide (resultFor C q = .void)).reverse

theorem trim_split (C : Ctx α β) (ps : List (Parser α)) : ∃ pre post, ps = pre ++ (trim C ps ++ post) ∧
    (∀ q ∈ pre, resultFor C q = .void) ∧ ∀ q ∈ post, resultFor C q = .void := by
  refine ⟨ps.takeWhile fun q => decide (resultFor C q = .void),
    ((ps.dropWhile fun q => decide (resultFor C q = .void)).reverse.takeWhile fun q => decide (resultFor C q = .void)).reverse,
    ?_, ?_, ?_⟩
  · rw [trim, ← List.reverse_append, List.takeWhile_append_dropWhile, List.reverse_reverse,
      List.takeWhile_append_dropWhile]
  · intro q hq
    have := List.all_takeWhile (l := ps) (p := fun q => decide (resultFor C q = .void))
    exact of_decide_eq_true (List.all_eq_true.1 this q hq)
  · intro q hq
    have := List.all_takeWhile (p := fun q => decide (resultFor C q = .void))
      (l := (ps.dropWhile fun q => decide (resultFor C q = .void)).reverse)
    exact of_decide_eq_true (List.all_eq_true.1 this q (List.mem_reverse.1 hq))

theorem seqOk_void_left {C : Ctx α β} {pre ps : List (Parser α)} (h : ∀ q ∈ pre, resultFor C q = .void) {s s' : Span}
    {vs : List Val} (hs : SeqOk C (pre ++ ps) s vs s') : ∃ s1, s1.SuffixOf s ∧ SeqOk C ps s1 vs s' := by
  induction pre generalizing s with
  | nil => exact ⟨s, .refl _, hs⟩
  | cons p pre ih =>
    rw [List.cons_append, SeqOk.eq_def] at hs
    simp only [if_pos (h p (by simp))] at hs
    obtain ⟨s1, h1, h2⟩ := hs
    obtain ⟨s2, h3, h4⟩ := ih (fun q hq => h q (by simp [hq])) h2
    exact ⟨s2, h3.trans h1.suffix, h4⟩

theorem seqOk_void_right {C : Ctx α β} {ps post : List (Parser α)} (h : ∀ q ∈ post, resultFor C q = .void) {s s' : Span}
    {vs : List Val} (hs : SeqOk C (ps ++ post) s vs s') : ∃ s1, SeqOk C ps s vs s1 := by
  induction ps generalizing s vs with
  | nil =>
    refine ⟨s, ?_, rfl⟩
    rw [List.nil_append] at hs
    induction post generalizing s with
    | nil => exact hs.1
    | cons p post ih =>
      rw [SeqOk.eq_def] at hs
      simp only [if_pos (h p (by simp))] at hs
      obtain ⟨s1, -, h2⟩ := hs
      exact ih (fun q hq => h q (by simp [hq])) h2
  | cons p ps ih =>
    rw [List.cons_append, SeqOk.eq_def] at hs
    simp only [SeqOk]
    simp only at hs
    split at hs
    · next hv =>
      simp only [if_pos hv]
      obtain ⟨s1, h1, h2⟩ := hs
      obtain ⟨s2, h3⟩ := ih h2
      exact ⟨s2, s1, h1, h3⟩
    · next hv =>
      simp only [if_neg hv]
      obtain ⟨v, s1, us, h1, h2, rfl⟩ := hs
      obtain ⟨s2, h3⟩ := ih h2
      exact ⟨s2, v, s1, us, h1, h3, rfl⟩

/-- If the parts of a sequence at its start and at its end have no value, and those between drop nothing, then joining
the sequence succeeds whenever the sequence does. -/
theorem C30_join_trimmed [LinearOrder α] (C : Ctx α β) (ps : List (Parser α)) (hc : Compiles C (.join (.sequence ps)))
    (hct : Compiles C (.join (.sequence (trim C ps)))) (ht : C.Typed) (hl : SpanLocal C (.sequence ps))
    (hk : KeepsAll C (.sequence (trim C ps))) (s : Span) (hs : s.Valid C.mem) (log : List Call) (v : Val) (s' : Span)
    (h : Parses C (.sequence ps) s log v s') : ∃ w, Parses C (.join (.sequence ps)) s log w s' := by
  obtain ⟨pre, post, e, h1, h2⟩ := trim_split C ps
  have hp : parseOK C (.sequence ps) = true := by
    have := hc.parse
    simp only [parseOK, Bool.and_eq_true] at this ⊢
    exact this.1.2
  have hpt : parseOK C (.sequence (trim C ps)) = true := by
    have := hct.parse
    simp only [parseOK, Bool.and_eq_true] at this ⊢
    exact this.1.2
  obtain ⟨vs, h3, rfl⟩ := (ok_sequence hp).1 ⟨log, h⟩
  rw [e] at h3
  obtain ⟨s1, h4, h5⟩ := seqOk_void_left h1 h3
  obtain ⟨s2, h6⟩ := seqOk_void_right h2 h5
  obtain ⟨l, h7⟩ := (ok_sequence (w := sequenceValue vs) hpt).2 ⟨vs, h6, rfl⟩
  have hs1 := h4.valid hs
  obtain ⟨h8, -⟩ := C30_join C _ hct ht hl.1 hk s1 hs1 l s2
  have hcp : Compiles C (.sequence (trim C ps)) := by
    have := hct.parse
    simp only [parseOK, Bool.and_eq_true] at this
    exact ⟨hct.ctx, by simpa [Parser.wf] using hct.wf, this.1.1, hpt⟩
  have hn := (C30_spans C _ hcp ht hl.1 hk s1 hs1 l _ s2 h7).advanced
  obtain ⟨w, h9, h10, -⟩ := (ok_join hct ht (hk.spanLocal hl.1) hs1).1 ⟨l, (h8 _).2 ⟨⟨_, h7⟩, _, rfl, hn⟩⟩
  cases (h9.det ⟨l, h7⟩).1
  exact ⟨_, ((C28_join C _ hc ht hl s hs s' log).1 _).2 ⟨_, h, h10, rfl⟩⟩

/-- checks a parser without custom parsers for `KeepsAll` -/
def closedB (C : Ctx α β) (p : Parser α) : Bool :=
  match p with
  | .custom _ => false
  | _ => keepsB C p

theorem closedB_sound {C : Ctx α β} {p : Parser α} (h : everyNode (closedB C) p = true) : KeepsAll C p := fun q hq => by
  have := everyNode_ok (reach_closed (ok := closedB C) (fun k => rfl) h hq)
  refine keepsB_sound ?_
  cases q <;> first | exact this | cases this

/-- checks a part of a parser for being neither a `filter`, nor a custom parser that succeeds where its body fails, nor a
`join` over a parser that drops something, other than at its start or end -/
def tellsB [LinearOrder α] (C : Ctx α β) : Parser α → Bool
  | .filter _ _ => false
  | .custom k => decide (resultFor C (C.custom k).body = (C.custom k).ty) ||
      (fromOptional C (resultFor C (C.custom k).body) (C.custom k).ty).isNone
  | .join (.sequence ps) =>
      (Parser.sequence ps).wf && tyOK C (.join (.sequence ps)) && parseOK C (.join (.sequence ps)) &&
      (Parser.sequence (trim C ps)).wf && tyOK C (.join (.sequence (trim C ps))) &&
      parseOK C (.join (.sequence (trim C ps))) && everyNode noMapB (.sequence ps) &&
      everyNode (closedB C) (.sequence (trim C ps))
  | .join r => r.wf && tyOK C (.join r) && parseOK C (.join r) && everyNode (closedB C) r
  | _ => true

/-- Running `tellsB` on the expression, and on the bodies of the custom parsers, shows that `lookahead` tells what
`parse` does, for the parser and for every part of it. -/
theorem C30_lookahead_checked [LinearOrder α] (C : Ctx α β) (p : Parser α) (hok : C.OK) (ht : C.Typed) (hl : C.Local)
    (hc : ∀ k, everyNode (tellsB C) (C.custom k).body = true) (h : everyNode (tellsB C) p = true) :
    NeverOverrules C p ∧ ∀ q, ParseReach C p q → LookaheadTells C q := by
  suffices hn : NeverOverrules C p from ⟨hn, (C05_never_rejects_partial C p).2 hn⟩
  refine ⟨?_, fun k hq s hs log s' h1 log' v s'' h2 => ?_⟩
  · rintro q hq r (rfl | ⟨f, rfl⟩) s hs log v s' h1 log' s'' h2
    · have hb := reach_ok hc h hq
      by_cases hr : ∃ ps, r = .sequence ps
      · obtain ⟨ps, rfl⟩ := hr
        simp only [tellsB, Bool.and_eq_true] at hb
        obtain ⟨⟨⟨⟨⟨⟨⟨b1, b2⟩, b3⟩, b4⟩, b5⟩, b6⟩, b7⟩, b8⟩ := hb
        obtain ⟨w, h3⟩ := C30_join_trimmed C ps ⟨hok, by rw [Parser.wf]; exact b1, b2, b3⟩
          ⟨hok, by rw [Parser.wf]; exact b4, b5, b6⟩ ht (spanLocal_noMap hl b7) (closedB_sound b8) s hs log v s' h1
        unfold Parses at h3
        unfold ParseFails at h2
        rw [h3] at h2
        simp at h2
      · have hb : r.wf && tyOK C (.join r) && parseOK C (.join r) && everyNode (closedB C) r := by
          cases r <;> first | exact hb | exact absurd ⟨_, rfl⟩ hr
        simp only [Bool.and_eq_true] at hb
        obtain ⟨⟨⟨b1, b2⟩, b3⟩, b4⟩ := hb
        obtain ⟨-, h3⟩ := C30_join C r ⟨hok, by rw [Parser.wf]; exact b1, b2, b3⟩ ht hl (closedB_sound b4) s hs log' s''
        have h3 := h3.1 h2
        unfold Parses at h1
        unfold ParseFails at h3
        rw [h1] at h3
        simp at h3
    · exact Bool.noConfusion (reach_ok hc h hq)
  · obtain ⟨h3, h4⟩ := pretends_of h1 h2
    have hb := reach_ok hc h hq
    simp only [tellsB, Bool.or_eq_true, decide_eq_true_eq, h3, false_or] at hb
    rw [Option.isNone_iff_eq_none] at hb
    rw [hb] at h4
    cases h4

/-! The hypotheses are met -/

/-- `ignore("(") >> +"ab"_any >> "c" >> ignore(")")` -/
def Ex.bracketed : Parser Nat := .sequence [.ignore (Ex.all "("), .oneOrMore (Ex.any "ab"), Ex.all "c", .ignore (Ex.all ")")]

example : ∃ w, Parses (Ex.ctx "(abac)!") (.join Ex.bracketed)
    (Ex.input "(abac)!") [] w ⟨.at 0 6, 1⟩ :=
  C30_join_trimmed _ _ ⟨Ex.ctx_ok _, rfl, rfl, rfl⟩ ⟨Ex.ctx_ok _, rfl, rfl, rfl⟩ (Ex.ctx_typed _)
    (spanLocal_noMap (Ex.ctx_local _) rfl) (closedB_sound rfl) _ (Ex.input_valid _) _ _ _ (Ex.parses _ 20 rfl)

example : NeverOverrules (Ex.ctx "(())(bac)") (.sequence [.maybe (.custom 0), .map (.join Ex.bracketed) (.user 0)]) := by
  refine (C30_lookahead_checked _ _ (Ex.ctx_ok _) (Ex.ctx_typed _) (Ex.ctx_local _) (fun k => ?_) rfl).1
  rcases k with _ | _ | k <;> rfl

/-- What the hypothesis excludes: something dropped in the middle (`C30_ignore_drops`). -/
example : tellsB (Ex.ctx "abc") (.join (.sequence [Ex.all "a", .ignore (Ex.all "b"), Ex.all "c"])) = false := rfl

end Tok3n
