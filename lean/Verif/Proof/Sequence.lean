import Verif.Proof.Choice
/-
The cases of `operator>>` and their verdicts.
-/

namespace Tok3n

variable {α β : Type} {C : Ctx α β}

/-- the cases of `sequenceOp` -/
inductive SequenceOpCase (p q : Parser α) : Parser α → Prop where
  | lit {l r} : p = .allOf l → q = .allOf r → SequenceOpCase p q (.allOf (l ++ r))
  | both {ps qs} : p = .sequence ps → q = .sequence qs → SequenceOpCase p q (.sequence (ps ++ qs))
  | left {ps} : p = .sequence ps → SequenceOpCase p q (.sequence (ps ++ [q]))
  | right {qs} : q = .sequence qs → SequenceOpCase p q (.sequence (p :: qs))
  | plain : SequenceOpCase p q (.sequence [p, q])

theorem sequenceOp_case (p q : Parser α) : SequenceOpCase p q (sequenceOp p q) := by
  unfold sequenceOp
  split
  · exact .lit rfl rfl
  · exact .both rfl rfl
  · exact .left rfl
  · exact .right rfl
  · exact .plain

theorem sequenceOp_wf [LinearOrder α] {p q : Parser α} (hp : p.wf = true) (hq : q.wf = true) :
    (sequenceOp p q).wf = true := by
  have h := sequenceOp_case p q
  generalize hr : sequenceOp p q = r at h
  cases h with
  | lit h1 h2 => rfl
  | both h1 h2 => subst h1 h2; simp_all [Parser.wf, wfs_append]
  | left h1 => subst h1; simp_all [Parser.wf, wfs_append, Parser.wfs]
  | right h1 => subst h1; simp_all [Parser.wf, Parser.wfs]
  | plain => simp_all [Parser.wf, Parser.wfs]

theorem startsWith_append (eqv : α → β → Bool) (l r : List α) (xs : List β) :
    startsWith eqv (l ++ r) xs = (startsWith eqv l xs && startsWith eqv r (xs.drop l.length)) := by
  induction l generalizing xs with
  | nil => simp [startsWith]
  | cons a l ih =>
    cases xs with
    | nil => simp [startsWith]
    | cons x xs => simp [startsWith, ih, Bool.and_assoc]

/-- literals, by `firstOf`-free case distinction -/
theorem Parse_lit {arr : List α} {s : Span} (hs : s.Valid C.mem) : Parse C (.allOf arr) s = M.pure
    (if startsWith C.eqv arr (s.elems C.mem) then R.success (.span ⟨s.ptr, arr.length⟩) (s.drop arr.length)
     else R.failure s) := by rw [Parse_allOf, parseBasic_eq hs]; rfl

theorem Look_lit {arr : List α} {s : Span} (hs : s.Valid C.mem) : Look C (.allOf arr) s = M.pure
    (if startsWith C.eqv arr (s.elems C.mem) then R.successVoid (s.drop arr.length)
     else R.failure s) := by rw [Look_allOf, lookBasic_eq hs]; rfl

theorem lit_verdict {arr : List α} {s : Span} (hs : s.Valid C.mem) : parseVerdict C (.allOf arr) s =
    if startsWith C.eqv arr (s.elems C.mem) then .accept (s.drop arr.length) else .reject := by
  rw [parseVerdict, Parse_lit hs]
  split <;> rfl

theorem lit_lookVerdict {arr : List α} {s : Span} (hs : s.Valid C.mem) : lookVerdict C (.allOf arr) s =
    if startsWith C.eqv arr (s.elems C.mem) then .accept (s.drop arr.length) else .reject := by
  rw [lookVerdict, Look_lit hs]
  split <;> rfl

theorem lit_append {l r : List α} {s : Span} (hs : s.Valid C.mem) :
    parseVerdict C (.allOf (l ++ r)) s = (parseVerdict C (.allOf l) s).andThen (parseVerdict C (.allOf r)) := by
  rw [lit_verdict hs, lit_verdict hs, startsWith_append]
  by_cases h : startsWith C.eqv l (s.elems C.mem) = true
  · have hl : l.length ≤ s.len := by rw [← hs.elems_length]; exact startsWith_length h
    simp only [h, Bool.true_and, if_true, Verdict.andThen]
    rw [lit_verdict (hs.drop hl), Span.elems_drop, Span.drop_drop, List.length_append]
  · simp only [Bool.not_eq_true] at h
    simp [h, Verdict.andThen]

theorem lit_look_append {l r : List α} {s : Span} (hs : s.Valid C.mem) :
    lookVerdict C (.allOf (l ++ r)) s = (lookVerdict C (.allOf l) s).andThen (lookVerdict C (.allOf r)) := by
  rw [lit_lookVerdict hs, lit_lookVerdict hs, startsWith_append]
  by_cases h : startsWith C.eqv l (s.elems C.mem) = true
  · have hl : l.length ≤ s.len := by rw [← hs.elems_length]; exact startsWith_length h
    simp only [h, Bool.true_and, if_true, Verdict.andThen]
    rw [lit_lookVerdict (hs.drop hl), Span.elems_drop, Span.drop_drop, List.length_append]
  · simp only [Bool.not_eq_true] at h
    simp [h, Verdict.andThen]

theorem andThens_pair (f g : Span → Verdict) (s : Span) : andThens [f, g] s = (f s).andThen g := by
  show (f s).andThen (fun s => (g s).andThen .accept) = _
  exact Verdict.andThen_congr fun s' _ => Verdict.andThen_accept _

theorem lookVerdict_sequenceOp {p q : Parser α} {s : Span} (hs : s.Valid C.mem) :
    lookVerdict C (sequenceOp p q) s = (lookVerdict C p s).andThen (lookVerdict C q) := by
  have h := sequenceOp_case p q
  generalize hr : sequenceOp p q = r at h
  cases h with
  | lit h1 h2 => subst h1 h2; exact lit_look_append hs
  | both h1 h2 =>
    subst h1 h2
    rw [lookVerdict_sequence, List.map_append, andThens_append, lookVerdict_sequence]
    exact Verdict.andThen_congr fun s' _ => (lookVerdict_sequence _ _).symm
  | left h1 =>
    subst h1
    rw [lookVerdict_sequence, List.map_append, andThens_append, lookVerdict_sequence]
    exact Verdict.andThen_congr fun s' _ => Verdict.andThen_accept _
  | right h1 =>
    subst h1
    rw [lookVerdict_sequence, List.map_cons, andThens_cons]
    exact Verdict.andThen_congr fun s' _ => (lookVerdict_sequence _ _).symm
  | plain => rw [lookVerdict_sequence]; exact andThens_pair _ _ _

/-- the non-void parts of a sequence have a `parse` -/
theorem parseOK_part {ps : List (Parser α)} (h : parseOK C (.sequence ps) = true) {p : Parser α} (hp : p ∈ ps)
    (hv : resultFor C p ≠ .void) : parseOK C p = true := by
  simp only [parseOK, Bool.and_eq_true] at h
  have h2 := parsesOK_mem h.2
  rw [sequenceTrait_seq] at h2
  have hz : ∀ n, ∃ i, (p, some i) ∈ ps.zip (positions n (resultsFor C ps)) := by
    clear h h2
    induction ps with
    | nil => simp at hp
    | cons q ps ih =>
      intro n
      rcases List.mem_cons.1 hp with rfl | hp
      · exact ⟨n, by simp [resultsFor, positions, hv]⟩
      · simp only [resultsFor, positions]
        split
        · obtain ⟨i, hi⟩ := ih hp n; exact ⟨i, List.mem_cons_of_mem _ hi⟩
        · obtain ⟨i, hi⟩ := ih hp (n + 1); exact ⟨i, List.mem_cons_of_mem _ hi⟩
  obtain ⟨i, hi⟩ := hz 0
  exact h2 _ hi (by simp)

theorem partVerdict_sequenceOp {p q : Parser α} (hok : parseOK C (.sequence [p, q]) = true)
    (hr : resultFor C (sequenceOp p q) ≠ .void → parseOK C (sequenceOp p q) = true)
    {s : Span} (hs : s.Valid C.mem) :
    partVerdict C (sequenceOp p q) s = (partVerdict C p s).andThen (partVerdict C q) := by
  have hpp : resultFor C p ≠ .void → parseOK C p = true := parseOK_part hok (by simp)
  have hqp : resultFor C q ≠ .void → parseOK C q = true := parseOK_part hok (by simp)
  have h := sequenceOp_case p q
  generalize heq : sequenceOp p q = r at h hr
  cases h with
  | lit h1 h2 =>
    subst h1 h2
    rw [partVerdict_parse (by nofun), partVerdict_parse (by nofun), lit_append hs]
    exact Verdict.andThen_congr fun s' _ => (partVerdict_parse (by nofun) _).symm
  | both h1 h2 =>
    subst h1 h2
    rw [partVerdict_sequence hr, List.map_append, andThens_append, partVerdict_sequence hpp]
    exact Verdict.andThen_congr fun s' _ => (partVerdict_sequence hqp _).symm
  | left h1 =>
    subst h1
    rw [partVerdict_sequence hr, List.map_append, andThens_append, partVerdict_sequence hpp]
    exact Verdict.andThen_congr fun s' _ => Verdict.andThen_accept _
  | right h1 =>
    subst h1
    rw [partVerdict_sequence hr, List.map_cons, andThens_cons]
    exact Verdict.andThen_congr fun s' _ => (partVerdict_sequence hqp _).symm
  | plain => rw [partVerdict_sequence hr]; exact andThens_pair _ _ _

theorem partVerdict_exact {p : Parser α} (h : resultFor C p = .void → LookaheadExact C p) (s : Span) :
    partVerdict C p s = parseVerdict C p s := by
  by_cases hv : resultFor C p = .void
  · rw [partVerdict_look hv, h hv]
  · rw [partVerdict_parse hv]

/-- suffix: the remaining input of an accepting run is readable -/
theorem accept_valid {p : Parser α} {s s' : Span} (hs : s.Valid C.mem) (h : partVerdict C p s = .accept s') :
    s'.Valid C.mem := by
  unfold partVerdict verdict partRun at h
  split at h
  · cases h
  · cases h
  · next r hr =>
    split at h
    · cases h
      split at hr
      · exact ((Look_good p s).ok hr).1.valid hs
      · exact ((Parse_good p s).ok hr).1.valid hs
    · cases h

theorem look_accept_valid {p : Parser α} {s s' : Span} (hs : s.Valid C.mem) (h : lookVerdict C p s = .accept s') :
    s'.Valid C.mem := by
  unfold lookVerdict verdict at h
  split at h
  · cases h
  · cases h
  · next hr =>
    split at h
    · cases h; exact ((Look_good p s).ok hr).1.valid hs
    · cases h

end Tok3n
