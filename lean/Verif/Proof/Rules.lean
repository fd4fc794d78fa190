import Verif.Props.Keeps
import Verif.Props.Repetition
import Verif.Props.Exceptions
import Verif.Props.Safety
import Verif.Props.Peg
/-
Rules for concrete grammars: what `parse` returns, callbacks not recorded.
-/

namespace Tok3n

variable {α β : Type} {C : Ctx α β}

/-- `p.parse(s)` succeeds with `v`, leaving `s'` -/
def Ok (C : Ctx α β) (p : Parser α) (s : Span) (v : Val) (s' : Span) : Prop := ∃ log, Parses C p s log v s'
/-- `p.parse(s)` fails -/
def No (C : Ctx α β) (p : Parser α) (s : Span) : Prop := ∃ log, ParseFails C p s log s
/-- `p.lookahead(s)` succeeds, leaving `s'` -/
def See (C : Ctx α β) (p : Parser α) (s s' : Span) : Prop := Looks C p s [] s'
/-- `p.lookahead(s)` fails -/
def Miss (C : Ctx α β) (p : Parser α) (s : Span) : Prop := LookFails C p s [] s

theorem Ok.det {p : Parser α} {s s1 s2 : Span} {v w : Val} (h : Ok C p s v s1) (h' : Ok C p s w s2) :
    v = w ∧ s1 = s2 := by
  obtain ⟨l, h⟩ := h; obtain ⟨l', h'⟩ := h'
  unfold Parses at h h'
  rw [h] at h'; simp at h'; exact ⟨h'.2.1, h'.2.2⟩

theorem Ok.not_no {p : Parser α} {s s1 : Span} {v : Val} (h : Ok C p s v s1) (h' : No C p s) : False := by
  obtain ⟨l, h⟩ := h; obtain ⟨l', h'⟩ := h'
  unfold Parses at h; unfold ParseFails at h'
  rw [h] at h'; simp at h'

theorem Ok.suffix {p : Parser α} {s s1 : Span} {v : Val} (h : Ok C p s v s1) : s1.SuffixOf s :=
  (C02_success_consumes_prefix C p s s1 h.choose v).1 h.choose_spec

theorem See.suffix {p : Parser α} {s s1 : Span} (h : See C p s s1) : s1.SuffixOf s :=
  (C02_success_consumes_prefix C p s s1 [] .unit).2 h

/-! ### Sequences -/

/-- the parts succeed one after the other; `vs` are the values of those that have one -/
def SeqOk (C : Ctx α β) : List (Parser α) → Span → List Val → Span → Prop
  | [], s, vs, s' => vs = [] ∧ s' = s
  | p :: ps, s, vs, s' =>
    if resultFor C p = .void then ∃ s1, See C p s s1 ∧ SeqOk C ps s1 vs s'
    else ∃ v s1 ws, Ok C p s v s1 ∧ SeqOk C ps s1 ws s' ∧ vs = v :: ws

/-- some part fails, those before it having succeeded -/
def SeqNo (C : Ctx α β) : List (Parser α) → Span → Prop
  | [], _ => False
  | p :: ps, s =>
    if resultFor C p = .void then Miss C p s ∨ ∃ s1, See C p s s1 ∧ SeqNo C ps s1
    else No C p s ∨ ∃ v s1, Ok C p s v s1 ∧ SeqNo C ps s1

theorem seqOk_iff {ps : List (Parser α)} {s s' : Span} {vs : List Val} :
    SeqOk C ps s vs s' ↔ ∃ log us, InTurn (ps.map (partRun C)) s log us s' ∧ vs = withValue (resultsFor C ps) us := by
  induction ps generalizing s vs with
  | nil =>
    simp only [SeqOk, List.map_nil]
    constructor
    · rintro ⟨rfl, rfl⟩; exact ⟨_, _, .nil, rfl⟩
    · rintro ⟨log, us, h, rfl⟩; cases h; exact ⟨rfl, rfl⟩
  | cons p ps ih =>
    simp only [SeqOk, List.map_cons]
    split
    · rename_i hv
      constructor
      · rintro ⟨s1, h1, h2⟩
        obtain ⟨log, us, h3, rfl⟩ := ih.1 h2
        refine ⟨_, _, .cons (s' := s1) (v := .unit) (l := []) ?_ h3, ?_⟩
        · rw [partRun, if_pos hv]; exact h1
        · simp [resultsFor, withValue, hv]
      · rintro ⟨log, us, h, rfl⟩
        cases h with
        | cons h1 h2 =>
          rw [partRun, if_pos hv] at h1
          obtain ⟨rfl, h | h⟩ := Look_unit h1
          · simp at h
          · cases h
            refine ⟨_, h1, ih.2 ⟨_, _, h2, ?_⟩⟩
            simp [resultsFor, withValue, hv]
    · rename_i hv
      constructor
      · rintro ⟨v, s1, ws, ⟨l, h1⟩, h2, rfl⟩
        obtain ⟨log, us, h3, rfl⟩ := ih.1 h2
        refine ⟨_, _, .cons (s' := s1) (v := v) (l := l) ?_ h3, ?_⟩
        · rw [partRun, if_neg hv]; exact h1
        · simp [resultsFor, withValue, hv]
      · rintro ⟨log, us, h, rfl⟩
        cases h with
        | cons h1 h2 =>
          rw [partRun, if_neg hv] at h1
          refine ⟨_, _, _, ⟨_, h1⟩, ih.2 ⟨_, _, h2, rfl⟩, ?_⟩
          simp [resultsFor, withValue, hv]

theorem seqNo_iff {ps : List (Parser α)} {s : Span} :
    SeqNo C ps s ↔ ∃ log, inOrder (ps.map (partRun C)) s = .done log (.ok none) := by
  induction ps generalizing s with
  | nil => simp [SeqNo, inOrder, M.pure]
  | cons p ps ih =>
    have key : (∃ log, inOrder ((p :: ps).map (partRun C)) s = .done log (.ok none)) ↔
        (∃ l s1, partRun C p s = .done l (.ok ⟨none, s1⟩)) ∨
          ∃ l v s1, partRun C p s = .done l (.ok ⟨some v, s1⟩) ∧ SeqNo C ps s1 := by
      simp only [List.map_cons, inOrder]
      constructor
      · rintro ⟨log, h⟩
        obtain ⟨l1, l2, ⟨rv, rr⟩, h1, h2, rfl⟩ := M.bind_eq_ok.1 h
        cases rv with
        | none => exact .inl ⟨_, _, h1⟩
        | some v =>
          refine .inr ⟨_, _, _, h1, ih.2 ?_⟩
          simp only at h2
          obtain ⟨l3, l4, x, h3, h4, rfl⟩ := M.bind_eq_ok.1 h2
          simp only [M.pure_eq_ok] at h4
          cases x with
          | none => exact ⟨_, h3⟩
          | some x => simp at h4
      · rintro (⟨l, s1, h⟩ | ⟨l, v, s1, h, hn⟩)
        · exact ⟨l, M.bind_eq_ok.2 ⟨l, [], _, h, rfl, by simp⟩⟩
        · obtain ⟨log, hn⟩ := ih.1 hn
          refine ⟨l ++ log, M.bind_eq_ok.2 ⟨l, log, _, h, ?_, rfl⟩⟩
          simp only
          rw [hn]; simp [M.bind, M.pure, M.after]
    rw [key]
    simp only [SeqNo]
    split
    · rename_i hv
      simp only [partRun, if_pos hv]
      constructor
      · rintro (h | ⟨s1, h, hn⟩)
        · exact .inl ⟨_, _, h⟩
        · exact .inr ⟨_, _, _, h, hn⟩
      · rintro (⟨l, s1, h⟩ | ⟨l, v, s1, h, hn⟩)
        · obtain ⟨rfl, h' | h'⟩ := Look_unit h
          · obtain ⟨-, rfl⟩ := h'; exact .inl h
          · simp at h'
        · obtain ⟨rfl, h' | h'⟩ := Look_unit h
          · simp at h'
          · cases h'; exact .inr ⟨_, h, hn⟩
    · rename_i hv
      simp only [partRun, if_neg hv]
      constructor
      · rintro (⟨l, h⟩ | ⟨v, s1, ⟨l, h⟩, hn⟩)
        · exact .inl ⟨_, _, h⟩
        · exact .inr ⟨_, _, _, h, hn⟩
      · rintro (⟨l, s1, h⟩ | ⟨l, v, s1, h, hn⟩)
        · have := Parse_failsBack p _ _ _ h
          subst this
          exact .inl ⟨_, h⟩
        · exact .inr ⟨_, _, ⟨_, h⟩, hn⟩

theorem ok_sequence {ps : List (Parser α)} (hp : parseOK C (.sequence ps) = true) {s s' : Span} {w : Val} :
    Ok C (.sequence ps) s w s' ↔ ∃ vs, SeqOk C ps s vs s' ∧ w = sequenceValue vs := by
  obtain ⟨d, hd⟩ := defaultVal_sequence hp
  unfold Ok Parses
  rw [Parse_sequence_eq hd]
  simp only [allOrNothing_some, inOrder_some, seqOk_iff]
  constructor
  · rintro ⟨log, vs, h, rfl⟩; exact ⟨_, ⟨_, _, h, rfl⟩, rfl⟩
  · rintro ⟨_, ⟨log, us, h, rfl⟩, rfl⟩; exact ⟨_, _, h, rfl⟩

theorem no_sequence {ps : List (Parser α)} (hp : parseOK C (.sequence ps) = true) {s : Span} :
    No C (.sequence ps) s ↔ SeqNo C ps s := by
  obtain ⟨d, hd⟩ := defaultVal_sequence hp
  unfold No ParseFails
  rw [Parse_sequence_eq hd, seqNo_iff]
  simp only [allOrNothing_none, true_and]

/-! ### Choices -/

/-- the first alternative that succeeds gives the value, through `f` -/
def FirstOk (C : Ctx α β) (f : Ty → Val → Val) : List (Parser α) → Span → Val → Span → Prop
  | [], _, _, _ => False
  | p :: ps, s, w, s' =>
    if resultFor C p = .void then (See C p s s' ∧ w = f .void .unit) ∨ (Miss C p s ∧ FirstOk C f ps s w s')
    else (∃ v, Ok C p s v s' ∧ w = f (resultFor C p) v) ∨ (No C p s ∧ FirstOk C f ps s w s')

/-- no alternative succeeds -/
def FirstNo (C : Ctx α β) : List (Parser α) → Span → Prop
  | [], _ => True
  | p :: ps, s => (if resultFor C p = .void then Miss C p s else No C p s) ∧ FirstNo C ps s

theorem firstOk_iff {f : Ty → Val → Val} {ps : List (Parser α)} {s0 s s' : Span} {w : Val} :
    FirstOk C f ps s w s' ↔ ∃ log, firstOf s0 (ps.map fun p => mapVal (f (resultFor C p)) (partRun C p s)) =
      .done log (.ok ⟨some w, s'⟩) := by
  induction ps with
  | nil => simp [FirstOk, firstOf, M.pure]
  | cons p ps ih =>
    have key : (∃ log, firstOf s0 ((p :: ps).map fun p => mapVal (f (resultFor C p)) (partRun C p s)) =
          .done log (.ok ⟨some w, s'⟩)) ↔
        (∃ l v, partRun C p s = .done l (.ok ⟨some v, s'⟩) ∧ w = f (resultFor C p) v) ∨
          (∃ l s1, partRun C p s = .done l (.ok ⟨none, s1⟩)) ∧ FirstOk C f ps s w s' := by
      simp only [List.map_cons, firstOf]
      constructor
      · rintro ⟨log, h⟩
        obtain ⟨l1, l2, ⟨rv, rr⟩, h1, h2, rfl⟩ := M.bind_eq_ok.1 h
        cases rv with
        | none =>
          simp only [Option.isSome_none, Bool.false_eq_true, ↓reduceIte] at h2
          exact .inr ⟨⟨_, _, mapVal_none.1 h1⟩, ih.2 ⟨_, h2⟩⟩
        | some v =>
          simp only [Option.isSome_some, ↓reduceIte, M.pure_eq_ok, R.mk.injEq, Option.some.injEq] at h2
          obtain ⟨rfl, rfl, rfl⟩ := h2
          obtain ⟨u, h3, h4⟩ := mapVal_some.1 h1
          exact .inl ⟨_, _, h3, h4⟩
      · rintro (⟨l, v, h, rfl⟩ | ⟨⟨l, s1, h⟩, hn⟩)
        · exact ⟨l, M.bind_eq_ok.2 ⟨l, [], _, mapVal_some.2 ⟨_, h, rfl⟩, rfl, by simp⟩⟩
        · obtain ⟨log, hn⟩ := ih.1 hn
          exact ⟨l ++ log, M.bind_eq_ok.2 ⟨l, log, _, mapVal_none.2 h, by simpa using hn, rfl⟩⟩
    rw [key]
    simp only [FirstOk]
    split
    · rename_i hv
      simp only [partRun, if_pos hv, hv]
      constructor
      · rintro (⟨h, rfl⟩ | ⟨h, hn⟩)
        · exact .inl ⟨_, _, h, rfl⟩
        · exact .inr ⟨⟨_, _, h⟩, hn⟩
      · rintro (⟨l, v, h, rfl⟩ | ⟨⟨l, s1, h⟩, hn⟩)
        · obtain ⟨rfl, h' | h'⟩ := Look_unit h
          · simp at h'
          · cases h'; exact .inl ⟨h, rfl⟩
        · obtain ⟨rfl, h' | h'⟩ := Look_unit h
          · obtain ⟨-, rfl⟩ := h'; exact .inr ⟨h, hn⟩
          · simp at h'
    · rename_i hv
      simp only [partRun, if_neg hv]
      constructor
      · rintro (⟨v, ⟨l, h⟩, rfl⟩ | ⟨⟨l, h⟩, hn⟩)
        · exact .inl ⟨_, _, h, rfl⟩
        · exact .inr ⟨⟨_, _, h⟩, hn⟩
      · rintro (⟨l, v, h, rfl⟩ | ⟨⟨l, s1, h⟩, hn⟩)
        · exact .inl ⟨_, ⟨_, h⟩, rfl⟩
        · have := Parse_failsBack p _ _ _ h
          subst this
          exact .inr ⟨⟨_, h⟩, hn⟩

theorem firstNo_iff {f : Ty → Val → Val} {ps : List (Parser α)} {s : Span} :
    FirstNo C ps s ↔ ∃ log, firstOf s (ps.map fun p => mapVal (f (resultFor C p)) (partRun C p s)) =
      .done log (.ok ⟨none, s⟩) := by
  induction ps with
  | nil => simp [FirstNo, firstOf, M.pure]
  | cons p ps ih =>
    have hpart : (if resultFor C p = .void then Miss C p s else No C p s) ↔
        ∃ l s1, partRun C p s = .done l (.ok ⟨none, s1⟩) := by
      split
      · rename_i hv
        simp only [partRun, if_pos hv]
        constructor
        · intro h; exact ⟨_, _, h⟩
        · rintro ⟨l, s1, h⟩
          obtain ⟨rfl, h' | h'⟩ := Look_unit h
          · obtain ⟨-, rfl⟩ := h'; exact h
          · simp at h'
      · rename_i hv
        simp only [partRun, if_neg hv]
        constructor
        · rintro ⟨l, h⟩; exact ⟨_, _, h⟩
        · rintro ⟨l, s1, h⟩
          have := Parse_failsBack p _ _ _ h
          subst this
          exact ⟨_, h⟩
    simp only [FirstNo, hpart, List.map_cons, firstOf]
    constructor
    · rintro ⟨⟨l, s1, h⟩, hn⟩
      obtain ⟨log, hn⟩ := ih.1 hn
      exact ⟨l ++ log, M.bind_eq_ok.2 ⟨l, log, _, mapVal_none.2 h, by simpa using hn, rfl⟩⟩
    · rintro ⟨log, h⟩
      obtain ⟨l1, l2, ⟨rv, rr⟩, h1, h2, rfl⟩ := M.bind_eq_ok.1 h
      cases rv with
      | none =>
        simp only [Option.isSome_none, Bool.false_eq_true, ↓reduceIte] at h2
        exact ⟨⟨_, _, mapVal_none.1 h1⟩, ih.2 ⟨_, h2⟩⟩
      | some v => simp [M.pure_eq_ok] at h2

theorem ok_choice {ps : List (Parser α)} (hp : parseOK C (.choice ps) = true) (hi : Indexable (resultsFor C ps)) {d : Val}
    (hd : defaultVal C (choiceType (resultsFor C ps)) = some d) {s s' : Span} {w : Val} :
    Ok C (.choice ps) s w s' ↔ FirstOk C (choiceValue (distinct (resultsFor C ps)) d) ps s w s' := by
  unfold Ok Parses
  rw [Parse_choice_eq hp hi hd, firstOk_iff]

theorem no_choice {ps : List (Parser α)} (hp : parseOK C (.choice ps) = true) (hi : Indexable (resultsFor C ps))
    {s : Span} : No C (.choice ps) s ↔ FirstNo C ps s := by
  obtain ⟨d, hd⟩ := defaultVal_choice hp
  unfold No ParseFails
  rw [Parse_choice_eq hp hi hd]
  exact firstNo_iff.symm

/-! ### One operand -/

theorem ok_ignore {p : Parser α} {s s' : Span} {w : Val} : Ok C (.ignore p) s w s' ↔ See C p s s' ∧ w = .unit := by
  constructor
  · rintro ⟨l, h⟩
    obtain ⟨h1, rfl, rfl⟩ := ((C26_ignore C p s s' l).1 w).1 h
    exact ⟨h1, rfl⟩
  · rintro ⟨h, rfl⟩; exact ⟨_, ((C26_ignore C p s s' []).1 _).2 ⟨h, rfl, rfl⟩⟩

theorem see_ignore {p : Parser α} {s s' : Span} : See C (.ignore p) s s' ↔ See C p s s' := by
  unfold See Looks; rw [Look_ignore]
theorem miss_ignore {p : Parser α} {s : Span} : Miss C (.ignore p) s ↔ Miss C p s := by
  unfold Miss LookFails; rw [Look_ignore]
theorem no_ignore {p : Parser α} {s : Span} : No C (.ignore p) s ↔ Miss C p s := by
  constructor
  · rintro ⟨l, h⟩
    obtain ⟨h, -, rfl⟩ := ((C26_ignore C p s s l).2.1).1 h
    exact h
  · intro h; exact ⟨_, ((C26_ignore C p s s []).2.1).2 ⟨h, rfl, rfl⟩⟩

theorem ok_maybe {p : Parser α} {s s' : Span} {w : Val} : Ok C (.maybe p) s w s' ↔
    (∃ v, Ok C p s v s' ∧ w = optionalValue (resultFor C p) (some v)) ∨
      (No C p s ∧ s' = s ∧ w = optionalValue (resultFor C p) none) := by
  constructor
  · rintro ⟨l, h⟩
    rcases ((C18_maybe C p s s' l).1 w).1 h with ⟨v, h1, rfl⟩ | ⟨h1, rfl, rfl⟩
    · exact .inl ⟨_, ⟨_, h1⟩, rfl⟩
    · exact .inr ⟨⟨_, h1⟩, rfl, rfl⟩
  · rintro (⟨v, ⟨l, h⟩, rfl⟩ | ⟨⟨l, h⟩, rfl, rfl⟩)
    · exact ⟨l, ((C18_maybe C p s s' l).1 _).2 (.inl ⟨_, h, rfl⟩)⟩
    · exact ⟨l, ((C18_maybe C p _ _ l).1 _).2 (.inr ⟨h, rfl, rfl⟩)⟩

theorem no_maybe {p : Parser α} {s : Span} : ¬ No C (.maybe p) s := fun ⟨l, h⟩ => (C18_maybe C p s s l).2.1 h

/-- `map`, for a parser and a callback that have a value -/
theorem ok_map {p : Parser α} {f : Fn} (hp : resultFor C p ≠ .void) (hm : resultFor C (.map p f) ≠ .void) {s s' : Span} {w : Val} :
    Ok C (.map p f) s w s' ↔ ∃ v, Ok C p s v s' ∧ ∃ l, invoke C f [v] = .done l (.ok w) := by
  unfold Ok Parses
  rw [Parse_map, parseMap]
  simp only [M.bind_eq]
  constructor
  · rintro ⟨log, h⟩
    obtain ⟨l1, l2, ⟨rv, rr⟩, h1, h2, rfl⟩ := M.bind_eq_ok.1 h
    cases rv with
    | none => simp [R.hasValue, R.failure, M.pure_eq_ok] at h2
    | some v =>
      simp only [R.hasValue, Option.isSome_some, Bool.not_true, Bool.false_eq_true, ↓reduceIte, argVals, if_neg hp,
        R.deref, M.bind_eq, M.pure_bind, if_neg hm, R.success] at h2
      obtain ⟨l3, l4, x, h3, h4, rfl⟩ := M.bind_eq_ok.1 h2
      simp only [M.pure_eq_ok, R.mk.injEq, Option.some.injEq] at h4
      obtain ⟨rfl, rfl, rfl⟩ := h4
      exact ⟨v, ⟨_, h1⟩, _, h3⟩
  · rintro ⟨v, ⟨l1, h1⟩, l2, h2⟩
    refine ⟨l1 ++ (l2 ++ []), M.bind_eq_ok.2 ⟨l1, _, _, h1, ?_, rfl⟩⟩
    simp only [R.hasValue, Option.isSome_some, Bool.not_true, Bool.false_eq_true, ↓reduceIte, argVals, if_neg hp,
        R.deref, M.bind_eq, M.pure_bind, if_neg hm, R.success]
    exact M.bind_eq_ok.2 ⟨l2, [], w, h2, rfl, rfl⟩

theorem no_map {p : Parser α} {f : Fn} {s : Span} : No C (.map p f) s ↔ No C p s := by
  unfold No ParseFails
  rw [Parse_map, parseMap]
  simp only [M.bind_eq]
  constructor
  · rintro ⟨log, h⟩
    obtain ⟨l1, l2, ⟨rv, rr⟩, h1, h2, rfl⟩ := M.bind_eq_ok.1 h
    cases rv with
    | none =>
      have := Parse_failsBack p _ _ _ h1
      subst this
      exact ⟨_, h1⟩
    | some v =>
      simp only [R.hasValue, Option.isSome_some, Bool.not_true, Bool.false_eq_true, ↓reduceIte] at h2
      obtain ⟨_, _, _, _, h2, -⟩ := M.bind_eq_ok.1 h2
      obtain ⟨_, _, _, _, h2, -⟩ := M.bind_eq_ok.1 h2
      split at h2 <;> simp [R.successVoid, R.success, M.pure_eq_ok] at h2
  · rintro ⟨l, h⟩
    exact ⟨l, M.bind_eq_ok.2 ⟨l, [], _, h, rfl, by simp⟩⟩

theorem ok_custom {k : Nat} {s s' : Span} {w : Val} (f : Val → Val)
    (hf : (resultFor C (C.custom k).body = (C.custom k).ty ∧ f = id) ∨
      (resultFor C (C.custom k).body ≠ (C.custom k).ty ∧ resultFor C (C.custom k).body ≠ .void ∧ (C.custom k).ty ≠ .void ∧
        fromOptional C (resultFor C (C.custom k).body) (C.custom k).ty = none ∧ C.conv (resultFor C (C.custom k).body) (C.custom k).ty = some f)) :
    Ok C (.custom k) s w s' ↔ ∃ v, Ok C (C.custom k).body s v s' ∧ w = f v := by
  have key : Parse C (.custom k) s = mapVal f (Parse C (C.custom k).body s) := by
    rw [Parse_custom, parseCustom, mapVal]
    refine M.bind_congr fun r => ?_
    obtain ⟨rv, rr⟩ := r
    rcases hf with ⟨h, rfl⟩ | ⟨h1, h2, h3, h5, h4⟩
    · rw [convertResult, if_pos h]; cases rv <;> rfl
    · rw [convertResult, if_neg h1]
      cases rv with
      | none => simp [h2, h3, h5]
      | some v => simp [h2, h3, h5, convert, h1, h4, M.bind_eq, M.pure_bind]
  unfold Ok Parses
  rw [key]
  simp only [mapVal_some]
  constructor
  · rintro ⟨l, v, h, rfl⟩; exact ⟨v, ⟨l, h⟩, rfl⟩
  · rintro ⟨v, ⟨l, h⟩, rfl⟩; exact ⟨l, v, h, rfl⟩

theorem no_custom {k : Nat} {s : Span} (h : No C (C.custom k).body s)
    (hf : resultFor C (C.custom k).body = (C.custom k).ty ∨
      (resultFor C (C.custom k).body ≠ .void ∧ (C.custom k).ty ≠ .void ∧
        fromOptional C (resultFor C (C.custom k).body) (C.custom k).ty = none)) : No C (.custom k) s := by
  obtain ⟨l, h⟩ := h
  refine ⟨l, ?_⟩
  rw [ParseFails, Parse_custom, parseCustom]
  refine M.bind_eq_ok.2 ⟨l, [], _, h, ?_, by simp⟩
  rw [convertResult]
  split
  · rfl
  · rename_i hne
    simp [hne] at hf
    simp [hf]

/-! ### Delimited lists -/

/-- elements `vs` separated by delimiters `ds`, as many as possible -/
inductive List1 (C : Ctx α β) (p d : Parser α) : Span → List Val → List Val → Span → Prop where
  | last {s v s1} : Ok C p s v s1 → (No C d s1 ∨ ∃ w s2, Ok C d s1 w s2 ∧ No C p s2) → List1 C p d s [v] [] s1
  | more {s v s1 w s2 vs ds s'} : Ok C p s v s1 → Ok C d s1 w s2 → List1 C p d s2 vs ds s' →
      List1 C p d s (v :: vs) (w :: ds) s'

theorem ok_delimit {p d : Parser α} {s s' : Span} {w : Val} :
    Ok C (.delimit p d) s w s' ↔
      ∃ vs ds, List1 C p d s vs ds s' ∧ w = delimitValue (resultFor C p) (resultFor C d) vs ds := by
  have hno : ∀ s1, (∃ l, NoMore (Parse C p) (Parse C d) s1 l) ↔ (No C d s1 ∨ ∃ w s2, Ok C d s1 w s2 ∧ No C p s2) := by
    intro s1
    constructor
    · rintro ⟨l, ⟨s2, h⟩ | ⟨l1, l2, dv, s2, s3, h1, h2, rfl⟩⟩
      · have := Parse_failsBack d _ _ _ h
        subst this
        exact .inl ⟨l, h⟩
      · have := Parse_failsBack p _ _ _ h2
        subst this
        exact .inr ⟨dv, _, ⟨_, h1⟩, ⟨_, h2⟩⟩
    · rintro (⟨l, h⟩ | ⟨w, s2, ⟨l1, h1⟩, ⟨l2, h2⟩⟩)
      · exact ⟨l, .inl ⟨_, h⟩⟩
      · exact ⟨l1 ++ l2, .inr ⟨_, _, _, _, _, h1, h2, rfl⟩⟩
  have key : ∀ vs ds, (∃ l l', Delimited (Parse C p) (Parse C d) s l vs ds s' ∧ NoMore (Parse C p) (Parse C d) s' l') ↔
      List1 C p d s vs ds s' := by
    intro vs ds
    constructor
    · rintro ⟨l, l', h1, h2⟩
      induction h1 with
      | one h => exact .last ⟨_, h⟩ ((hno _).1 ⟨_, h2⟩)
      | more h3 h4 _ ih => exact .more ⟨_, h3⟩ ⟨_, h4⟩ (ih h2)
    · intro h
      induction h with
      | last h1 h2 =>
        obtain ⟨l, h1⟩ := h1
        obtain ⟨l', h2⟩ := (hno _).2 h2
        exact ⟨l, l', .one h1, h2⟩
      | more h1 h2 _ ih =>
        obtain ⟨l1, h1⟩ := h1
        obtain ⟨l2, h2⟩ := h2
        obtain ⟨l3, l4, h3, h4⟩ := ih
        exact ⟨_, l4, .more h1 h2 h3, h4⟩
  constructor
  · rintro ⟨log, h⟩
    obtain ⟨l, vs, ds, h1, l', h2, -, rfl⟩ := ((delimit_outcome C p d s s' log).1 w).1 h
    exact ⟨vs, ds, (key vs ds).1 ⟨l, l', h1, h2⟩, rfl⟩
  · rintro ⟨vs, ds, h, rfl⟩
    obtain ⟨l, l', h1, h2⟩ := (key vs ds).2 h
    exact ⟨l ++ l', ((delimit_outcome C p d s s' _).1 _).2 ⟨l, vs, ds, h1, l', h2, rfl, rfl⟩⟩

theorem no_delimit {p d : Parser α} {s : Span} : No C (.delimit p d) s ↔ No C p s :=
  exists_congr fun l => (delimit_outcome C p d s s l).2

/-! ### Join -/

section
variable [LinearOrder α]

theorem ok_join {p : Parser α} (hc : Compiles C (.join p)) (ht : C.Typed) (hl : SpanLocal C p) {s s' : Span} {w : Val}
    (hs : s.Valid C.mem) :
    Ok C (.join p) s w s' ↔ ∃ v, Ok C p s v s' ∧ Contiguous (nonEmpty (joinLeaves C v)) ∧
      w = .span (cover s' (nonEmpty (joinLeaves C v))) := by
  unfold Ok
  simp only [fun l => (C28_join C p hc ht hl s hs s' l).1 w]
  constructor
  · rintro ⟨l, v, h, h1, h2⟩; exact ⟨v, ⟨l, h⟩, h1, h2⟩
  · rintro ⟨v, ⟨l, h⟩, h1, h2⟩; exact ⟨l, v, h, h1, h2⟩

/-- a part without value in front does not matter to `join` -/
theorem ok_join_after {p q r : Parser α} (hcp : Compiles C (.join p)) (hcq : Compiles C (.join q)) (ht : C.Typed)
    (hlp : SpanLocal C p) (hlq : SpanLocal C q)
    (h : ∀ s v s', Ok C p s v s' ↔ ∃ s1, See C r s s1 ∧ Ok C q s1 v s') {s s' : Span} {w : Val} (hs : s.Valid C.mem) :
    Ok C (.join p) s w s' ↔ ∃ s1, See C r s s1 ∧ Ok C (.join q) s1 w s' := by
  rw [ok_join hcp ht hlp hs]
  constructor
  · rintro ⟨v, hv, h1, h2⟩
    obtain ⟨s1, h3, h4⟩ := (h _ _ _).1 hv
    exact ⟨s1, h3, (ok_join hcq ht hlq (h3.suffix.valid hs)).2 ⟨v, h4, h1, h2⟩⟩
  · rintro ⟨s1, h3, h4⟩
    obtain ⟨v, h4, h1, h2⟩ := (ok_join hcq ht hlq (h3.suffix.valid hs)).1 h4
    exact ⟨v, (h _ _ _).2 ⟨s1, h3, h4⟩, h1, h2⟩

theorem no_join {p : Parser α} (hc : Compiles C (.join p)) (ht : C.Typed) (hl : SpanLocal C p) {s : Span}
    (hs : s.Valid C.mem) (h : No C p s) : No C (.join p) s := by
  obtain ⟨l, h⟩ := h
  exact ⟨l, (C28_join C p hc ht hl s hs s l).2.1.2 ⟨rfl, .inl h⟩⟩

end

end Tok3n
