import Verif.Spec.Verdict
import Verif.Proof.Compound
import Verif.Proof.Agree
/-
Verdicts of choices and sequences.
-/

namespace Tok3n

variable {α β : Type} {C : Ctx α β}

theorem Verdict.orElse_assoc (a b c : Verdict) : (a.orElse b).orElse c = a.orElse (b.orElse c) := by
  cases a <;> rfl
theorem Verdict.orElse_reject (a : Verdict) : a.orElse .reject = a := by cases a <;> rfl
theorem Verdict.orElse_self (a : Verdict) : a.orElse a = a := by cases a <;> rfl
theorem Verdict.andThen_assoc (a : Verdict) (f g : Span → Verdict) :
    (a.andThen f).andThen g = a.andThen fun s => (f s).andThen g := by cases a <;> rfl
theorem Verdict.andThen_accept (a : Verdict) : a.andThen .accept = a := by cases a <;> rfl
theorem Verdict.andThen_congr {a : Verdict} {f g : Span → Verdict} (h : ∀ s, a = .accept s → f s = g s) :
    a.andThen f = a.andThen g := by
  cases a with
  | accept s => exact h s rfl
  | _ => rfl

theorem verdict_after (l : List Call) (m : Run R) : verdict (m.after l) = verdict m := by
  cases m with
  | diverge => rfl
  | done l' r => cases r <;> rfl

theorem verdict_mapVal (f : Val → Val) (m : Run R) : verdict (mapVal f m) = verdict m := by
  cases m with
  | diverge => rfl
  | done l r =>
    cases r with
    | err e => rfl
    | ok r => obtain ⟨v, s⟩ := r; cases v <;> rfl

theorem verdict_bind_ok {γ : Type} (l : List Call) (r : γ) (k : γ → Run R) :
    verdict (M.bind (.done l (.ok r)) k) = verdict (k r) := verdict_after _ _
theorem verdict_some (l : List Call) (v : Val) (s : Span) : verdict (.done l (.ok ⟨some v, s⟩)) = .accept s := rfl
theorem verdict_none (l : List Call) (s : Span) : verdict (.done l (.ok ⟨none, s⟩)) = .reject := rfl

theorem orElses_append (vs ws : List Verdict) : orElses (vs ++ ws) = (orElses vs).orElse (orElses ws) := by
  induction vs with
  | nil => rfl
  | cons v vs ih =>
    show v.orElse (orElses (vs ++ ws)) = (v.orElse (orElses vs)).orElse (orElses ws)
    rw [ih, Verdict.orElse_assoc]

theorem verdict_firstOf (s : Span) (ms : List (Run R)) : verdict (firstOf s ms) = orElses (ms.map verdict) := by
  induction ms with
  | nil => rfl
  | cons m ms ih =>
    show verdict (M.bind m _) = (verdict m).orElse (orElses (ms.map verdict))
    cases m with
    | diverge => rfl
    | done l r =>
      cases r with
      | err e => rfl
      | ok r =>
        rw [verdict_bind_ok]
        obtain ⟨rv, rr⟩ := r
        cases rv with
        | none => exact ih
        | some v => rfl

theorem andThens_cons (f : Span → Verdict) (fs : List (Span → Verdict)) (s : Span) :
    andThens (f :: fs) s = (f s).andThen (andThens fs) := rfl

theorem andThens_append (fs gs : List (Span → Verdict)) (s : Span) :
    andThens (fs ++ gs) s = (andThens fs s).andThen (andThens gs) := by
  induction fs generalizing s with
  | nil => rfl
  | cons f fs ih =>
    rw [List.cons_append, andThens_cons, andThens_cons, Verdict.andThen_assoc]
    exact Verdict.andThen_congr fun s' _ => ih s'

theorem verdict_inOrder (s : Span) (f : List Val → Val) (ms : List (Span → Run R)) (s' : Span) :
    verdict (allOrNothing s f (inOrder ms s')) = andThens (ms.map fun m s => verdict (m s)) s' := by
  induction ms generalizing s' f with
  | nil => rfl
  | cons m ms ih =>
    rw [List.map_cons, andThens_cons]
    unfold allOrNothing inOrder
    rw [M.bind_assoc]
    cases m s' with
    | diverge => rfl
    | done l r =>
      cases r with
      | err e => rfl
      | ok r =>
        rw [verdict_bind_ok]
        obtain ⟨rv, rr⟩ := r
        cases rv with
        | none => rfl
        | some v =>
          rw [verdict_some]
          show _ = andThens _ rr
          rw [← ih (fun vs => f (v :: vs)) rr]
          unfold allOrNothing
          congr 1
          show M.bind (M.bind _ _) _ = _
          rw [M.bind_assoc]
          apply M.bind_congr
          intro x
          rw [M.pure_bind]
          cases x <;> rfl

/-- the verdict of a part of a choice or sequence -/
noncomputable def partVerdict (C : Ctx α β) (p : Parser α) (s : Span) : Verdict := verdict (partRun C p s)

theorem partVerdict_parse {p : Parser α} (h : resultFor C p ≠ .void) (s : Span) :
    partVerdict C p s = parseVerdict C p s := by simp [partVerdict, partRun, h, parseVerdict]
theorem partVerdict_look {p : Parser α} (h : resultFor C p = .void) (s : Span) :
    partVerdict C p s = lookVerdict C p s := by simp [partVerdict, partRun, h, lookVerdict]

theorem defaultVal_choice {ps : List (Parser α)} (hp : parseOK C (.choice ps) = true) :
    ∃ d, defaultVal C (choiceType (resultsFor C ps)) = some d := by
  simp only [parseOK, Bool.and_eq_true] at hp
  rw [← choiceTrait_ty]
  exact Option.isSome_iff_exists.1 hp.1.1.2

theorem defaultVal_sequence {ps : List (Parser α)} (hp : parseOK C (.sequence ps) = true) :
    ∃ d, defaultVal C (sequenceType (resultsFor C ps)) = some d := by
  simp only [parseOK, Bool.and_eq_true] at hp
  rw [← sequenceTrait_ty]
  exact Option.isSome_iff_exists.1 hp.1.1.2

theorem lookVerdict_choice (ps : List (Parser α)) (s : Span) :
    lookVerdict C (.choice ps) s = orElses (ps.map fun p => lookVerdict C p s) := by
  rw [lookVerdict, Look_choice_eq, verdict_firstOf, List.map_map]; rfl

theorem parseVerdict_choice {ps : List (Parser α)} (hp : parseOK C (.choice ps) = true)
    (hi : Indexable (resultsFor C ps)) (s : Span) :
    parseVerdict C (.choice ps) s = orElses (ps.map fun p => partVerdict C p s) := by
  obtain ⟨d, hd⟩ := defaultVal_choice hp
  rw [parseVerdict, Parse_choice_eq hp hi hd, verdict_firstOf, List.map_map]
  congr 1
  apply List.map_congr_left
  intro p _
  exact verdict_mapVal _ _

theorem lookVerdict_sequence (ps : List (Parser α)) (s : Span) :
    lookVerdict C (.sequence ps) s = andThens (ps.map (lookVerdict C)) s := by
  rw [lookVerdict, Look_sequence_eq, verdict_inOrder, List.map_map]; rfl

theorem parseVerdict_sequence {ps : List (Parser α)} (hp : parseOK C (.sequence ps) = true) (s : Span) :
    parseVerdict C (.sequence ps) s = andThens (ps.map (partVerdict C)) s := by
  obtain ⟨d, hd⟩ := defaultVal_sequence hp
  rw [parseVerdict, Parse_sequence_eq hd, verdict_inOrder, List.map_map]; rfl

theorem choiceType_void {ts : List Ty} (h : choiceType ts = .void) : ∀ t ∈ ts, t = .void := by
  intro t ht
  by_contra hv
  have hm := (mem_distinct ts t).2 ⟨ht, hv⟩
  have hd : ∀ u ∈ distinct ts, u ≠ .void := fun u hu => ((mem_distinct _ _).1 hu).2
  unfold choiceType at h
  cases hd' : distinct ts with
  | nil => simp [hd'] at hm
  | cons a l =>
    cases l with
    | nil => rw [hd'] at h; exact hd a (by simp [hd']) h
    | cons b l => rw [hd'] at h; simp at h

theorem sequenceType_void {ts : List Ty} (h : sequenceType ts = .void) : ∀ t ∈ ts, t = .void := by
  intro t ht
  by_contra hv
  have hm : t ∈ ts.filter (· ≠ .void) := List.mem_filter.2 ⟨ht, by simpa using hv⟩
  have hd : ∀ u ∈ ts.filter (· ≠ .void), u ≠ .void := fun u hu => by simpa using (List.mem_filter.1 hu).2
  unfold sequenceType at h
  generalize ts.filter (· ≠ .void) = us at *
  cases us with
  | nil => simp at hm
  | cons a l =>
    cases l with
    | nil => exact hd a (by simp) h
    | cons b l => simp [tupleType] at h

/-- a choice as a part: its alternatives as parts -/
theorem partVerdict_choice {ps : List (Parser α)}
    (hp : resultFor C (.choice ps) ≠ .void → parseOK C (.choice ps) = true)
    (hi : Indexable (resultsFor C ps)) (s : Span) :
    partVerdict C (.choice ps) s = orElses (ps.map fun p => partVerdict C p s) := by
  by_cases hv : resultFor C (.choice ps) = .void
  · rw [partVerdict_look hv, lookVerdict_choice]
    congr 1
    apply List.map_congr_left
    intro p hp
    rw [resultFor, choiceTrait_ty] at hv
    have := choiceType_void hv (resultFor C p) (by rw [resultsFor_eq]; exact List.mem_map_of_mem hp)
    rw [partVerdict_look this]
  · rw [partVerdict_parse hv, parseVerdict_choice (hp hv) hi]

/-- a sequence as a part: its parts as parts -/
theorem partVerdict_sequence {ps : List (Parser α)}
    (hp : resultFor C (.sequence ps) ≠ .void → parseOK C (.sequence ps) = true) (s : Span) :
    partVerdict C (.sequence ps) s = andThens (ps.map (partVerdict C)) s := by
  by_cases hv : resultFor C (.sequence ps) = .void
  · rw [partVerdict_look hv, lookVerdict_sequence]
    congr 1
    apply List.map_congr_left
    intro p hp
    rw [resultFor, sequenceTrait_ty] at hv
    have := sequenceType_void hv (resultFor C p) (by rw [resultsFor_eq]; exact List.mem_map_of_mem hp)
    funext s
    rw [partVerdict_look this]
  · rw [partVerdict_parse hv, parseVerdict_sequence (hp hv)]

theorem indexable_pair (t u : Ty) : Indexable [t, u] := by
  intro a x b h hx hm
  match a, h with
  | [], _ => simp at hm
  | [y], h =>
    simp only [List.singleton_append, List.cons.injEq] at h
    simp only [List.mem_singleton] at hm
    subst hm
    simp
  | [y, z], h => simp at h
  | y :: z :: w :: l, h => simp at h

end Tok3n

/-! ### Relational readings -/

namespace Tok3n

variable {α β : Type} {C : Ctx α β}

theorem firstOf_some {s : Span} {ms : List (Run R)} {log : List Call} {v : Val} {s' : Span} :
    firstOf s ms = .done log (.ok ⟨some v, s'⟩) ↔
      ∃ before m after l l', ms = before ++ m :: after ∧ AllFail before l ∧
        m = .done l' (.ok ⟨some v, s'⟩) ∧ log = l ++ l' := by
  induction ms generalizing log with
  | nil => simp [firstOf, M.pure]
  | cons m ms ih =>
    unfold firstOf
    rw [M.bind_eq_ok]
    constructor
    · rintro ⟨l1, l2, r, hm, hk, rfl⟩
      obtain ⟨rv, rr⟩ := r
      cases rv with
      | none =>
        simp only [Option.isSome_none, Bool.false_eq_true, if_false] at hk
        obtain ⟨before, m', after, l, l', rfl, hf, hm', rfl⟩ := ih.1 hk
        exact ⟨m :: before, m', after, l1 ++ l, l', rfl, .cons hm hf, hm', by simp⟩
      | some w =>
        simp only [Option.isSome_some, if_true, M.pure, M.done.injEq, Res.ok.injEq, R.mk.injEq] at hk
        obtain ⟨rfl, h1, rfl⟩ := hk
        cases h1
        exact ⟨[], m, ms, [], l1, rfl, .nil, hm, by simp⟩
    · rintro ⟨before, m', after, l, l', he, hf, hm', rfl⟩
      cases hf with
      | nil =>
        simp only [List.nil_append, List.cons.injEq] at he
        obtain ⟨rfl, rfl⟩ := he
        exact ⟨l', [], _, hm', by simp [M.pure], by simp⟩
      | cons h1 h2 =>
        rename_i l1 l2 s1 m1 ms1
        simp only [List.cons_append, List.cons.injEq] at he
        obtain ⟨rfl, rfl⟩ := he
        refine ⟨l1, l2 ++ l', _, h1, ?_, by simp⟩
        simp only [Option.isSome_none, Bool.false_eq_true, if_false]
        exact ih.2 ⟨_, _, _, _, _, rfl, h2, hm', rfl⟩

theorem firstOf_none {s s' : Span} {ms : List (Run R)} {log : List Call} :
    firstOf s ms = .done log (.ok ⟨none, s'⟩) ↔ s' = s ∧ AllFail ms log := by
  induction ms generalizing log with
  | nil =>
    simp only [firstOf, M.pure, M.done.injEq, Res.ok.injEq, R.mk.injEq]
    constructor
    · rintro ⟨rfl, -, rfl⟩; exact ⟨rfl, .nil⟩
    · rintro ⟨rfl, h⟩; cases h; simp
  | cons m ms ih =>
    unfold firstOf
    rw [M.bind_eq_ok]
    constructor
    · rintro ⟨l1, l2, r, hm, hk, rfl⟩
      obtain ⟨rv, rr⟩ := r
      cases rv with
      | none =>
        simp only [Option.isSome_none, Bool.false_eq_true, if_false] at hk
        obtain ⟨h1, h2⟩ := ih.1 hk
        exact ⟨h1, .cons hm h2⟩
      | some w => simp [M.pure] at hk
    · rintro ⟨rfl, h⟩
      cases h with
      | cons h1 h2 => exact ⟨_, _, _, h1, by simpa using ih.2 ⟨rfl, h2⟩, rfl⟩

theorem inOrder_some {ms : List (Span → Run R)} {s : Span} {log : List Call} {vs : List Val} {s' : Span} :
    inOrder ms s = .done log (.ok (some (vs, s'))) ↔ InTurn ms s log vs s' := by
  induction ms generalizing s log vs with
  | nil =>
    simp only [inOrder, M.pure, M.done.injEq, Res.ok.injEq, Option.some.injEq, Prod.mk.injEq]
    constructor
    · rintro ⟨rfl, rfl, rfl⟩; exact .nil
    · intro h; cases h; simp
  | cons m ms ih =>
    unfold inOrder
    rw [M.bind_eq_ok]
    constructor
    · rintro ⟨l1, l2, r, hm, hk, rfl⟩
      obtain ⟨rv, rr⟩ := r
      cases rv with
      | none => simp [M.pure] at hk
      | some v =>
        simp only at hk
        rw [M.bind_eq_ok] at hk
        obtain ⟨l3, l4, x, hx, hp, rfl⟩ := hk
        simp only [M.pure, M.done.injEq, Res.ok.injEq] at hp
        obtain ⟨rfl, hp⟩ := hp
        cases x with
        | none => simp at hp
        | some y =>
          obtain ⟨ws, s2⟩ := y
          simp only [Option.map_some, Option.some.injEq, Prod.mk.injEq] at hp
          obtain ⟨rfl, rfl⟩ := hp
          simp only [List.append_nil]
          exact .cons hm (ih.1 hx)
    · intro h
      cases h with
      | cons h1 h2 =>
        refine ⟨_, _, _, h1, ?_, rfl⟩
        simp only
        rw [ih.2 h2]
        simp [M.bind, M.pure, M.after]

theorem inOrder_none {ms : List (Span → Run R)} {s : Span} {log : List Call} :
    inOrder ms s = .done log (.ok none) ↔
      ∃ before m after l l' vs s1 s', ms = before ++ m :: after ∧ InTurn before s l vs s1 ∧
        m s1 = .done l' (.ok ⟨none, s'⟩) ∧ log = l ++ l' := by
  induction ms generalizing s log with
  | nil => simp [inOrder, M.pure]
  | cons m ms ih =>
    unfold inOrder
    rw [M.bind_eq_ok]
    constructor
    · rintro ⟨l1, l2, r, hm, hk, rfl⟩
      obtain ⟨rv, rr⟩ := r
      cases rv with
      | none =>
        simp only [M.pure, M.done.injEq, and_true] at hk
        subst hk
        exact ⟨[], m, ms, [], l1, [], s, rr, rfl, .nil, hm, by simp⟩
      | some v =>
        simp only at hk
        rw [M.bind_eq_ok] at hk
        obtain ⟨l3, l4, x, hx, hp, rfl⟩ := hk
        simp only [M.pure, M.done.injEq, Res.ok.injEq] at hp
        obtain ⟨rfl, hp⟩ := hp
        cases x with
        | some y => simp at hp
        | none =>
          obtain ⟨before, m', after, l, l', vs, s1, s', rfl, ht, hm', rfl⟩ := ih.1 hx
          exact ⟨m :: before, m', after, l1 ++ l, l', v :: vs, s1, s', rfl, .cons hm ht, hm', by simp⟩
    · rintro ⟨before, m', after, l, l', vs, s1, s', he, ht, hm', rfl⟩
      cases ht with
      | nil =>
        simp only [List.nil_append, List.cons.injEq] at he
        obtain ⟨rfl, rfl⟩ := he
        exact ⟨l', [], _, hm', by simp [M.pure], by simp⟩
      | cons h1 h2 =>
        rename_i m1 ms1 l1 v1 s2 l2 vs2
        simp only [List.cons_append, List.cons.injEq] at he
        obtain ⟨rfl, rfl⟩ := he
        refine ⟨l1, l2 ++ l', _, h1, ?_, by simp⟩
        simp only
        rw [ih.2 ⟨_, _, _, _, _, _, _, _, rfl, h2, hm', rfl⟩]
        simp [M.bind, M.pure, M.after]

theorem allOrNothing_some {s : Span} {f : List Val → Val} {m : Run (Option (List Val × Span))} {log v s'} :
    allOrNothing s f m = .done log (.ok ⟨some v, s'⟩) ↔ ∃ vs, m = .done log (.ok (some (vs, s'))) ∧ v = f vs := by
  unfold allOrNothing
  rw [M.bind_eq_ok]
  constructor
  · rintro ⟨l1, l2, x, hx, hk, rfl⟩
    cases x with
    | none => simp [M.pure] at hk
    | some y =>
      obtain ⟨vs, s1⟩ := y
      simp only [M.pure, M.done.injEq, Res.ok.injEq, R.mk.injEq, Option.some.injEq] at hk
      obtain ⟨rfl, rfl, rfl⟩ := hk
      exact ⟨vs, by simpa using hx, rfl⟩
  · rintro ⟨vs, h, rfl⟩
    exact ⟨log, [], _, h, rfl, by simp⟩

theorem allOrNothing_none {s s' : Span} {f : List Val → Val} {m : Run (Option (List Val × Span))} {log} :
    allOrNothing s f m = .done log (.ok ⟨none, s'⟩) ↔ s' = s ∧ m = .done log (.ok none) := by
  unfold allOrNothing
  rw [M.bind_eq_ok]
  constructor
  · rintro ⟨l1, l2, x, hx, hk, rfl⟩
    cases x with
    | none =>
      simp only [M.pure, M.done.injEq, Res.ok.injEq, R.mk.injEq] at hk
      obtain ⟨rfl, -, rfl⟩ := hk
      exact ⟨rfl, by simpa using hx⟩
    | some y =>
      obtain ⟨vs, s1⟩ := y
      simp [M.pure] at hk
  · rintro ⟨rfl, h⟩
    exact ⟨log, [], _, h, rfl, by simp⟩

theorem mapVal_some {f : Val → Val} {m : Run R} {log v s'} :
    mapVal f m = .done log (.ok ⟨some v, s'⟩) ↔ ∃ w, m = .done log (.ok ⟨some w, s'⟩) ∧ v = f w := by
  cases m with
  | diverge => simp [mapVal, M.bind]
  | done l r =>
    cases r with
    | err e => simp [mapVal, M.bind]
    | ok r =>
      obtain ⟨rv, rr⟩ := r
      cases rv with
      | none => simp [mapVal, M.bind, M.pure, M.after]
      | some w =>
        simp only [mapVal, M.bind, M.pure, M.after, Option.map_some, List.append_nil, M.done.injEq, Res.ok.injEq,
          R.mk.injEq, Option.some.injEq]
        constructor
        · rintro ⟨rfl, rfl, rfl⟩; exact ⟨w, ⟨rfl, rfl, rfl⟩, rfl⟩
        · rintro ⟨w, ⟨rfl, rfl, rfl⟩, rfl⟩; exact ⟨rfl, rfl, rfl⟩

theorem mapVal_none {f : Val → Val} {m : Run R} {log s'} :
    mapVal f m = .done log (.ok ⟨none, s'⟩) ↔ m = .done log (.ok ⟨none, s'⟩) := by
  cases m with
  | diverge => simp [mapVal, M.bind]
  | done l r =>
    cases r with
    | err e => simp [mapVal, M.bind]
    | ok r =>
      obtain ⟨rv, rr⟩ := r
      cases rv <;> simp [mapVal, M.bind, M.pure, M.after]

theorem mapVal_err {f : Val → Val} {m : Run R} {log e} :
    mapVal f m = .done log (.err e) ↔ m = .done log (.err e) := by
  cases m with
  | diverge => simp [mapVal, M.bind]
  | done l r =>
    cases r with
    | err e => simp [mapVal, M.bind]
    | ok r => simp [mapVal, M.bind, M.pure, M.after]

theorem mapVal_diverge {f : Val → Val} {m : Run R} : mapVal f m = .diverge ↔ m = .diverge := by
  cases m with
  | diverge => simp [mapVal, M.bind]
  | done l r => cases r <;> simp [mapVal, M.bind, M.pure, M.after]

theorem AllFail.map {ps : List (Parser α)} {f g : Parser α → Run R} {log : List Call}
    (h : AllFail (ps.map f) log)
    (hfg : ∀ p ∈ ps, ∀ l s', f p = .done l (.ok ⟨none, s'⟩) → g p = .done l (.ok ⟨none, s'⟩)) :
    AllFail (ps.map g) log := by
  induction ps generalizing log with
  | nil => cases h; exact .nil
  | cons p ps ih =>
    cases h with
    | cons h1 h2 =>
      exact .cons (hfg p (by simp) _ _ h1) (ih h2 fun q hq => hfg q (by simp [hq]))

theorem allFail_mapVal {ps : List (Parser α)} {f : Parser α → Val → Val} {g : Parser α → Run R} {log : List Call} :
    AllFail (ps.map fun p => mapVal (f p) (g p)) log ↔ AllFail (ps.map g) log :=
  ⟨fun h => h.map fun _ _ _ _ h => mapVal_none.1 h, fun h => h.map fun _ _ _ _ h => mapVal_none.2 h⟩

end Tok3n
