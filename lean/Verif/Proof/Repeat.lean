import Verif.Proof.Loops
/-
Each repetition parser in terms of the runs of its body.
-/

namespace Tok3n

variable {α β : Type} {C : Ctx α β}

theorem Parse_maybe_eq (p : Parser α) (s : Span) :
    Parse C (.maybe p) s =
      M.bind (Parse C p s) fun r => M.pure ⟨some (optionalValue (resultFor C p) r.val), r.rem⟩ := by
  rw [Parse_maybe, parseMaybe]
  have hT : resultFor C (.maybe p) = voidOr .opt (resultFor C p) := by rw [resultFor]
  rw [hT]
  by_cases h : resultFor C p = .void
  · simp only [voidOr, h, ↓reduceIte, builderInit, defaultVal, M.ofOption, M.bind_eq, M.pure_bind,
      builderEmplace, builderBuild, R.successVoid, optionalValue]
    exact M.bind_congr fun r => by split <;> rw [M.pure_bind]
  · simp only [voidOr, h, ↓reduceIte, builderInit, defaultVal, M.ofOption, M.bind_eq, M.pure_bind,
      builderEmplace, builderBuild, R.success, optionalValue, reduceCtorEq]
    refine M.bind_congr fun r => ?_
    obtain ⟨rv, rr⟩ := r
    cases rv <;> simp [R.hasValue, R.deref, M.pure_bind]

theorem Look_maybe_eq (p : Parser α) (s : Span) :
    Look C (.maybe p) s = M.bind (Look C p s) fun r => M.pure ⟨some .unit, r.rem⟩ := by
  rw [Look_maybe, lookMaybe]
  simp only [M.bind_eq]
  refine M.bind_congr' fun l r hr => ?_
  obtain ⟨rv, rr⟩ := r
  cases rv with
  | none => cases Look_failsBack p _ _ _ hr; simp [R.hasValue, R.successVoid]
  | some v => simp [R.hasValue, R.successVoid]

theorem collect_vectorValue (t : Ty) (vs : List Val) :
    ∃ d, defaultVal C (voidOr .vec t) = some d ∧ (voidOr .vec t = .void ∨ ∃ ws, d = .vec ws) ∧
      ∀ s, builderBuild (voidOr .vec t) (collect (voidOr .vec t) d vs) s = ⟨some (vectorValue t vs), s⟩ := by
  by_cases h : t = .void
  · exact ⟨.unit, by simp [voidOr, h, defaultVal], .inl (by simp [voidOr, h]),
      fun s => by simp [voidOr, h, builderBuild, R.successVoid, vectorValue]⟩
  · exact ⟨.vec [], by simp [voidOr, h, defaultVal], .inr ⟨[], rfl⟩,
      fun s => by simp [voidOr, h, builderBuild, R.success, vectorValue, collect]⟩

theorem Parse_zeroOrMore_eq (p : Parser α) (s : Span) :
    Parse C (.zeroOrMore p) s =
      M.bind (repeatAll (stepOf (Parse C p)) s) fun x =>
        M.pure ⟨some (vectorValue (resultFor C p) x.1), x.2⟩ := by
  rw [Parse_zeroOrMore]
  have hT : resultFor C (.zeroOrMore p) = voidOr .vec (resultFor C p) := by rw [resultFor]
  rw [hT]
  obtain ⟨d, hd, hv, _⟩ := collect_vectorValue (C := C) (resultFor C p) []
  simp only [builderInit, hd, M.ofOption, M.pure_bind]
  have hl : zomLoop (voidOr .vec (resultFor C p)) (den C p) s d =
      M.bind (repeatAll (stepOf (Parse C p)) s) fun x =>
        M.pure (x.2, collect (voidOr .vec (resultFor C p)) d x.1) :=
    (zomLoop_lim s d).unique (by
      simp only [zeroOrMoreLoop_rep (P := den C p) (Parse_failsBack p) _ _ _ hv]
      exact Lim.bind (repeatAll_lim _ _) fun _ => Lim.const _)
  rw [hl, M.bind_assoc]
  refine M.bind_congr fun x => ?_
  obtain ⟨d', hd', _, hb⟩ := collect_vectorValue (C := C) (resultFor C p) x.1
  rw [hd, Option.some.injEq] at hd'
  subst hd'
  rw [M.pure_bind, hb]

theorem Parse_oneOrMore_eq (p : Parser α) (s : Span) :
    Parse C (.oneOrMore p) s =
      M.bind (repeatAll (stepOf (Parse C p)) s) fun x =>
        M.pure ⟨if x.1 = [] then none else some (vectorValue (resultFor C p) x.1), x.2⟩ := by
  rw [Parse_oneOrMore]
  have hT : resultFor C (.oneOrMore p) = voidOr .vec (resultFor C p) := by rw [resultFor]
  rw [hT]
  obtain ⟨d, hd, hv, _⟩ := collect_vectorValue (C := C) (resultFor C p) []
  simp only [builderInit, hd, M.ofOption, M.pure_bind]
  have hl : oomLoop (voidOr .vec (resultFor C p)) (den C p) false s d =
      M.bind (repeatAll (stepOf (Parse C p)) s) fun x =>
        M.pure (false || !x.1.isEmpty, x.2, collect (voidOr .vec (resultFor C p)) d x.1) :=
    (oomLoop_lim false s d).unique (by
      simp only [oneOrMoreLoop_rep (P := den C p) (Parse_failsBack p) _ _ _ _ hv]
      exact Lim.bind (repeatAll_lim _ _) fun _ => Lim.const _)
  rw [hl, M.bind_assoc]
  refine M.bind_congr fun x => ?_
  obtain ⟨d', hd', _, hb⟩ := collect_vectorValue (C := C) (resultFor C p) x.1
  rw [hd, Option.some.injEq] at hd'
  subst hd'
  rw [M.pure_bind, hb]
  cases x.1 <;> simp [R.failure]

theorem Look_zeroOrMore_eq (p : Parser α) (s : Span) :
    Look C (.zeroOrMore p) s =
      M.bind (repeatAll (stepOf (Look C p)) s) fun x => M.pure ⟨some .unit, x.2⟩ := by
  rw [Look_zeroOrMore]
  have hl : lookZomLoop (den C p) s = M.bind (repeatAll (stepOf (Look C p)) s) fun x => M.pure x.2 :=
    (lookZomLoop_lim s).unique (by
      simp only [lookZeroOrMoreLoop_rep (P := den C p) (Look_failsBack p)]
      exact Lim.bind (f := fun _ (x : List Val × Span) => M.pure x.2) (g := fun x => M.pure x.2)
        (repeatAll_lim _ _) fun _ => Lim.const _)
  rw [hl, M.bind_assoc]
  exact M.bind_congr fun x => by rw [M.pure_bind]; rfl

theorem Look_oneOrMore_eq (p : Parser α) (s : Span) :
    Look C (.oneOrMore p) s =
      M.bind (repeatAll (stepOf (Look C p)) s) fun x =>
        M.pure ⟨if x.1 = [] then none else some .unit, x.2⟩ := by
  rw [Look_oneOrMore]
  have hl : lookOomLoop (den C p) false s =
      M.bind (repeatAll (stepOf (Look C p)) s) fun x => M.pure (false || !x.1.isEmpty, x.2) :=
    (lookOomLoop_lim false s).unique (by
      simp only [lookOneOrMoreLoop_rep (P := den C p) (Look_failsBack p)]
      exact Lim.bind (repeatAll_lim _ _) fun _ => Lim.const _)
  rw [hl, M.bind_assoc]
  refine M.bind_congr fun x => ?_
  rw [M.pure_bind]
  cases x.1 <;> simp [R.failure, R.successVoid]

theorem delimit_start (tp td : Ty) :
    ∃ d, defaultVal C (delimitTy tp td) = some d ∧ Holds tp td d ∧
      ∀ vs ds s, builderBuild (delimitTy tp td) (collect2 tp td d ds vs) s = ⟨some (delimitValue tp td vs ds), s⟩ := by
  by_cases ht : td = .void <;> by_cases hp : tp = .void
  · refine ⟨.unit, ?_, ?_, ?_⟩ <;>
      simp [delimitTy, ht, hp, defaultVal, Holds, builderBuild, R.successVoid, delimitValue, vectorValue]
  · refine ⟨.vec [], ?_, ?_, ?_⟩ <;>
      simp [delimitTy, ht, hp, defaultVal, Holds, builderBuild, R.success, delimitValue, vectorValue, collect2]
  · refine ⟨.vec [], ?_, ?_, ?_⟩ <;>
      simp [delimitTy, ht, hp, defaultVal, Holds, builderBuild, R.success, delimitValue, collect2]
  · refine ⟨.pair (.vec []) (.vec []), ?_, ?_, ?_⟩ <;>
      simp [delimitTy, ht, hp, defaultVal, Holds, builderBuild, R.success, delimitValue, collect2]

theorem Parse_delimit_eq (p d : Parser α) (s : Span) :
    Parse C (.delimit p d) s =
      M.bind (Parse C p s) fun r => match r.val with
        | none => M.pure ⟨none, s⟩
        | some v => M.bind (repeatAll (stepPair (Parse C d) (Parse C p)) r.rem) fun x =>
          M.pure ⟨some (delimitValue (resultFor C p) (resultFor C d) (v :: x.1.map (·.2)) (x.1.map (·.1))), x.2⟩ := by
  rw [Parse_delimit]
  have hT : resultFor C (.delimit p d) = delimitTy (resultFor C p) (resultFor C d) := by rw [resultFor]
  rw [hT]
  obtain ⟨v0, hd, hv, hb⟩ := delimit_start (C := C) (resultFor C p) (resultFor C d)
  simp only [builderInit, hd, M.ofOption, M.pure_bind]
  refine M.bind_congr fun r => ?_
  obtain ⟨rv, rr⟩ := r
  cases rv with
  | none => simp [R.hasValue, R.failure]
  | some w =>
    simp only [R.hasValue, Option.isSome_some, Bool.not_true, Bool.false_eq_true, ↓reduceIte]
    rw [dlmLoop_repeat _ _ _ _ hv, M.bind_assoc]
    exact M.bind_congr fun x => by rw [M.pure_bind, hb]

theorem Look_delimit_eq (p d : Parser α) (s : Span) :
    Look C (.delimit p d) s =
      M.bind (Look C p s) fun r => match r.val with
        | none => M.pure ⟨none, s⟩
        | some _ => M.bind (repeatAll (stepPair (Look C d) (Look C p)) r.rem) fun x =>
          M.pure ⟨some .unit, x.2⟩ := by
  rw [Look_delimit]
  refine M.bind_congr fun r => ?_
  obtain ⟨rv, rr⟩ := r
  cases rv with
  | none => simp [R.hasValue, R.failure]
  | some w =>
    simp only [R.hasValue, Option.isSome_some, Bool.not_true, Bool.false_eq_true, ↓reduceIte]
    rw [lookDlmLoop_repeat, M.bind_assoc]
    exact M.bind_congr fun x => by rw [M.pure_bind]; rfl

/-! ### exactly -/

theorem exactlyLoop_void {P : Sub} (s0 : Span) (n i : Nat) (s : Span) :
    exactlyLoop .void P s0 n i s .unit =
      allOrNothing s0 (fun _ => .unit) (inOrder (List.replicate n P.parse) s) := by
  induction n generalizing i s with
  | zero => rfl
  | succ n ih =>
    simp only [exactlyLoop, List.replicate_succ, inOrder, allOrNothing, M.bind_eq]
    rw [M.bind_assoc]
    refine M.bind_congr fun r => ?_
    obtain ⟨rv, rr⟩ := r
    cases rv with
    | none => simp [R.hasValue, M.pure_bind, R.failure]
    | some w =>
      simp only [R.hasValue, Option.isSome_some, Bool.not_true, Bool.false_eq_true, ↓reduceIte,
        builderArrayAssign, M.pure_bind]
      rw [ih, allOrNothing, M.bind_assoc]
      refine M.bind_congr fun x => ?_
      rw [M.pure_bind]
      cases x <;> rfl

theorem exactlyLoop_arr {T : Ty} (hT : T ≠ .void) {P : Sub} (s0 : Span) (n : Nat) (s : Span) (ws us : List Val)
    (hu : us.length = n) :
    exactlyLoop T P s0 n ws.length s (.arr (ws ++ us)) =
      allOrNothing s0 (fun vs => .arr (ws ++ vs)) (inOrder (List.replicate n P.parse) s) := by
  induction n generalizing s ws us with
  | zero =>
    cases us with
    | nil => simp [exactlyLoop, inOrder, allOrNothing, M.pure_bind, builderBuild, hT, R.success]
    | cons u us => simp at hu
  | succ n ih =>
    cases us with
    | nil => simp at hu
    | cons u us =>
      simp only [exactlyLoop, List.replicate_succ, inOrder, allOrNothing, M.bind_eq]
      rw [M.bind_assoc]
      refine M.bind_congr fun r => ?_
      obtain ⟨rv, rr⟩ := r
      cases rv with
      | none => simp [R.hasValue, M.pure_bind, R.failure]
      | some w =>
        simp only [R.hasValue, Option.isSome_some, Bool.not_true, Bool.false_eq_true, ↓reduceIte,
          builderArrayAssign, M.pure_bind, hT, R.deref, M.bind_eq, List.length_append, List.length_cons]
        rw [if_pos (by omega), M.pure_bind]
        have hset : (ws ++ u :: us).set ws.length w = (ws ++ [w]) ++ us := by
          rw [List.set_append_right _ _ (Nat.le_refl _)]; simp
        have hlen : ws.length + 1 = (ws ++ [w]).length := by simp
        rw [hset, hlen, ih _ _ _ (by simpa using hu), allOrNothing, M.bind_assoc]
        refine M.bind_congr fun x => ?_
        rw [M.pure_bind]
        cases x <;> simp

theorem Parse_exactly_eq {p : Parser α} {n : Nat} (hp : parseOK C (.exactly p n) = true) (s : Span) :
    Parse C (.exactly p n) s =
      allOrNothing s (arrayValue (resultFor C p)) (inOrder (List.replicate n (Parse C p)) s) := by
  rw [Parse_exactly, parseExactly]
  have hT : resultFor C (.exactly p n) = voidOr (.arr · n) (resultFor C p) := by rw [resultFor]
  rw [hT]
  by_cases h : resultFor C p = .void
  · simp only [voidOr, h, ↓reduceIte, builderInit, defaultVal, M.ofOption, M.bind_eq, M.pure_bind]
    rw [exactlyLoop_void]
    congr 1
  · simp only [parseOK, Bool.and_eq_true] at hp
    have hd : ∃ d, defaultVal C (resultFor C p) = some d := by
      simpa [voidOr, h, defaultVal, Option.isSome_iff_exists] using hp.2
    obtain ⟨d, hd⟩ := hd
    simp only [voidOr, h, ↓reduceIte, builderInit, defaultVal, hd, Option.map_some, M.ofOption, M.bind_eq,
      M.pure_bind]
    have := exactlyLoop_arr (T := .arr (resultFor C p) n) (by nofun) (P := den C p) s n s [] (List.replicate n d)
      (by simp)
    simp only [List.length_nil, List.nil_append] at this
    rw [this]
    congr 1
    funext vs
    simp [arrayValue, h]

theorem Look_exactly_eq (p : Parser α) (n : Nat) (s : Span) :
    Look C (.exactly p n) s =
      allOrNothing s (fun _ => .unit) (inOrder (List.replicate n (Look C p)) s) := by
  rw [Look_exactly, lookExactly]
  suffices h : ∀ s0, lookExactlyLoop (den C p) s0 n s =
      allOrNothing s0 (fun _ => .unit) (inOrder (List.replicate n (Look C p)) s) from h s
  intro s0
  induction n generalizing s with
  | zero => rfl
  | succ n ih =>
    simp only [lookExactlyLoop, List.replicate_succ, inOrder, allOrNothing, M.bind_eq]
    rw [M.bind_assoc]
    refine M.bind_congr fun r => ?_
    obtain ⟨rv, rr⟩ := r
    cases rv with
    | none => simp [R.hasValue, M.pure_bind, R.failure]
    | some w =>
      simp only [R.hasValue, Option.isSome_some, Bool.not_true, Bool.false_eq_true, ↓reduceIte]
      rw [ih, allOrNothing, M.bind_assoc]
      refine M.bind_congr fun x => ?_
      rw [M.pure_bind]
      cases x <;> rfl

end Tok3n

namespace Tok3n

variable {α β : Type} {C : Ctx α β}

/-! ### Verdicts of repetitions -/

section
variable {A B : Type}

/-- what a repetition says about the input -/
def bareV : Run (List A × Span) → Verdict
  | .diverge => .loop
  | .done _ (.err e) => .error e
  | .done _ (.ok x) => .accept x.2

/-- what a step says about the input -/
def stepV : Run (Option (A × Span)) → Verdict
  | .diverge => .loop
  | .done _ (.err e) => .error e
  | .done _ (.ok none) => .reject
  | .done _ (.ok (some x)) => .accept x.2

theorem bareV_after (l : List Call) (m : Run (List A × Span)) : bareV (m.after l) = bareV m := by
  cases m with
  | diverge => rfl
  | done l' r => cases r <;> rfl

def repV (V : Span → Verdict) : Nat → Span → Verdict
  | 0, _ => .loop
  | n + 1, s => match V s with
    | .accept s' => repV V n s'
    | .reject => .accept s
    | .error e => .error e
    | .loop => .loop

theorem bareV_rep (step : Step A) (n : Nat) (s : Span) :
    bareV (rep step n s) = repV (fun s => stepV (step s)) n s := by
  induction n generalizing s with
  | zero => rfl
  | succ n ih =>
    rw [rep, repV]
    cases hs : step s with
    | diverge => rfl
    | done l r =>
      cases r with
      | err e => rfl
      | ok x =>
        cases x with
        | none => rfl
        | some x =>
          obtain ⟨a, s'⟩ := x
          show bareV (M.after l (M.bind (rep step n s') fun x => M.pure (a :: x.1, x.2))) = repV (fun s => stepV (step s)) n s'
          rw [bareV_after, ← ih]
          cases rep step n s' with
          | diverge => rfl
          | done l r => cases r <;> rfl

theorem repV_congr {V W : Span → Verdict} {I : Span → Prop} (h : ∀ s, I s → V s = W s)
    (hI : ∀ s s', I s → V s = .accept s' → I s') (n : Nat) {s : Span} (hs : I s) : repV V n s = repV W n s := by
  induction n generalizing s with
  | zero => rfl
  | succ n ih =>
    rw [repV, repV, ← h s hs]
    cases hv : V s with
    | accept s' => exact ih (hI _ _ hs hv)
    | _ => rfl

theorem bareV_repeatAll_le {step : Step A} {step' : Step B} {I : Span → Prop}
    (h : ∀ s, I s → stepV (step s) = stepV (step' s)) (hI : ∀ s s', I s → stepV (step s) = .accept s' → I s')
    {s : Span} (hs : I s) (hd : repeatAll step s ≠ .diverge) :
    bareV (repeatAll step s) = bareV (repeatAll step' s) := by
  cases hr : repeatAll step s with
  | diverge => exact absurd hr hd
  | done l r =>
    obtain ⟨n, hn⟩ := ((repeatAll_lim step s).iff _ _).1 hr
    have h1 := bareV_rep step n s
    rw [repV_congr h hI n hs, ← bareV_rep step' n s, hn] at h1
    rw [h1]
    have hle := (repeatAll_lim step' s).le n
    cases hr' : rep step' n s with
    | diverge => rw [hr'] at h1; cases r <;> simp [bareV] at h1
    | done l' r' => rw [hle.done hr']

/-- The verdict of a repetition depends on the verdicts of its steps only. -/
theorem bareV_repeatAll {step : Step A} {step' : Step B} {I : Span → Prop}
    (h : ∀ s, I s → stepV (step s) = stepV (step' s)) (hI : ∀ s s', I s → stepV (step s) = .accept s' → I s')
    {s : Span} (hs : I s) : bareV (repeatAll step s) = bareV (repeatAll step' s) := by
  by_cases hd : repeatAll step s = .diverge
  · by_cases hd' : repeatAll step' s = .diverge
    · rw [hd, hd']; rfl
    · exact (bareV_repeatAll_le (fun s hs => (h s hs).symm) (fun s s' hs hv => hI s s' hs (by rw [h s hs, hv])) hs hd').symm
  · exact bareV_repeatAll_le h hI hs hd

end

theorem stepV_stepOf (run : Span → Run R) (s : Span) : stepV (stepOf run s) = verdict (run s) := by
  unfold stepOf
  cases run s with
  | diverge => rfl
  | done l r =>
    cases r with
    | err e => rfl
    | ok r => obtain ⟨rv, rr⟩ := r; cases rv <;> rfl

theorem stepV_stepPair (D P : Span → Run R) (s : Span) :
    stepV (stepPair D P s) = (verdict (D s)).andThen fun s => verdict (P s) := by
  unfold stepPair
  cases D s with
  | diverge => rfl
  | done l r =>
    cases r with
    | err e => rfl
    | ok r =>
      obtain ⟨rv, rr⟩ := r
      cases rv with
      | none => rfl
      | some v =>
        simp only [M.ok_bind]
        show _ = verdict (P rr)
        cases P rr with
        | diverge => rfl
        | done l r =>
          cases r with
          | err e => rfl
          | ok r => obtain ⟨rv, rr⟩ := r; cases rv <;> rfl

theorem verdict_bind_bare {A : Type} (m : Run (List A × Span)) (f : List A → Val) :
    verdict (M.bind m fun x => M.pure ⟨some (f x.1), x.2⟩) = bareV m := by
  cases m with
  | diverge => rfl
  | done l r => cases r <;> rfl

theorem verdict_oom {run : Span → Run R} (f : List Val → Val) (s : Span) :
    verdict (M.bind (repeatAll (stepOf run) s) fun x => M.pure ⟨if x.1 = [] then none else some (f x.1), x.2⟩) =
      (verdict (run s)).andThen fun s => bareV (repeatAll (stepOf run) s) := by
  rw [repeatAll_eq, stepOf, M.bind_assoc, M.bind_assoc]
  cases run s with
  | diverge => rfl
  | done l r =>
    cases r with
    | err e => rfl
    | ok r =>
      rw [verdict_bind_ok, M.pure_bind]
      obtain ⟨rv, rr⟩ := r
      cases rv with
      | none => rfl
      | some v =>
        rw [verdict_some]
        show verdict (M.bind (M.bind (repeatAll (stepOf run) rr) _) _) = bareV (repeatAll (stepOf run) rr)
        rw [M.bind_assoc]
        cases repeatAll (stepOf run) rr with
        | diverge => rfl
        | done l r => cases r <;> rfl

theorem parseVerdict_zeroOrMore (p : Parser α) (s : Span) :
    parseVerdict C (.zeroOrMore p) s = bareV (repeatAll (stepOf (Parse C p)) s) := by
  rw [parseVerdict, Parse_zeroOrMore_eq, verdict_bind_bare _ (vectorValue _)]

theorem lookVerdict_zeroOrMore (p : Parser α) (s : Span) :
    lookVerdict C (.zeroOrMore p) s = bareV (repeatAll (stepOf (Look C p)) s) := by
  rw [lookVerdict, Look_zeroOrMore_eq, verdict_bind_bare _ fun _ => .unit]

theorem LookaheadExact.zeroOrMore {p : Parser α} (h : LookaheadExact C p) : LookaheadExact C (.zeroOrMore p) := by
  intro s
  rw [lookVerdict_zeroOrMore, parseVerdict_zeroOrMore]
  exact bareV_repeatAll (I := fun _ => True) (fun s _ => by rw [stepV_stepOf, stepV_stepOf]; exact h s)
    (fun _ _ _ _ => trivial) trivial

theorem partVerdict_zeroOrMore (p : Parser α) (s : Span) :
    partVerdict C (.zeroOrMore p) s = bareV (repeatAll (stepOf (partRun C p)) s) := by
  have hT : resultFor C (.zeroOrMore p) = .void ↔ resultFor C p = .void := by
    rw [resultFor, voidOr]; split <;> simp_all
  by_cases hv : resultFor C p = .void
  · rw [partVerdict_look (hT.2 hv), lookVerdict_zeroOrMore]
    congr 3; funext s; rw [partRun, if_pos hv]
  · rw [partVerdict_parse (fun h => hv (hT.1 h)), parseVerdict_zeroOrMore]
    congr 3; funext s; rw [partRun, if_neg hv]

theorem parseVerdict_delimit (p d : Parser α) (s : Span) :
    parseVerdict C (.delimit p d) s = (parseVerdict C p s).andThen fun s =>
      bareV (repeatAll (stepPair (Parse C d) (Parse C p)) s) := by
  rw [parseVerdict, Parse_delimit_eq, parseVerdict]
  cases Parse C p s with
  | diverge => rfl
  | done l r =>
    cases r with
    | err e => rfl
    | ok r =>
      obtain ⟨rv, rr⟩ := r
      cases rv with
      | none => rfl
      | some v =>
        rw [verdict_bind_ok]
        exact verdict_bind_bare _ fun (ys : List (Val × Val)) =>
          delimitValue _ _ (v :: ys.map (·.2)) (ys.map (·.1))

theorem lookVerdict_delimit (p d : Parser α) (s : Span) :
    lookVerdict C (.delimit p d) s = (lookVerdict C p s).andThen fun s =>
      bareV (repeatAll (stepPair (Look C d) (Look C p)) s) := by
  rw [lookVerdict, Look_delimit_eq, lookVerdict]
  cases Look C p s with
  | diverge => rfl
  | done l r =>
    cases r with
    | err e => rfl
    | ok r =>
      obtain ⟨rv, rr⟩ := r
      cases rv with
      | none => rfl
      | some v =>
        rw [verdict_bind_ok]
        exact verdict_bind_bare _ fun _ => .unit

/-- A step that comes back to where it started is taken again and again. -/
theorem repeatAll_stuck {A : Type} {step : Step A} {s s1 : Span} {l l' xs x} (hc : Chain step s l xs s1)
    (hs : step s1 = .done l' (.ok (some (x, s1)))) : repeatAll step s = .diverge := by
  have h1 : repeatAll step s1 = .diverge := by
    refine repeatAll_diverge.2 (.inr fun n => ?_)
    induction n with
    | zero => exact ⟨[], [], s1, rfl, .nil⟩
    | succ n ih =>
      obtain ⟨l, xs, s', rfl, h⟩ := ih
      exact ⟨_, x :: xs, s', rfl, .cons hs h⟩
  rw [repeatAll_chain hc, h1]
  simp

/-! ### Outcomes of repetitions -/

theorem Parses_zeroOrMore {p : Parser α} {s : Span} {log w s'} :
    Parses C (.zeroOrMore p) s log w s' ↔
      ∃ l l' vs, Chain (stepOf (Parse C p)) s l vs s' ∧ ParseFails C p s' l' s' ∧ log = l ++ l' ∧
        w = vectorValue (resultFor C p) vs := by
  rw [Parses, Parse_zeroOrMore_eq, M.bind_eq_ok]
  constructor
  · rintro ⟨l1, l2, ⟨vs, s1⟩, h1, h2, rfl⟩
    simp only [M.pure_eq_ok, R.mk.injEq, Option.some.injEq] at h2
    obtain ⟨rfl, rfl, rfl⟩ := h2
    obtain ⟨l, l', hc, hn, rfl⟩ := repeatAll_ok.1 h1
    obtain ⟨s2, hf⟩ := stepOf_none.1 hn
    cases Parse_failsBack p _ _ _ hf
    exact ⟨l, l', vs, hc, hf, by simp, rfl⟩
  · rintro ⟨l, l', vs, hc, hf, rfl, rfl⟩
    exact ⟨l ++ l', [], (vs, s'), repeatAll_ok.2 ⟨l, l', hc, stepOf_none.2 ⟨s', hf⟩, rfl⟩, rfl, by simp⟩

theorem Looks_zeroOrMore {p : Parser α} {s : Span} {log s'} :
    Looks C (.zeroOrMore p) s log s' ↔
      ∃ l l' vs, Chain (stepOf (Look C p)) s l vs s' ∧ LookFails C p s' l' s' ∧ log = l ++ l' := by
  rw [Looks, Look_zeroOrMore_eq, M.bind_eq_ok]
  constructor
  · rintro ⟨l1, l2, ⟨vs, s1⟩, h1, h2, rfl⟩
    simp only [M.pure_eq_ok, R.mk.injEq, true_and] at h2
    obtain ⟨rfl, rfl⟩ := h2
    obtain ⟨l, l', hc, hn, rfl⟩ := repeatAll_ok.1 h1
    obtain ⟨s2, hf⟩ := stepOf_none.1 hn
    cases Look_failsBack p _ _ _ hf
    exact ⟨l, l', vs, hc, hf, by simp⟩
  · rintro ⟨l, l', vs, hc, hf, rfl⟩
    exact ⟨l ++ l', [], (vs, s'), repeatAll_ok.2 ⟨l, l', hc, stepOf_none.2 ⟨s', hf⟩, rfl⟩, rfl, by simp⟩

/-- errors and endless loops of `*p`, `+p` are those of the repetition -/
theorem bind_pure_err {A B : Type} {m : Run A} {f : A → B} {log e} :
    M.bind m (fun x => M.pure (f x)) = .done log (.err e) ↔ m = .done log (.err e) := by
  rw [M.bind_eq_err]
  constructor
  · rintro (h | ⟨_, _, _, _, h, _⟩)
    · exact h
    · simp at h
  · exact .inl

theorem bind_pure_diverge {A B : Type} {m : Run A} {f : A → B} :
    M.bind m (fun x => M.pure (f x)) = .diverge ↔ m = .diverge := by
  rw [M.bind_eq_diverge]
  constructor
  · rintro (h | ⟨_, _, _, h⟩)
    · exact h
    · simp at h
  · exact .inl

theorem repeatAll_stepOf_err {run : Span → Run R} {s : Span} {log e} :
    repeatAll (stepOf run) s = .done log (.err e) ↔
      ∃ n l l' vs s1, InTurn (List.replicate n run) s l vs s1 ∧ run s1 = .done l' (.err e) ∧ log = l ++ l' := by
  rw [repeatAll_err]
  constructor
  · rintro ⟨l, l', vs, s1, hc, he, rfl⟩
    exact ⟨_, l, l', vs, s1, chain_inTurn.1 hc, stepOf_err.1 he, rfl⟩
  · rintro ⟨n, l, l', vs, s1, hc, he, rfl⟩
    have hn := hc.length
    simp only [List.length_replicate] at hn
    subst hn
    exact ⟨l, l', vs, s1, chain_inTurn.2 hc, stepOf_err.2 he, rfl⟩

theorem repeatAll_stepOf_diverge {run : Span → Run R} {s : Span} :
    repeatAll (stepOf run) s = .diverge ↔
      (∃ n l vs s1, InTurn (List.replicate n run) s l vs s1 ∧ run s1 = .diverge) ∨
      ∀ n, ∃ l vs s1, InTurn (List.replicate n run) s l vs s1 := by
  rw [repeatAll_diverge]
  refine or_congr ?_ (forall_congr' fun n => ?_)
  · constructor
    · rintro ⟨l, vs, s1, hc, he⟩
      exact ⟨_, l, vs, s1, chain_inTurn.1 hc, stepOf_diverge.1 he⟩
    · rintro ⟨n, l, vs, s1, hc, he⟩
      have hn := hc.length
      simp only [List.length_replicate] at hn
      subst hn
      exact ⟨l, vs, s1, chain_inTurn.2 hc, stepOf_diverge.2 he⟩
  · constructor
    · rintro ⟨l, vs, s1, rfl, hc⟩
      exact ⟨l, vs, s1, chain_inTurn.1 hc⟩
    · rintro ⟨l, vs, s1, hc⟩
      have hn := hc.length
      simp only [List.length_replicate] at hn
      subst hn
      exact ⟨l, vs, s1, rfl, chain_inTurn.2 hc⟩

theorem exists_chain {run : Span → Run R} {s s' : Span} {P : List Call → List Val → Prop} :
    (∃ l vs, Chain (stepOf run) s l vs s' ∧ P l vs) ↔
      ∃ n l vs, InTurn (List.replicate n run) s l vs s' ∧ P l vs := by
  constructor
  · rintro ⟨l, vs, hc, hp⟩
    exact ⟨_, l, vs, chain_inTurn.1 hc, hp⟩
  · rintro ⟨n, l, vs, hc, hp⟩
    have hn := hc.length
    simp only [List.length_replicate] at hn
    subst hn
    exact ⟨l, vs, chain_inTurn.2 hc, hp⟩

theorem noEndlesses_append {ps qs : List (Parser α)} :
    Parser.noEndlesses (ps ++ qs) = (Parser.noEndlesses ps && Parser.noEndlesses qs) := by
  induction ps with
  | nil => simp [Parser.noEndlesses]
  | cons p ps ih => simp [Parser.noEndlesses, ih, Bool.and_assoc]

end Tok3n
