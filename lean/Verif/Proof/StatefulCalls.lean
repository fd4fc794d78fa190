import Verif.Proof.StatefulTracks
import Verif.Proof.Agree
import Verif.Spec.Modify
/-
The order in which the parts of a compound run, and the states they run in.
-/

namespace Tok3n.Stateful

variable {σ α β A B : Type} {C : Ctx α β} {U : Callbacks σ}

theorem bind_ok {m : SRun σ A} {f : A → SRun σ B} {st : σ} {l : List Call} {y : B × σ} :
    (m >>= f) st = .done l (.ok y) ↔
      ∃ l1 l2 a st1, m st = .done l1 (.ok (a, st1)) ∧ f a st1 = .done l2 (.ok y) ∧ l = l1 ++ l2 := by
  change M.bind (m st) (fun x => f x.1 x.2) = _ ↔ _
  rw [M.bind_eq_ok]
  constructor
  · rintro ⟨l1, l2, ⟨a, st1⟩, h1, h2, h3⟩; exact ⟨l1, l2, a, st1, h1, h2, h3⟩
  · rintro ⟨l1, l2, a, st1, h1, h2, h3⟩; exact ⟨l1, l2, (a, st1), h1, h2, h3⟩

theorem pure_ok {a : A} {st : σ} {l : List Call} {y : A × σ} :
    (SRun.pure a : SRun σ A) st = .done l (.ok y) ↔ l = [] ∧ y = (a, st) := by
  constructor
  · intro h; cases h; exact ⟨rfl, rfl⟩
  · rintro ⟨rfl, rfl⟩; rfl

theorem lift_ok {m : Run A} {st : σ} {l : List Call} {y : A × σ} :
    (SRun.lift m : SRun σ A) st = .done l (.ok y) ↔ m = .done l (.ok y.1) ∧ y.2 = st := by
  change M.bind m (fun a => M.pure (a, st)) = _ ↔ _
  rw [M.bind_eq_ok]
  constructor
  · rintro ⟨l1, l2, a, h1, h2, rfl⟩; cases h2; simpa using h1
  · obtain ⟨a, st'⟩ := y
    rintro ⟨h1, rfl⟩; exact ⟨l, [], a, h1, rfl, by simp⟩

/-- a calm step logs nothing and leaves the state -/
theorem calm_ok {m : Run A} (hm : Calm A m) {st : σ} {l : List Call} {y : A × σ}
    (h : (SRun.lift m : SRun σ A) st = .done l (.ok y)) : l = [] ∧ y.2 = st ∧ m = .done [] (.ok y.1) := by
  obtain ⟨h1, h2⟩ := lift_ok.1 h
  obtain ⟨rfl, -⟩ := hm _ _ h1
  exact ⟨rfl, h2, h1⟩

theorem Look_calm (p : Parser α) (s : Span) : Calm _ (Tok3n.Look C p s) := Look_closed calm_closed p s

/-! ### The equations of the loop-free bodies -/

theorem Lim.eq_const {m : SRun σ A} {a : SRun σ A} (h : Lim (fun _ => m) a) : a = m := h.unique (.const m)

theorem lim_const (m : SRun σ A) : lim (fun _ => m) = m :=
  (Mono.lim fun _ => SRun.le_refl m).unique (.const m)

theorem Parse_choice (ps : List (Parser α)) (s : Span) :
    Parse C U (.choice ps) s = parseChoice C (choiceTrait (resultsFor C ps))
      (mkElems (den C U) C ps (choiceTrait (resultsFor C ps)).seq) s := by
  rw [Parse_eq]; exact lim_const _
theorem Parse_sequence (ps : List (Parser α)) (s : Span) :
    Parse C U (.sequence ps) s = parseSequence C (sequenceTrait (resultsFor C ps))
      (mkElems (den C U) C ps (sequenceTrait (resultsFor C ps)).seq) s := by
  rw [Parse_eq]; exact lim_const _
theorem Parse_maybe (p : Parser α) (s : Span) :
    Parse C U (.maybe p) s = parseMaybe C (resultFor C (.maybe p)) (den C U p) s := by
  rw [Parse_eq]; exact lim_const _
theorem Parse_exactly (p : Parser α) (n : Nat) (s : Span) :
    Parse C U (.exactly p n) s = parseExactly C (resultFor C (.exactly p n)) n (den C U p) s := by
  rw [Parse_eq]; exact lim_const _
theorem Parse_map (p : Parser α) (f : Fn) (s : Span) :
    Parse C U (.map p f) s = parseMap C U (resultFor C p) (resultFor C (.map p f)) f (den C U p) s := by
  rw [Parse_eq]; exact lim_const _
theorem Parse_filter (p : Parser α) (f : Fn) (s : Span) :
    Parse C U (.filter p f) s = parseFilter C U (resultFor C p) f (den C U p) s := by
  rw [Parse_eq]; exact lim_const _

/-! ### Calls of the user's functions -/

/-- one call of a function of the user -/
theorem invoke_user_eq (C : Ctx α β) (U : Callbacks σ) (k : Nat) (args : List Val) (st : σ) :
    invoke C U (.user k) args st = match U.fnCall k args st with
      | (.ok x, st') => .done [⟨.user k, args⟩] (.ok (x, st'))
      | (.error e, _) => .done [⟨.user k, args⟩] (.err (.exn e)) := by
  simp only [invoke, answer, M.bind_eq, M.log, M.bind]
  rcases U.fnCall k args st with ⟨e | x, st'⟩ <;> rfl

theorem argVals_some (t : Ty) (v : Val) (s : Span) : argVals t ⟨some v, s⟩ = M.pure (argsOf t v) := by
  unfold argVals argsOf
  split <;> rfl

theorem Parse_map_eq (C : Ctx α β) (U : Callbacks σ) (p : Parser α) (f : Fn) (s : Span) (st : σ) :
    Parse C U (.map p f) s st = M.bind (Parse C U p s st) fun x =>
      match x.1.val with
      | none => M.pure (R.failure s, x.2)
      | some v => M.bind (invoke C U f (argsOf (resultFor C p) v) x.2) fun y =>
          M.pure (⟨some (returned (resultFor C (.map p f)) y.1), x.1.rem⟩, y.2) := by
  rw [Parse_map]
  show M.bind (Parse C U p s st) _ = _
  refine M.bind_congr fun x => ?_
  obtain ⟨⟨_ | v, t⟩, st1⟩ := x
  · rfl
  · simp only [R.hasValue, Option.isSome_some, Bool.not_true, Bool.false_eq_true, if_false, liftM_eq, argVals_some,
      lift_pure, pure_bind]
    show M.bind _ _ = _
    refine M.bind_congr fun y => ?_
    unfold returned
    split <;> rfl

theorem Parse_filter_eq (C : Ctx α β) (U : Callbacks σ) (p : Parser α) (f : Fn) (s : Span) (st : σ) :
    Parse C U (.filter p f) s st = M.bind (Parse C U p s st) fun x =>
      match x.1.val with
      | none => M.pure (R.failure s, x.2)
      | some v => M.bind (invoke C U f (argsOf (resultFor C p) v) x.2) fun y =>
          M.pure (if C.truthy y.1 = true then ⟨some v, x.1.rem⟩ else R.failure s, y.2) := by
  rw [Parse_filter]
  show M.bind (Parse C U p s st) _ = _
  refine M.bind_congr fun x => ?_
  obtain ⟨⟨_ | v, t⟩, st1⟩ := x
  · rfl
  · simp only [R.hasValue, Option.isSome_some, Bool.not_true, Bool.false_eq_true, if_false, liftM_eq, argVals_some,
      lift_pure, pure_bind]
    show M.bind _ _ = _
    refine M.bind_congr fun y => ?_
    by_cases hy : C.truthy y.1 = true <;> simp only [hy, if_true, if_false, Bool.false_eq_true] <;> rfl

theorem invoke_user_ok {C : Ctx α β} {U : Callbacks σ} {k : Nat} {args : List Val} {st : σ} {l x st'} :
    invoke C U (.user k) args st = .done l (.ok (x, st')) ↔ l = [⟨.user k, args⟩] ∧ U.fnCall k args st = (.ok x, st') := by
  rw [invoke_user_eq]
  rcases U.fnCall k args st with ⟨e | y, st1⟩ <;> simp [eq_comm]

theorem invoke_user_err {C : Ctx α β} {U : Callbacks σ} {k : Nat} {args : List Val} {st : σ} {l e} :
    invoke C U (.user k) args st = .done l (.err e) ↔
      l = [⟨.user k, args⟩] ∧ ∃ x, (U.fnCall k args st).1 = .error x ∧ e = .exn x := by
  rw [invoke_user_eq]
  rcases U.fnCall k args st with ⟨e | y, st1⟩ <;> simp [eq_comm]
theorem invoke_user_diverge {C : Ctx α β} {U : Callbacks σ} {k : Nat} {args : List Val} {st : σ} :
    invoke C U (.user k) args st ≠ .diverge := by
  rw [invoke_user_eq]
  rcases U.fnCall k args st with ⟨e | y, st1⟩ <;> simp

/-! ### Loops -/

theorem lim_done {m : Nat → SRun σ A} (hm : Mono m) {st : σ} {l r} :
    lim m st = .done l r ↔ ∃ k, m k st = .done l r := (hm.lim st).iff l r

theorem delimitRecordP_calm (T tp td : Ty) (w : Val) (r : R) : Calm _ (delimitRecordP T tp td w r) := by
  have H := calm_closed
  have h3 := builderInsertBack_closed (T := T) H
  have h4 := builderInsertBackFirst_closed (T := T) H
  unfold delimitRecordP; closed H
theorem delimitRecordD_calm (T tp td : Ty) (w : Val) (r r' : R) : Calm _ (delimitRecordD T tp td w r r') := by
  have H := calm_closed
  have h3 := builderInsertBack_closed (T := T) H
  have h4 := builderInsertBackFirst_closed (T := T) H
  have h5 := builderInsertBackSecond_closed (T := T) H
  unfold delimitRecordD; closed H

theorem Parse_zeroOrMore (p : Parser α) (s : Span) :
    Parse C U (.zeroOrMore p) s = lim fun k => parseZeroOrMore C (resultFor C (.zeroOrMore p)) (den C U p) k s :=
  Parse_eq _ _
theorem Parse_oneOrMore (p : Parser α) (s : Span) :
    Parse C U (.oneOrMore p) s = lim fun k => parseOneOrMore C (resultFor C (.oneOrMore p)) (den C U p) k s :=
  Parse_eq _ _
theorem Parse_delimit (p d : Parser α) (s : Span) :
    Parse C U (.delimit p d) s = lim fun k =>
      parseDelimit C (resultFor C (.delimit p d)) (resultFor C p) (resultFor C d) (den C U p) (den C U d) k s :=
  Parse_eq _ _

theorem step_den_done {p : Parser α} {s : Span} {st : σ} {l r} :
    Parse C U p s st = .done l r ↔ ∃ k, (step C U (den C U) k p).parse s st = .done l r := by
  rw [Parse_eq]
  exact lim_done fun k => (step_fuel_le _ k p s).1

end Tok3n.Stateful
