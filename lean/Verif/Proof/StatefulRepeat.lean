import Verif.Proof.StatefulCompound
import Verif.Proof.Repeat
/-
Repetitions with stateful callbacks in terms of runs of their bodies: what `Proof/Loops.lean`
and `Proof/Repeat.lean` prove for callbacks without state.
-/

namespace Tok3n.Stateful

variable {σ α β : Type} {C : Ctx α β} {U : Callbacks σ}

/-- one step of a repetition: `none` when it is over -/
abbrev Step (σ A : Type) := Span → SRun σ (Option (A × Span))

def stepOf (run : Span → SRun σ R) : Step σ Val := fun s =>
  SRun.bind (run s) fun r => SRun.pure (r.val.map fun v => (v, r.rem))

def stepPair (D P : Span → SRun σ R) : Step σ (Val × Val) := fun s =>
  SRun.bind (D s) fun d => match d.val with
    | none => SRun.pure none
    | some dv => SRun.bind (P d.rem) fun r => SRun.pure (r.val.map fun v => ((dv, v), r.rem))

/-- steps taken one after the other -/
inductive Chain {A : Type} (step : Step σ A) : Span → σ → List Call → List A → Span → σ → Prop where
  | nil {s st} : Chain step s st [] [] s st
  | cons {s st l x s1 st1 log xs s' st'} : step s st = .done l (.ok (some (x, s1), st1)) →
      Chain step s1 st1 log xs s' st' → Chain step s st (l ++ log) (x :: xs) s' st'

section
variable {A : Type} (step : Step σ A)

def rep : Nat → Span → SRun σ (List A × Span)
  | 0, _ => SRun.diverge
  | n + 1, s => SRun.bind (step s) fun
    | none => SRun.pure ([], s)
    | some (a, s') => SRun.bind (rep n s') fun x => SRun.pure (a :: x.1, x.2)

theorem rep_mono (s : Span) : Mono fun n => rep step n s := by
  intro n
  induction n generalizing s with
  | zero => exact SRun.diverge_le _
  | succ n ih =>
    refine SRun.bind_le (SRun.le_refl _) fun x => ?_
    cases x with
    | none => exact SRun.le_refl _
    | some x => exact SRun.bind_le (ih x.2) fun _ => SRun.le_refl _

noncomputable def repeatAll (s : Span) : SRun σ (List A × Span) := lim fun n => rep step n s

theorem repeatAll_lim (s : Span) : Lim (fun n => rep step n s) (repeatAll step s) := (rep_mono step s).lim

variable {step}

theorem repeatAll_eq (s : Span) :
    repeatAll step s = SRun.bind (step s) fun
      | none => SRun.pure ([], s)
      | some (a, s') => SRun.bind (repeatAll step s') fun x => SRun.pure (a :: x.1, x.2) :=
  (repeatAll_lim step s).tail.unique <| Lim.bind (Lim.const _) fun x => by
    cases x with
    | none => exact Lim.const _
    | some x => exact Lim.bind (repeatAll_lim step x.2) fun _ => Lim.const _

theorem rep_ok {n : Nat} {s : Span} {st : σ} {log xs s' st'} (h : rep step n s st = .done log (.ok ((xs, s'), st'))) :
    ∃ l1 l2 st1, Chain step s st l1 xs s' st1 ∧ step s' st1 = .done l2 (.ok (none, st')) ∧ log = l1 ++ l2 := by
  induction n generalizing s log xs st with
  | zero => cases h
  | succ n ih =>
    rw [rep, SRun.eq_ok] at h
    obtain ⟨l1, l2, x, st1, h1, h2, rfl⟩ := h
    cases x with
    | none =>
      obtain ⟨rfl, h3⟩ := pure_ok.1 h2
      cases h3
      exact ⟨[], l1, st, .nil, h1, by simp⟩
    | some x =>
      obtain ⟨a, s1⟩ := x
      simp only at h2
      rw [SRun.eq_ok] at h2
      obtain ⟨l3, l4, ⟨ys, s2⟩, st2, h3, h4, rfl⟩ := h2
      obtain ⟨rfl, h5⟩ := pure_ok.1 h4
      cases h5
      obtain ⟨l5, l6, st3, h5, h6, rfl⟩ := ih h3
      exact ⟨l1 ++ l5, l6, st3, .cons h1 h5, h6, by simp⟩

theorem rep_err {n : Nat} {s : Span} {st : σ} {log e} (h : rep step n s st = .done log (.err e)) :
    ∃ l1 l2 xs s' st1, Chain step s st l1 xs s' st1 ∧ step s' st1 = .done l2 (.err e) ∧ log = l1 ++ l2 := by
  induction n generalizing s log st with
  | zero => cases h
  | succ n ih =>
    rw [rep, SRun.eq_err] at h
    rcases h with h | ⟨l1, l2, x, st1, h1, h2, rfl⟩
    · exact ⟨[], log, [], s, st, .nil, h, rfl⟩
    · cases x with
      | none => cases h2
      | some x =>
        obtain ⟨a, s1⟩ := x
        simp only at h2
        rw [SRun.eq_err] at h2
        rcases h2 with h2 | ⟨l3, l4, x, st2, h3, h4, rfl⟩
        · obtain ⟨l5, l6, xs, s', st3, h5, h6, rfl⟩ := ih h2
          exact ⟨l1 ++ l5, l6, a :: xs, s', st3, .cons h1 h5, h6, by simp⟩
        · cases h4

theorem repeatAll_chain {s : Span} {st : σ} {l xs s' st'} (h : Chain step s st l xs s' st') :
    repeatAll step s st =
      M.bind ((repeatAll step s' st').after l) fun x => M.pure ((xs ++ x.1.1, x.1.2), x.2) := by
  induction h with
  | nil => simp only [M.after_nil, List.nil_append]; exact (M.bind_pure _).symm
  | cons hx _ ih =>
    rw [repeatAll_eq, SRun.bind, hx]
    simp only [M.ok_bind]
    rw [SRun.bind, ih, M.bind_assoc, M.after_bind, M.after_after]
    simp only [M.pure_bind, List.cons_append]
    rfl

theorem repeatAll_ok {s : Span} {st : σ} {log xs s' st'} :
    repeatAll step s st = .done log (.ok ((xs, s'), st')) ↔
      ∃ l1 l2 st1, Chain step s st l1 xs s' st1 ∧ step s' st1 = .done l2 (.ok (none, st')) ∧ log = l1 ++ l2 := by
  constructor
  · intro h
    obtain ⟨n, h⟩ := ((repeatAll_lim step s st).iff _ _).1 h
    exact rep_ok h
  · rintro ⟨l1, l2, st1, h1, h2, rfl⟩
    rw [repeatAll_chain h1, repeatAll_eq, SRun.bind, h2]
    simp [M.pure, SRun.pure]

theorem repeatAll_err {s : Span} {st : σ} {log e} :
    repeatAll step s st = .done log (.err e) ↔
      ∃ l1 l2 xs s' st1, Chain step s st l1 xs s' st1 ∧ step s' st1 = .done l2 (.err e) ∧ log = l1 ++ l2 := by
  constructor
  · intro h
    obtain ⟨n, h⟩ := ((repeatAll_lim step s st).iff _ _).1 h
    exact rep_err h
  · rintro ⟨l1, l2, xs, s', st1, h1, h2, rfl⟩
    rw [repeatAll_chain h1, repeatAll_eq, SRun.bind, h2]
    simp

theorem Chain.append {s s1 s2 : Span} {st st1 st2 : σ} {l l' xs ys} (h : Chain step s st l xs s1 st1)
    (h' : Chain step s1 st1 l' ys s2 st2) : Chain step s st (l ++ l') (xs ++ ys) s2 st2 := by
  induction h with
  | nil => exact h'
  | cons hx _ ih => rw [List.append_assoc]; exact .cons hx (ih h')

theorem rep_diverge_of_chain {s : Span} {st : σ} {l xs s' st'} (h : Chain step s st l xs s' st') :
    rep step xs.length s st = .diverge := by
  induction h with
  | nil => rfl
  | cons hx _ ih => rw [List.length_cons, rep, SRun.bind, hx]; simp only [M.ok_bind]; rw [SRun.bind, ih]; rfl

theorem repeatAll_diverge {s : Span} {st : σ} :
    repeatAll step s st = .diverge ↔
      (∃ l xs s' st', Chain step s st l xs s' st' ∧ step s' st' = .diverge) ∨
      ∀ n, ∃ l xs s' st', xs.length = n ∧ Chain step s st l xs s' st' := by
  constructor
  · intro h
    by_cases hd : ∃ l xs s' st', Chain step s st l xs s' st' ∧ step s' st' = .diverge
    · exact .inl hd
    · refine .inr fun n => ?_
      induction n with
      | zero => exact ⟨[], [], s, st, rfl, .nil⟩
      | succ n ih =>
        obtain ⟨l, xs, s', st', hn, hc⟩ := ih
        rw [repeatAll_chain hc, M.bind_eq_diverge] at h
        rcases h with h | ⟨_, _, _, h⟩
        · rw [M.after_eq_diverge, repeatAll_eq, SRun.bind] at h
          cases hs : step s' st' with
          | diverge => exact absurd ⟨l, xs, s', st', hc, hs⟩ hd
          | done l' r =>
            rw [hs] at h
            cases r with
            | err e => simp at h
            | ok x =>
              obtain ⟨x, st1⟩ := x
              cases x with
              | none => simp [SRun.pure] at h
              | some x =>
                exact ⟨_, xs ++ [x.1], x.2, st1, by simp [hn], hc.append (.cons hs .nil)⟩
        · simp at h
  · rintro (⟨l, xs, s', st', hc, hs⟩ | h)
    · rw [repeatAll_chain hc, repeatAll_eq, SRun.bind, hs]; simp
    · cases hr : repeatAll step s st with
      | diverge => rfl
      | done l r =>
        obtain ⟨n, hn⟩ := ((repeatAll_lim step s st).iff _ _).1 hr
        obtain ⟨_, xs, _, _, hx, hc⟩ := h n
        have := rep_diverge_of_chain hc
        rw [hx] at this
        cases hn.symm.trans this

end

/-! ### Steps made of runs -/

section
variable {run D P : Span → SRun σ R} {s : Span} {st : σ}

theorem stepOf_some {l v s' st'} :
    stepOf run s st = .done l (.ok (some (v, s'), st')) ↔ run s st = .done l (.ok (⟨some v, s'⟩, st')) := by
  rw [stepOf, SRun.eq_ok]
  constructor
  · rintro ⟨l1, l2, ⟨rv, rr⟩, st1, h1, h2, rfl⟩
    obtain ⟨rfl, h3⟩ := pure_ok.1 h2
    cases rv with
    | none => cases h3
    | some w => cases h3; simpa using h1
  · intro h; exact ⟨l, [], _, _, h, rfl, by simp⟩

theorem stepOf_none {l st'} :
    stepOf run s st = .done l (.ok (none, st')) ↔ ∃ s', run s st = .done l (.ok (⟨none, s'⟩, st')) := by
  rw [stepOf, SRun.eq_ok]
  constructor
  · rintro ⟨l1, l2, ⟨rv, rr⟩, st1, h1, h2, rfl⟩
    obtain ⟨rfl, h3⟩ := pure_ok.1 h2
    cases rv with
    | some w => cases h3
    | none => cases h3; exact ⟨rr, by simpa using h1⟩
  · rintro ⟨s', h⟩; exact ⟨l, [], _, _, h, rfl, by simp⟩

theorem stepOf_err {l e} : stepOf run s st = .done l (.err e) ↔ run s st = .done l (.err e) := by
  rw [stepOf, SRun.eq_err]
  constructor
  · rintro (h | ⟨l1, l2, r, st1, h1, h2, rfl⟩)
    · exact h
    · cases h2
  · exact .inl

theorem stepOf_diverge : stepOf run s st = .diverge ↔ run s st = .diverge := by
  rw [stepOf, SRun.eq_diverge]
  constructor
  · rintro (h | ⟨l1, a, st1, h1, h2⟩)
    · exact h
    · cases h2
  · exact .inl

theorem chain_inTurn {l vs s' st'} :
    Chain (stepOf run) s st l vs s' st' ↔ InTurn (List.replicate vs.length run) s st l vs s' st' := by
  constructor
  · intro h
    induction h with
    | nil => exact .nil
    | cons hx _ ih => exact .cons (stepOf_some.1 hx) ih
  · intro h
    induction vs generalizing s l st with
    | nil => cases h; exact .nil
    | cons v vs ih =>
      cases h with
      | cons hm ht => exact .cons (stepOf_some.2 hm) (ih ht)

theorem InTurn.length {ms : List (Span → SRun σ R)} {l vs s' st'} (h : InTurn ms s st l vs s' st') :
    vs.length = ms.length := by
  induction h with
  | nil => rfl
  | cons _ _ ih => simp [ih]

theorem stepPair_some {l d v s' st'} :
    stepPair D P s st = .done l (.ok (some ((d, v), s'), st')) ↔
      ∃ l1 l2 s1 st1, D s st = .done l1 (.ok (⟨some d, s1⟩, st1)) ∧ P s1 st1 = .done l2 (.ok (⟨some v, s'⟩, st')) ∧
        l = l1 ++ l2 := by
  rw [stepPair, SRun.eq_ok]
  constructor
  · rintro ⟨l1, l2, ⟨rv, rr⟩, st1, h1, h2, rfl⟩
    cases rv with
    | none => cases h2
    | some w =>
      simp only at h2
      obtain ⟨l3, l4, ⟨pv, pr⟩, st2, h3, h4, rfl⟩ := SRun.eq_ok.1 h2
      obtain ⟨rfl, h5⟩ := pure_ok.1 h4
      cases pv with
      | none => cases h5
      | some w => cases h5; exact ⟨l1, l3, rr, st1, h1, h3, by simp⟩
  · rintro ⟨l1, l2, s1, st1, h1, h2, rfl⟩
    exact ⟨l1, l2, _, _, h1, SRun.eq_ok.2 ⟨l2, [], _, _, h2, rfl, by simp⟩, rfl⟩

theorem stepPair_none {l st'} : stepPair D P s st = .done l (.ok (none, st')) ↔ NoMore P D s st l st' := by
  rw [stepPair, SRun.eq_ok]
  constructor
  · rintro ⟨l1, l2, ⟨rv, rr⟩, st1, h1, h2, rfl⟩
    cases rv with
    | none =>
      obtain ⟨rfl, h3⟩ := pure_ok.1 h2
      cases h3
      rw [List.append_nil]
      exact .delimiter h1
    | some w =>
      simp only at h2
      obtain ⟨l3, l4, ⟨pv, pr⟩, st2, h3, h4, rfl⟩ := SRun.eq_ok.1 h2
      obtain ⟨rfl, h5⟩ := pure_ok.1 h4
      cases pv with
      | some w => cases h5
      | none =>
        cases h5
        rw [List.append_nil]
        exact .element h1 h3
  · intro h
    cases h with
    | delimiter h => exact ⟨l, [], _, _, h, rfl, by simp⟩
    | element h1 h2 => exact ⟨_, _, _, _, h1, SRun.eq_ok.2 ⟨_, [], _, _, h2, rfl, (List.append_nil _).symm⟩, rfl⟩

/-- a delimiter ends with an error, or the element behind one -/
theorem stepPair_err {l e} : stepPair D P s st = .done l (.err e) ↔ D s st = .done l (.err e) ∨
    ∃ l1 l2 d s1 st1, D s st = .done l1 (.ok (⟨some d, s1⟩, st1)) ∧ P s1 st1 = .done l2 (.err e) ∧ l = l1 ++ l2 := by
  rw [stepPair, SRun.eq_err]
  refine or_congr Iff.rfl ⟨?_, ?_⟩
  · rintro ⟨l1, l2, ⟨rv, rr⟩, st1, h1, h2, rfl⟩
    cases rv with
    | none => cases h2
    | some w =>
      simp only at h2
      rcases SRun.eq_err.1 h2 with h2 | ⟨_, _, _, _, _, h, _⟩
      · exact ⟨l1, l2, w, rr, st1, h1, h2, rfl⟩
      · cases h
  · rintro ⟨l1, l2, d, s1, st1, h1, h2, rfl⟩
    exact ⟨l1, l2, _, _, h1, SRun.eq_err.2 (.inl h2), rfl⟩

theorem stepPair_diverge : stepPair D P s st = .diverge ↔ D s st = .diverge ∨
    ∃ l1 d s1 st1, D s st = .done l1 (.ok (⟨some d, s1⟩, st1)) ∧ P s1 st1 = .diverge := by
  rw [stepPair, SRun.eq_diverge]
  refine or_congr Iff.rfl ⟨?_, ?_⟩
  · rintro ⟨l1, ⟨rv, rr⟩, st1, h1, h2⟩
    cases rv with
    | none => cases h2
    | some w =>
      simp only at h2
      rcases SRun.eq_diverge.1 h2 with h2 | ⟨_, _, _, _, h⟩
      · exact ⟨l1, w, rr, st1, h1, h2⟩
      · cases h
  · rintro ⟨l1, d, s1, st1, h1, h2⟩
    exact ⟨l1, _, _, h1, SRun.eq_diverge.2 (.inl h2)⟩

theorem delimited_chain {log vs ds s' st'} :
    Delimited P D s st log vs ds s' st' ↔
      ∃ l l' v xs s1 st1, P s st = .done l (.ok (⟨some v, s1⟩, st1)) ∧ Chain (stepPair D P) s1 st1 l' xs s' st' ∧
        log = l ++ l' ∧ vs = v :: xs.map (·.2) ∧ ds = xs.map (·.1) := by
  constructor
  · intro h
    induction h with
    | one hp => exact ⟨_, [], _, [], _, _, hp, .nil, by simp, rfl, rfl⟩
    | more hp hd _ ih =>
      obtain ⟨l1, l2, w, xs, s1, st1, h1, h2, rfl, rfl, rfl⟩ := ih
      exact ⟨_, _, _, (_, w) :: xs, _, _, hp, .cons (stepPair_some.2 ⟨_, _, _, _, hd, h1, rfl⟩) h2, by simp, rfl, rfl⟩
  · rintro ⟨l, l', v, xs, s1, st1, hp, hc, rfl, rfl, rfl⟩
    induction xs generalizing l l' v s s1 st st1 with
    | nil => cases hc; rw [List.append_nil]; exact .one hp
    | cons x xs ih =>
      cases hc with
      | cons hx ht =>
        obtain ⟨d, w⟩ := x
        obtain ⟨l1, l2, s2, st2, h1, h2, rfl⟩ := stepPair_some.1 hx
        have := Delimited.more hp h1 (ih _ _ _ _ _ h2 ht)
        simpa using this

end

/-! ### The library's loops -/

/-- a failure leaves the input alone -/
def FailsBack (run : Span → SRun σ R) : Prop := ∀ s st l s' st', run s st = .done l (.ok (⟨none, s'⟩, st')) → s' = s

theorem Parse_failsBack (p : Parser α) : FailsBack (Parse C U p) := fun s st _ _ _ h => ((Parse_good p s st).ok h).2 rfl

theorem zeroOrMoreLoop_rep {T : Ty} {P : Sub σ} (hP : FailsBack P.parse) (k : Nat) (s : Span) (v : Val)
    (h : T = .void ∨ ∃ ws, v = .vec ws) :
    zeroOrMoreLoop T P k s v =
      SRun.bind (rep (stepOf P.parse) k s) fun x => SRun.pure (x.2, collect T v x.1) := by
  induction k generalizing s v with
  | zero => rfl
  | succ k ih =>
    simp only [zeroOrMoreLoop, rep, stepOf, bind_eq]
    rw [SRun.bind_assoc, SRun.bind_assoc]
    refine SRun.bind_congr' fun st l r st' hr => ?_
    obtain ⟨rv, rr⟩ := r
    cases rv with
    | none =>
      cases hP _ _ _ _ _ hr
      simp [R.hasValue, collect_nil h]
    | some w =>
      rw [insertBack_eq h]
      simp only [R.hasValue, Option.isSome_some, Bool.not_true, Bool.false_eq_true, ↓reduceIte, SRun.pure_bind,
        Option.map_some, liftM_eq, lift_pure]
      rw [ih _ _ (collect_vec h), SRun.bind_assoc]
      exact SRun.bind_congr fun x => by rw [SRun.pure_bind, collect_collect h]

theorem oneOrMoreLoop_rep {T : Ty} {P : Sub σ} (hP : FailsBack P.parse) (k : Nat) (b : Bool) (s : Span) (v : Val)
    (h : T = .void ∨ ∃ ws, v = .vec ws) :
    oneOrMoreLoop T P k b s v =
      SRun.bind (rep (stepOf P.parse) k s) fun x => SRun.pure (b || !x.1.isEmpty, x.2, collect T v x.1) := by
  induction k generalizing b s v with
  | zero => rfl
  | succ k ih =>
    simp only [oneOrMoreLoop, rep, stepOf, bind_eq]
    rw [SRun.bind_assoc, SRun.bind_assoc]
    refine SRun.bind_congr' fun st l r st' hr => ?_
    obtain ⟨rv, rr⟩ := r
    cases rv with
    | none =>
      cases hP _ _ _ _ _ hr
      simp [R.hasValue, collect_nil h]
    | some w =>
      rw [insertBack_eq h]
      simp only [R.hasValue, Option.isSome_some, Bool.not_true, Bool.false_eq_true, ↓reduceIte, SRun.pure_bind,
        Option.map_some, Bool.or_true, liftM_eq, lift_pure]
      rw [ih _ _ _ (collect_vec h), SRun.bind_assoc]
      exact SRun.bind_congr fun x => by rw [SRun.pure_bind, collect_collect h]; simp

theorem SRun.le_antisymm {A : Type} {m m' : SRun σ A} (h : m.le m') (h' : m'.le m) : m = m' :=
  funext fun st => M.le_antisymm (h st) (h' st)

theorem Lim.le_of {A : Type} {m : Nat → SRun σ A} {a b : SRun σ A} (h : Lim m a) (hb : ∀ n, (m n).le b) : a.le b :=
  fun st => Tok3n.Lim.le_of (h st) fun n => hb n st

/-- the loop of `delimit` without fuel -/
noncomputable def dlmLoop (T tp td : Ty) (P D : Sub σ) (r : R) (s : Span) (v : Val) : SRun σ (Span × Val) :=
  lim fun k => delimitLoop T tp td P D k r s v

theorem dlmLoop_lim {T tp td : Ty} {P D : Sub σ} (r : R) (s : Span) (v : Val) :
    Lim (fun k => delimitLoop T tp td P D k r s v) (dlmLoop T tp td P D r s v) := (delimitLoop_mono T tp td r s v).lim

theorem dlmLoop_eq {T tp td : Ty} {P D : Sub σ} (r : R) (s : Span) (v : Val) :
    dlmLoop T tp td P D r s v =
      if not r.hasValue then SRun.pure (s, v)
      else SRun.bind (SRun.lift (delimitRecordP T tp td v r)) fun v => SRun.bind (D.parse r.rem) fun d =>
        if not d.hasValue then SRun.pure (r.rem, v)
        else SRun.bind (P.parse d.rem) fun r' => SRun.bind (SRun.lift (delimitRecordD T tp td v r' d)) fun v =>
          dlmLoop T tp td P D r' r.rem v := by
  refine (dlmLoop_lim r s v).tail.unique ?_
  simp only [delimitLoop]
  refine Lim.ite (fun _ => Lim.const _) fun _ => ?_
  refine Lim.bind (Lim.const _) fun v => Lim.bind (Lim.const _) fun d => ?_
  refine Lim.ite (fun _ => Lim.const _) fun _ => ?_
  exact Lim.bind (Lim.const _) fun r' => Lim.bind (Lim.const _) fun v => dlmLoop_lim _ _ _

theorem dlmLoop_fail {T tp td : Ty} {P D : Sub σ} {s s' : Span} {v : Val} :
    dlmLoop T tp td P D ⟨none, s'⟩ s v = SRun.pure (s, v) := by
  rw [dlmLoop_eq]; simp [R.hasValue]

theorem delimitLoop_rep {tp td : Ty} {P D : Sub σ} (k : Nat) (w : Val)
    (s0 s : Span) (v : Val) (h : Holds tp td v) :
    (delimitLoop (delimitTy tp td) tp td P D k ⟨some w, s⟩ s0 v).le
      (SRun.bind (repeatAll (stepPair D.parse P.parse) s) fun x =>
        SRun.pure (x.2, collect2 tp td v (x.1.map (·.1)) (w :: x.1.map (·.2)))) := by
  induction k generalizing w s0 s v with
  | zero => exact SRun.diverge_le _
  | succ k ih =>
    rw [repeatAll_eq]
    simp only [delimitLoop, bind_eq, R.hasValue, Option.isSome_some, Bool.not_true, Bool.false_eq_true,
      ↓reduceIte, recordP_eq h, SRun.pure_bind, liftM_eq, lift_pure]
    simp only [stepPair]
    rw [SRun.bind_assoc, SRun.bind_assoc]
    refine SRun.bind_le (SRun.le_refl _) fun r => ?_
    obtain ⟨rv, rr⟩ := r
    cases rv with
    | none => simp [SRun.le_refl]
    | some d =>
      simp only [Option.isSome_some, Bool.not_true, Bool.false_eq_true, ↓reduceIte]
      rw [SRun.bind_assoc]
      refine SRun.bind_le (SRun.le_refl _) fun r => ?_
      obtain ⟨rv, rr⟩ := r
      cases rv with
      | none =>
        rw [recordD_none, lift_pure]
        simp only [SRun.pure_bind, Option.map_none, List.map_nil]
        cases k with
        | zero => exact SRun.diverge_le _
        | succ k => simp [delimitLoop, R.hasValue, SRun.le_refl]
      | some w' =>
        rw [recordD_some (collect2_holds h), lift_pure]
        simp only [SRun.pure_bind, Option.map_some]
        refine SRun.le_trans (ih _ _ _ _ (collect2_holds (collect2_holds h))) ?_
        rw [SRun.bind_assoc]
        refine SRun.bind_le (SRun.le_refl _) fun x => ?_
        rw [SRun.pure_bind, collect2_collect2 (collect2_holds h), collect2_collect2 h]
        exact SRun.le_refl _

theorem rep_delimitLoop {tp td : Ty} {P D : Sub σ} (k : Nat) (w : Val)
    (s0 s : Span) (v : Val) (h : Holds tp td v) :
    (SRun.bind (rep (stepPair D.parse P.parse) k s) fun x =>
        SRun.pure (x.2, collect2 tp td v (x.1.map (·.1)) (w :: x.1.map (·.2)))).le
      (dlmLoop (delimitTy tp td) tp td P D ⟨some w, s⟩ s0 v) := by
  induction k generalizing w s0 s v with
  | zero => exact SRun.diverge_le _
  | succ k ih =>
    rw [dlmLoop_eq]
    simp only [rep, R.hasValue, Option.isSome_some, Bool.not_true, Bool.false_eq_true,
      ↓reduceIte, recordP_eq h, SRun.pure_bind, lift_pure]
    simp only [stepPair]
    rw [SRun.bind_assoc, SRun.bind_assoc]
    refine SRun.bind_le (SRun.le_refl _) fun r => ?_
    obtain ⟨rv, rr⟩ := r
    cases rv with
    | none => simp [SRun.le_refl]
    | some d =>
      simp only [Option.isSome_some, Bool.not_true, Bool.false_eq_true, ↓reduceIte]
      rw [SRun.bind_assoc]
      refine SRun.bind_le (SRun.le_refl _) fun r => ?_
      obtain ⟨rv, rr⟩ := r
      cases rv with
      | none =>
        rw [recordD_none, lift_pure]
        simp only [SRun.pure_bind, Option.map_none, List.map_nil, dlmLoop_fail]
        exact SRun.le_refl _
      | some w' =>
        rw [recordD_some (collect2_holds h), lift_pure]
        simp only [SRun.pure_bind, Option.map_some]
        refine SRun.le_trans ?_ (ih _ _ _ _ (collect2_holds (collect2_holds h)))
        rw [SRun.bind_assoc]
        refine SRun.bind_le (SRun.le_refl _) fun x => ?_
        rw [SRun.pure_bind, collect2_collect2 (collect2_holds h), collect2_collect2 h]
        exact SRun.le_refl _

theorem dlmLoop_repeat {tp td : Ty} {P D : Sub σ} (w : Val) (s0 s : Span) (v : Val) (h : Holds tp td v) :
    dlmLoop (delimitTy tp td) tp td P D ⟨some w, s⟩ s0 v =
      SRun.bind (repeatAll (stepPair D.parse P.parse) s) fun x =>
        SRun.pure (x.2, collect2 tp td v (x.1.map (·.1)) (w :: x.1.map (·.2))) :=
  SRun.le_antisymm
    (Lim.le_of (dlmLoop_lim _ _ _) fun k => delimitLoop_rep k w s0 s v h)
    (Lim.le_of (Lim.bind (repeatAll_lim _ _) fun _ => Lim.const _) fun k => rep_delimitLoop k w s0 s v h)

/-! ### Each parser -/

theorem Parse_maybe_eq (p : Parser α) (s : Span) :
    Parse C U (.maybe p) s =
      SRun.bind (Parse C U p s) fun r => SRun.pure ⟨some (optionalValue (resultFor C p) r.val), r.rem⟩ := by
  rw [Parse_maybe, parseMaybe]
  have hT : resultFor C (.maybe p) = voidOr .opt (resultFor C p) := by rw [resultFor]
  rw [hT]
  by_cases h : resultFor C p = .void
  · simp only [voidOr, h, ↓reduceIte, builderInit, defaultVal, M.ofOption, bind_eq, SRun.pure_bind,
      builderEmplace, builderBuild, R.successVoid, optionalValue, liftM_eq, lift_pure]
    exact SRun.bind_congr fun r => by split <;> rw [SRun.pure_bind]
  · simp only [voidOr, h, ↓reduceIte, builderInit, defaultVal, M.ofOption, bind_eq, SRun.pure_bind,
      builderEmplace, builderBuild, R.success, optionalValue, reduceCtorEq, liftM_eq, lift_pure]
    refine SRun.bind_congr fun r => ?_
    obtain ⟨rv, rr⟩ := r
    cases rv <;> simp [R.hasValue, R.deref, lift_pure]

theorem Parse_zeroOrMore_eq (p : Parser α) (s : Span) :
    Parse C U (.zeroOrMore p) s =
      SRun.bind (repeatAll (stepOf (Parse C U p)) s) fun x =>
        SRun.pure ⟨some (vectorValue (resultFor C p) x.1), x.2⟩ := by
  rw [Parse_zeroOrMore]
  have hT : resultFor C (.zeroOrMore p) = voidOr .vec (resultFor C p) := by rw [resultFor]
  rw [hT]
  obtain ⟨d, hd, hv, _⟩ := collect_vectorValue (C := C) (resultFor C p) []
  simp only [parseZeroOrMore, builderInit, hd, M.ofOption, bind_eq, SRun.pure_bind, liftM_eq, lift_pure]
  simp only [zeroOrMoreLoop_rep (P := den C U p) (Parse_failsBack p) _ _ _ hv]
  refine Eq.trans (Lim.unique (b := SRun.bind (SRun.bind (repeatAll (stepOf (Parse C U p)) s) fun x =>
      SRun.pure (x.2, collect (voidOr .vec (resultFor C p)) d x.1)) fun x =>
      SRun.pure (builderBuild (voidOr .vec (resultFor C p)) x.2 x.1)) (Mono.lim ?_)
    (Lim.bind (Lim.bind (repeatAll_lim _ _) fun _ => Lim.const _) fun _ => Lim.const _)) ?_
  · intro n
    exact SRun.bind_le (SRun.bind_le (rep_mono _ _ n) fun _ => SRun.le_refl _) fun _ => SRun.le_refl _
  · rw [SRun.bind_assoc]
    refine SRun.bind_congr fun x => ?_
    obtain ⟨d', hd', _, hb⟩ := collect_vectorValue (C := C) (resultFor C p) x.1
    rw [hd, Option.some.injEq] at hd'
    subst hd'
    rw [SRun.pure_bind, hb]

theorem Parse_oneOrMore_eq (p : Parser α) (s : Span) :
    Parse C U (.oneOrMore p) s =
      SRun.bind (repeatAll (stepOf (Parse C U p)) s) fun x =>
        SRun.pure ⟨if x.1 = [] then none else some (vectorValue (resultFor C p) x.1), x.2⟩ := by
  rw [Parse_oneOrMore]
  have hT : resultFor C (.oneOrMore p) = voidOr .vec (resultFor C p) := by rw [resultFor]
  rw [hT]
  obtain ⟨d, hd, hv, _⟩ := collect_vectorValue (C := C) (resultFor C p) []
  simp only [parseOneOrMore, builderInit, hd, M.ofOption, bind_eq, SRun.pure_bind, liftM_eq, lift_pure]
  simp only [oneOrMoreLoop_rep (P := den C U p) (Parse_failsBack p) _ _ _ _ hv]
  refine Eq.trans (Lim.unique (b := SRun.bind (SRun.bind (repeatAll (stepOf (Parse C U p)) s) fun x =>
      SRun.pure (false || !x.1.isEmpty, x.2, collect (voidOr .vec (resultFor C p)) d x.1)) fun x =>
      if x.1 = true then SRun.pure (builderBuild (voidOr .vec (resultFor C p)) x.2.2 x.2.1)
      else SRun.pure (R.failure x.2.1)) (Mono.lim ?_)
    (Lim.bind (Lim.bind (repeatAll_lim _ _) fun _ => Lim.const _) fun _ => Lim.const _)) ?_
  · intro n
    exact SRun.bind_le (SRun.bind_le (rep_mono _ _ n) fun _ => SRun.le_refl _) fun _ => SRun.le_refl _
  · rw [SRun.bind_assoc]
    refine SRun.bind_congr fun x => ?_
    obtain ⟨d', hd', _, hb⟩ := collect_vectorValue (C := C) (resultFor C p) x.1
    rw [hd, Option.some.injEq] at hd'
    subst hd'
    rw [SRun.pure_bind, hb]
    cases x.1 <;> simp [R.failure]

theorem Parse_delimit_eq (p d : Parser α) (s : Span) :
    Parse C U (.delimit p d) s =
      SRun.bind (Parse C U p s) fun r => match r.val with
        | none => SRun.pure ⟨none, s⟩
        | some v => SRun.bind (repeatAll (stepPair (Parse C U d) (Parse C U p)) r.rem) fun x =>
          SRun.pure ⟨some (delimitValue (resultFor C p) (resultFor C d) (v :: x.1.map (·.2)) (x.1.map (·.1))), x.2⟩ := by
  rw [Parse_delimit]
  have hT : resultFor C (.delimit p d) = delimitTy (resultFor C p) (resultFor C d) := by rw [resultFor]
  rw [hT]
  obtain ⟨v0, hd, hv, hb⟩ := delimit_start (C := C) (resultFor C p) (resultFor C d)
  simp only [parseDelimit, builderInit, hd, M.ofOption, bind_eq, SRun.pure_bind, liftM_eq, lift_pure]
  refine Eq.trans (Lim.unique (b := SRun.bind (Parse C U p s) fun r =>
      if (!r.hasValue) = true then SRun.pure (R.failure s)
      else SRun.bind (dlmLoop (delimitTy (resultFor C p) (resultFor C d)) (resultFor C p) (resultFor C d)
          (den C U p) (den C U d) r s v0) fun x =>
        SRun.pure (builderBuild (delimitTy (resultFor C p) (resultFor C d)) x.2 x.1)) (Mono.lim ?_)
    (Lim.bind (Lim.const _) fun r => Lim.ite (fun _ => Lim.const _) fun _ =>
      Lim.bind (dlmLoop_lim r _ _) fun _ => Lim.const _)) ?_
  · intro n
    refine SRun.bind_le (SRun.le_refl _) fun r => SRun.ite_le (fun _ => SRun.le_refl _) fun _ => ?_
    exact SRun.bind_le (delimitLoop_mono _ _ _ _ _ _ n) fun _ => SRun.le_refl _
  · refine SRun.bind_congr fun r => ?_
    obtain ⟨rv, rr⟩ := r
    cases rv with
    | none => simp [R.hasValue, R.failure]
    | some w =>
      simp only [R.hasValue, Option.isSome_some, Bool.not_true, Bool.false_eq_true, ↓reduceIte]
      rw [dlmLoop_repeat _ _ _ _ hv, SRun.bind_assoc]
      exact SRun.bind_congr fun x => by rw [SRun.pure_bind, hb]

theorem exactlyLoop_void {P : Sub σ} (s0 : Span) (n i : Nat) (s : Span) :
    exactlyLoop .void P s0 n i s .unit =
      allOrNothing s0 (fun _ => .unit) (inOrder (List.replicate n P.parse) s) := by
  induction n generalizing i s with
  | zero => rfl
  | succ n ih =>
    simp only [exactlyLoop, List.replicate_succ, inOrder, allOrNothing, bind_eq]
    rw [SRun.bind_assoc]
    refine SRun.bind_congr fun r => ?_
    obtain ⟨rv, rr⟩ := r
    cases rv with
    | none => simp [R.hasValue, R.failure]
    | some w =>
      simp only [R.hasValue, Option.isSome_some, Bool.not_true, Bool.false_eq_true, ↓reduceIte,
        builderArrayAssign, SRun.pure_bind, liftM_eq, lift_pure]
      rw [ih, allOrNothing, SRun.bind_assoc]
      refine SRun.bind_congr fun x => ?_
      rw [SRun.pure_bind]
      cases x <;> rfl

theorem exactlyLoop_arr {T : Ty} (hT : T ≠ .void) {P : Sub σ} (s0 : Span) (n : Nat) (s : Span) (ws us : List Val)
    (hu : us.length = n) :
    exactlyLoop T P s0 n ws.length s (.arr (ws ++ us)) =
      allOrNothing s0 (fun vs => .arr (ws ++ vs)) (inOrder (List.replicate n P.parse) s) := by
  induction n generalizing s ws us with
  | zero =>
    cases us with
    | nil => simp [exactlyLoop, inOrder, allOrNothing, builderBuild, hT, R.success]
    | cons u us => simp at hu
  | succ n ih =>
    cases us with
    | nil => simp at hu
    | cons u us =>
      simp only [exactlyLoop, List.replicate_succ, inOrder, allOrNothing, bind_eq]
      rw [SRun.bind_assoc]
      refine SRun.bind_congr fun r => ?_
      obtain ⟨rv, rr⟩ := r
      cases rv with
      | none => simp [R.hasValue, R.failure]
      | some w =>
        simp only [R.hasValue, Option.isSome_some, Bool.not_true, Bool.false_eq_true, ↓reduceIte,
          builderArrayAssign, M.pure_bind, hT, R.deref, M.bind_eq, List.length_append, List.length_cons, liftM_eq]
        rw [if_pos (by omega), lift_pure, SRun.pure_bind]
        have hset : (ws ++ u :: us).set ws.length w = (ws ++ [w]) ++ us := by
          rw [List.set_append_right _ _ (Nat.le_refl _)]; simp
        have hlen : ws.length + 1 = (ws ++ [w]).length := by simp
        rw [hset, hlen, ih _ _ _ (by simpa using hu), allOrNothing, SRun.bind_assoc]
        refine SRun.bind_congr fun x => ?_
        rw [SRun.pure_bind]
        cases x <;> simp

theorem Parse_exactly_eq {p : Parser α} {n : Nat} (hp : parseOK C (.exactly p n) = true) (s : Span) :
    Parse C U (.exactly p n) s =
      allOrNothing s (arrayValue (resultFor C p)) (inOrder (List.replicate n (Parse C U p)) s) := by
  rw [Parse_exactly, parseExactly]
  have hT : resultFor C (.exactly p n) = voidOr (.arr · n) (resultFor C p) := by rw [resultFor]
  rw [hT]
  by_cases h : resultFor C p = .void
  · simp only [voidOr, h, ↓reduceIte, builderInit, defaultVal, M.ofOption, bind_eq, SRun.pure_bind, liftM_eq, lift_pure]
    rw [exactlyLoop_void]
    congr 1
  · simp only [parseOK, Bool.and_eq_true] at hp
    have hd : ∃ d, defaultVal C (resultFor C p) = some d := by
      simpa [voidOr, h, defaultVal, Option.isSome_iff_exists] using hp.2
    obtain ⟨d, hd⟩ := hd
    simp only [voidOr, h, ↓reduceIte, builderInit, defaultVal, hd, Option.map_some, M.ofOption, bind_eq,
      SRun.pure_bind, liftM_eq, lift_pure]
    have := exactlyLoop_arr (T := .arr (resultFor C p) n) (by nofun) (P := den C U p) s n s [] (List.replicate n d)
      (by simp)
    simp only [List.length_nil, List.nil_append] at this
    rw [this]
    congr 1
    funext vs
    simp [arrayValue, h]

end Tok3n.Stateful
