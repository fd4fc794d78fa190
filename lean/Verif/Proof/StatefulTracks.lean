import Verif.Proof.StatefulClosed
/-
The log of a run with stateful callbacks is what happened to the state, and the fuel-free
counterparts of the lemmas about fuelled runs.
-/

namespace Tok3n.Stateful

variable {σ α β : Type} {C : Ctx α β} {U : Callbacks σ}

theorem Replays.append {st st' st'' : σ} {l l' : List Call} (h : Replays U st l st')
    (h' : Replays U st' l' st'') : Replays U st (l ++ l') st'' := by
  induction h with
  | nil => exact h'
  | cons h1 _ ih => exact .cons h1 (ih h')

theorem Replays.snoc {st st' st'' : σ} {l : List Call} {c : Call} (h : Replays U st l st')
    (h' : U.on c st' = (.ok (), st'')) : Replays U st (l ++ [c]) st'' := h.append (.cons h' .nil)

/-- The calls determine the state. -/
theorem Replays.unique {st st' st'' : σ} {l : List Call} (h : Replays U st l st')
    (h' : Replays U st l st'') : st' = st'' := by
  induction h with
  | nil => cases h'; rfl
  | cons h1 _ ih =>
    cases h' with
    | cons h2 h3 =>
      rw [h1] at h2
      cases h2
      exact ih h3

/-- the assertion: the log tells how the state came about -/
def Tracks (U : Callbacks σ) (A : Type) (m : SRun σ A) : Prop :=
  ∀ st l r, m st = .done l r →
    match r with
    | .ok x => Replays U st l x.2
    | .err (.exn e) => Throws U st l e
    | .err _ => ∃ st', Replays U st l st'

theorem Throws.after {st st' : σ} {l l' : List Call} {e : Nat} (h : Replays U st l st')
    (h' : Throws U st' l' e) : Throws U st (l ++ l') e := by
  obtain ⟨l1, c, st1, rfl, h1, h2⟩ := h'
  exact ⟨l ++ l1, c, st1, by simp, h.append h1, h2⟩

theorem tracks_closed : Closed (Tracks U) where
  diverge _ := nofun
  lift A m hm st l r h := by
    cases hm' : m with
    | diverge => simp [SRun.lift, hm', M.bind] at h
    | done l0 r0 =>
      obtain ⟨rfl, he⟩ := hm _ _ hm'
      cases r0 with
      | ok a =>
        simp only [SRun.lift, hm', M.bind, M.pure] at h
        cases h
        exact .nil
      | err e =>
        simp only [SRun.lift, hm', M.bind] at h
        cases h
        cases e with
        | exn e => exact absurd rfl (he e)
        | ub => exact ⟨st, .nil⟩
        | ill => exact ⟨st, .nil⟩
  bind A B m f hm hf st l r h := by
    change M.bind (m st) (fun x => f x.1 x.2) = _ at h
    cases hm' : m st with
    | diverge => rw [hm'] at h; cases h
    | done l0 r0 =>
      have h0 := hm _ _ _ hm'
      rw [hm'] at h
      cases r0 with
      | err e =>
        cases h
        cases e <;> exact h0
      | ok x =>
        simp only [M.bind] at h
        cases hf' : f x.1 x.2 with
        | diverge => rw [hf'] at h; cases h
        | done l1 r1 =>
          have h1 := hf _ _ _ _ hf'
          rw [hf'] at h
          obtain ⟨rfl, rfl⟩ : l0 ++ l1 = l ∧ r1 = r := by simpa [M.after] using h
          cases r1 with
          | ok y => exact h0.append h1
          | err e =>
            cases e with
            | exn e => exact Throws.after h0 h1
            | ub => obtain ⟨st', h1⟩ := h1; exact ⟨st', h0.append h1⟩
            | ill => obtain ⟨st', h1⟩ := h1; exact ⟨st', h0.append h1⟩

theorem answer_tracks (c : Call) (f : σ → Except Nat Val × σ)
    (h : ∀ st, U.on c st = ((f st).1.map fun _ => (), (f st).2)) : Tracks U _ (answer c f) := by
  intro st l r hr
  have hc := h st
  simp only [answer, M.bind_eq, M.log, M.bind] at hr
  rcases hf : f st with ⟨v | v, st'⟩ <;> rw [hf] at hr hc
  · simp only [M.fail, List.append_nil] at hr
    cases hr
    exact ⟨[], c, st, rfl, .nil, by rw [hc]; rfl⟩
  · simp only [M.pure, List.append_nil] at hr
    cases hr
    exact .cons (by rw [hc]; rfl) .nil

theorem invoke_tracks (C : Ctx α β) : ∀ (f : Fn) (args : List Val), Tracks U _ (invoke C U f args)
  | .user k, args => answer_tracks _ _ fun st => rfl
  | .apply _, [] => tracks_closed.lift _ _ (calm_closed.ill _)
  | .apply f, [v] => by
    simp only [invoke]
    cases componentsOf v with
    | some vs => exact invoke_tracks C f vs
    | none => exact tracks_closed.lift _ _ (calm_closed.ill _)
  | .apply _, _ :: _ :: _ => tracks_closed.lift _ _ (calm_closed.ill _)
  | .const k, args => answer_tracks _ _ fun st => rfl
  | .construct t, args => answer_tracks _ _ fun st => rfl
  | .deflt t, args => by
    refine tracks_closed.bind _ _ _ _ (fun st l r h => ?_) fun _ => tracks_closed.lift _ _ (ofOption_closed calm_closed _)
    simp only [SRun.lift, M.log, M.bind, M.pure] at h
    cases h
    exact .cons rfl .nil

theorem sem_tracks (n : Nat) (p : Parser α) (s : Span) : Tracks U _ ((sem C U n p).parse s) :=
  (sem_closed tracks_closed n p).2 (fun _ f _ args => invoke_tracks C f args) s

theorem Parse_tracks (C : Ctx α β) (U : Callbacks σ) (p : Parser α) (s : Span) : Tracks U _ (Parse C U p s) := by
  intro st l r h
  obtain ⟨n, hn⟩ := Parse_eq_done.1 h
  exact sem_tracks n p s _ _ _ hn

/-! ### Without fuel -/

theorem Look_lift (C : Ctx α β) (U : Callbacks σ) (p : Parser α) (s : Span) :
    Look C U p s = SRun.lift (Tok3n.Look C p s) := by
  refine ((sem_lim p).look s).unique fun st => ?_
  have : (fun n => (sem C U n p).look s st) =
      fun n => M.bind ((Tok3n.sem C n p).look s) fun r => M.pure (r, st) := by
    funext n; exact congrFun (sem_look C U n p s) st
  rw [this]
  exact Tok3n.Lim.bind ((Tok3n.sem_lim p).look s) fun _ => .const _

theorem Parse_lift (C : Ctx α β) (p : Parser α) (s : Span) :
    Parse C (.ofCtx C) p s = (SRun.lift (Tok3n.Parse C p s) : SRun σ R) := by
  refine ((sem_lim p).parse s).unique fun st => ?_
  have : (fun n => (sem C (.ofCtx C) n p).parse s st) =
      fun n => M.bind ((Tok3n.sem C n p).parse s) fun r => M.pure (r, st) := by
    funext n; exact congrFun (sem_parse C n p s) st
  rw [this]
  exact Tok3n.Lim.bind ((Tok3n.sem_lim p).parse s) fun _ => .const _

theorem Parse_sat {p : Parser α} {s : Span} {Q : R → Prop} {E : Err → Prop}
    (h : ∀ n, Sat ((sem C U n p).parse s) Q E) : Sat (Parse C U p s) Q E :=
  fun st => Tok3n.Sat.lim ((sem_lim p).parse s st) fun n => h n st

theorem Parse_good (p : Parser α) (s : Span) : Sat (Parse C U p s) (Good s) anyErr :=
  Parse_sat fun n => (sem_good U n p).parse s

theorem Parse_freeze (C : Ctx α β) (U : Callbacks σ) (st0 : σ) (p : Parser α) (s : Span) :
    Parse (freeze C U st0) U p s = Parse C U p s := by
  funext st
  simp only [Parse, sem_freeze]

end Tok3n.Stateful
