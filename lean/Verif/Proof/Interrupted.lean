import Verif.Proof.InterruptedMono
/-
A run in an environment is the run without, stopped by the first operation that throws.
-/

namespace Tok3n.Interrupted

open Stateful (SRun Callbacks)

variable {σ α β A B : Type} {C : Ctx α β} {U : Callbacks σ} {Q : Op α β → Prop}

theorem calls_append (x y : List (Event α β)) : calls (x ++ y) = calls x ++ calls y := by
  induction x with
  | nil => rfl
  | cons e x ih => cases e <;> simp [calls, ih]

theorem ops_append (x y : List (Event α β)) : ops (x ++ y) = ops x ++ ops y := by
  induction x with
  | nil => rfl
  | cons e x ih => cases e <;> simp [ops, ih]

theorem calls_map (l : List Call) : calls (l.map Event.call : List (Event α β)) = l := by
  induction l with
  | nil => rfl
  | cons c l ih => simp [calls, ih]

theorem ops_map (l : List Call) : ops (l.map Event.call : List (Event α β)) = [] := by
  induction l with
  | nil => rfl
  | cons c l ih => simpa [ops] using ih

/-- an exception of the environment -/
def Thrown {τ : Type} (F : Env α β τ) (m : M Call B) : Prop :=
  ∃ log e, m = .done log (.err (.exn e)) ∧ ∃ o t, F o t = .error e

theorem Thrown.after {τ : Type} {F : Env α β τ} {m : M Call B} (h : Thrown F m) (l : List Call) :
    Thrown F (m.after l) := by
  obtain ⟨log, e, rfl, h⟩ := h
  exact ⟨l ++ log, e, rfl, h⟩

theorem Thrown.bind {τ : Type} {F : Env α β τ} {m : M Call A} (h : Thrown F m) (f : A → M Call B) :
    Thrown F (M.bind m f) := by
  obtain ⟨log, e, rfl, h⟩ := h
  exact ⟨log, e, rfl, h⟩

theorem bind_after (m : M Call A) (f : A → M Call B) (l : List Call) : M.bind (m.after l) f = (M.bind m f).after l := by
  rcases m with _ | ⟨k, a | e⟩
  · rfl
  · show (f a).after (l ++ k) = ((f a).after k).after l
    cases f a with
    | diverge => rfl
    | done => simp [M.after]
  · rfl

section
variable {τ : Type} (F : Env α β τ)

theorem play_append (ev ev' : List (Event α β)) (a : A) (st : σ) (r : Res (B × σ)) (t : τ) :
    play F t (ev ++ ev') r = M.bind (play F t ev (.ok (a, st))) fun x => play F x.2.1 ev' r := by
  induction ev generalizing t with
  | nil =>
    show play F t ev' r = (play F t ev' r).after []
    cases play F t ev' r <;> rfl
  | cons e ev ih =>
    cases e with
    | op o =>
      simp only [List.cons_append, play]
      cases F o t with
      | ok t => exact ih t
      | error e => rfl
    | call c =>
      simp only [List.cons_append, play, bind_after]
      rw [ih t]

theorem play_err (ev : List (Event α β)) (e : Err) (f : A × τ × σ → M Call (B × τ × σ)) (t : τ) :
    M.bind (play F t ev (.err e : Res (A × σ))) f = play F t ev (.err e) := by
  induction ev generalizing t with
  | nil => rfl
  | cons x ev ih =>
    cases x with
    | op o =>
      simp only [play]
      cases F o t with
      | ok t => exact ih t
      | error e => rfl
    | call c =>
      simp only [play, bind_after]
      rw [ih t]

theorem play_bind_cases (ev : List (Event α β)) (a : A) (st : σ) (f : A × τ × σ → M Call B)
    (hf : ∀ t, f (a, t, st) = .diverge ∨ Thrown F (f (a, t, st))) (t : τ) :
    M.bind (play F t ev (.ok (a, st))) f = .diverge ∨ Thrown F (M.bind (play F t ev (.ok (a, st))) f) := by
  induction ev generalizing t with
  | nil =>
    have : M.bind (play F t [] (.ok (a, st))) f = f (a, t, st) := by
      show (f (a, t, st)).after [] = _
      cases f (a, t, st) <;> rfl
    rw [this]; exact hf t
  | cons x ev ih =>
    cases x with
    | op o =>
      simp only [play]
      cases h : F o t with
      | ok t => exact ih t
      | error e => exact .inr ⟨[], e, rfl, o, t, h⟩
    | call c =>
      simp only [play, bind_after]
      rcases ih t with h | h
      · rw [h]; exact .inl rfl
      · exact .inr (h.after _)

theorem play_map (l : List Call) (t : τ) (r : Res (A × σ)) :
    play F t (l.map Event.call) r = (play F t [] r).after l := by
  induction l with
  | nil =>
    show play F t [] r = (play F t [] r).after []
    cases play F t [] r <;> rfl
  | cons c l ih =>
    show (play F t (l.map Event.call) r).after [c] = _
    rw [ih]
    cases play F t [] r <;> rfl

end

/-- The outcome `y`, given in all environments, is the outcome `x` stopped by the first operation that throws; its
operations satisfy `Q`. -/
def IOut (Q : Op α β → Prop) (y : ∀ τ : Type, Env α β τ → τ → M Call (A × τ × σ)) : M Call (A × σ) → Prop
  | .diverge => ∀ (τ : Type) (F : Env α β τ) (t : τ), y τ F t = .diverge ∨ Thrown F (y τ F t)
  | .done log r => ∃ ev : List (Event α β), calls ev = log ∧ (∀ o ∈ ops ev, Q o) ∧
      ∀ (τ : Type) (F : Env α β τ) (t : τ), y τ F t = play F t ev r

/-- The run `m`, given in all environments, is the run `m'` stopped by the first operation that throws; its operations
satisfy `Q`. -/
def IRel (Q : Op α β → Prop) (m : ∀ τ : Type, Env α β τ → SRun (τ × σ) A) (m' : SRun σ A) : Prop :=
  ∀ st, IOut Q (fun τ F t => m τ F (t, st)) (m' st)

namespace IRel

theorem diverge : IRel Q (fun _ _ => SRun.diverge) (SRun.diverge : SRun σ A) := fun _ _ _ _ => .inl rfl

theorem lift (m : Run A) : IRel Q (fun _ _ => SRun.lift m) (SRun.lift m : SRun σ A) := fun st => by
  unfold SRun.lift
  rcases m with _ | ⟨l, a | e⟩
  · exact fun _ _ _ => .inl rfl
  · refine ⟨l.map Event.call, by rw [calls_map]; simp, by simp [ops_map], fun τ F t => ?_⟩
    rw [play_map]; rfl
  · refine ⟨l.map Event.call, by rw [calls_map], by simp [ops_map], fun τ F t => ?_⟩
    rw [play_map]
    show M.done l _ = M.done (l ++ []) _
    rw [List.append_nil]

theorem pure (a : A) : IRel Q (fun _ _ => SRun.pure a) (SRun.pure a : SRun σ A) := fun _ =>
  ⟨[], rfl, nofun, fun _ _ _ => rfl⟩

theorem bind {m : ∀ τ : Type, Env α β τ → SRun (τ × σ) A} {m' : SRun σ A} {f : ∀ τ : Type, Env α β τ → A → SRun (τ × σ) B}
    {f' : A → SRun σ B} (h : IRel Q m m') (hf : ∀ a, IRel Q (fun τ F => f τ F a) (f' a)) :
    IRel Q (fun τ F => m τ F >>= fun a => f τ F a) (m' >>= f') := fun st => by
  show IOut Q (fun τ F t => M.bind (m τ F (t, st)) fun x => f τ F x.1 x.2) (M.bind (m' st) fun x => f' x.1 x.2)
  have h1 := h st
  revert h1
  generalize m' st = x
  intro h1
  rcases x with _ | ⟨l, ⟨a, st1⟩ | e⟩
  · intro τ F t
    rcases h1 τ F t with h1 | h1
    · left; show M.bind (m τ F (t, st)) _ = _; rw [show m τ F (t, st) = _ from h1]; rfl
    · right; exact h1.bind _
  · obtain ⟨ev, hc, hq, h1⟩ := h1
    have h2 := hf a st1
    show IOut Q _ ((f' a st1).after l)
    revert h2
    generalize f' a st1 = y
    intro h2
    cases y with
    | diverge =>
      intro τ F t
      show M.bind (m τ F (t, st)) _ = _ ∨ Thrown F (M.bind (m τ F (t, st)) _)
      rw [show m τ F (t, st) = _ from h1 τ F t]
      exact play_bind_cases F ev a st1 _ (fun t => h2 τ F t) t
    | done l2 r =>
      obtain ⟨ev2, hc2, hq2, h2⟩ := h2
      refine ⟨ev ++ ev2, by rw [calls_append, hc, hc2], ?_, fun τ F t => ?_⟩
      · rw [ops_append]; intro o ho
        rcases List.mem_append.1 ho with ho | ho
        exacts [hq o ho, hq2 o ho]
      · show M.bind (m τ F (t, st)) _ = _
        rw [play_append F ev ev2 a st1, show m τ F (t, st) = _ from h1 τ F t]
        clear h1 hc hq
        induction ev generalizing t with
        | nil =>
          show (f τ F a (t, st1)).after [] = (play F t ev2 r).after []
          rw [show f τ F a (t, st1) = _ from h2 τ F t]
        | cons x ev ih =>
          cases x with
          | op o =>
            simp only [play]
            cases F o t with
            | ok t => exact ih t
            | error e => rfl
          | call c =>
            simp only [play, bind_after]
            rw [ih t]
  · obtain ⟨ev, hc, hq, h1⟩ := h1
    refine ⟨ev, hc, hq, fun τ F t => ?_⟩
    show M.bind (m τ F (t, st)) _ = _
    rw [show m τ F (t, st) = _ from h1 τ F t, play_err]

theorem ite {c : Prop} [Decidable c] {m n : ∀ τ : Type, Env α β τ → SRun (τ × σ) A} {m' n' : SRun σ A}
    (h : IRel Q m m') (h' : IRel Q n n') :
    IRel Q (fun τ F => if c then m τ F else n τ F) (if c then m' else n') := by
  by_cases hc : c
  · simpa only [if_pos hc] using h
  · simpa only [if_neg hc] using h'

theorem op {o : Op α β} (hq : Q o) {m : ∀ τ : Type, Env α β τ → SRun (τ × σ) A} {m' : SRun σ A} (h : IRel Q m m') :
    IRel Q (fun τ F => Interrupted.op F o >>= fun _ => m τ F) m' := fun st => by
  have h1 := h st
  have e : ∀ τ F t, (Interrupted.op F o >>= fun _ => m τ F) (t, st) =
      match F o t with | .ok t => m τ F (t, st) | .error e => .done [] (.err (.exn e)) := fun τ F t => by
    show M.bind (Interrupted.op F o (t, st)) _ = _
    unfold Interrupted.op
    cases F o t with
    | error e => rfl
    | ok t =>
      show (m τ F (t, st)).after [] = m τ F (t, st)
      cases m τ F (t, st) <;> rfl
  revert h1
  generalize m' st = x
  intro h1
  cases x with
  | diverge =>
    intro τ F t
    simp only [e]
    cases hF : F o t with
    | ok t => exact h1 τ F t
    | error e => exact .inr ⟨[], e, rfl, o, t, hF⟩
  | done l r =>
    obtain ⟨ev, hc, hq', h1⟩ := h1
    refine ⟨.op o :: ev, hc, ?_, fun τ F t => ?_⟩
    · intro o' ho
      rcases List.mem_cons.1 ho with rfl | ho
      exacts [hq, hq' _ ho]
    · simp only [e, play]
      cases F o t with
      | ok t => exact h1 τ F t
      | error e => rfl

theorem opPure {o : Op α β} (hq : Q o) (a : A) :
    IRel Q (fun τ F => Interrupted.op F o >>= fun _ => SRun.pure a) (SRun.pure a : SRun σ A) := .op hq (.pure a)

theorem answer (c : Call) (f : σ → Except Nat Val × σ) :
    IRel Q (fun _ _ => Stateful.answer c fun x => ((f x.2).1, x.1, (f x.2).2)) (Stateful.answer c f) := fun st => by
  unfold Stateful.answer
  rcases h : f st with ⟨x | x, st1⟩ <;>
    · refine ⟨[.call c], rfl, nofun, fun τ F t => ?_⟩
      simp only [h]
      rfl

theorem liftBind {m : ∀ τ : Type, Env α β τ → SRun (τ × σ) A} {m' : Run A}
    {f : ∀ τ : Type, Env α β τ → A → SRun (τ × σ) B} {f' : A → Run B} (h : IRel Q m (SRun.lift m'))
    (hf : ∀ a, IRel Q (fun τ F => f τ F a) (SRun.lift (f' a))) :
    IRel Q (fun τ F => m τ F >>= fun a => f τ F a) (SRun.lift (m' >>= f')) := by
  rw [Stateful.lift_bind]; exact .bind h hf

theorem liftIte {c : Prop} [Decidable c] {m n : ∀ τ : Type, Env α β τ → SRun (τ × σ) A} {m' n' : Run A}
    (h : IRel Q m (SRun.lift m')) (h' : IRel Q n (SRun.lift n')) :
    IRel Q (fun τ F => if c then m τ F else n τ F) (SRun.lift (if c then m' else n')) := by
  rw [Stateful.lift_ite]; exact .ite h h'

theorem liftPure (a : A) : IRel Q (fun _ _ => SRun.pure a) (SRun.lift (M.pure a) : SRun σ A) := .pure a

theorem built (hq : Q .value) (T : Ty) (m : Run A) :
    IRel Q (fun _ F => Interrupted.built F T m) (SRun.lift m : SRun σ A) := by
  unfold Interrupted.built
  by_cases h : T = .void
  · simpa only [if_pos h] using IRel.lift m
  · simpa only [if_neg h] using IRel.op hq (IRel.lift m)

end IRel

/-! ### Basic parsers -/

section
variable (hQ : ∀ a x, Q (.compare a x))
include hQ

theorem contains_rel (x : β) : ∀ arr : List α,
    IRel Q (fun _ F => contains F C arr x) (SRun.pure (Tok3n.contains C.eqv arr x) : SRun σ Bool)
  | [] => .pure _
  | a :: as => by
    simp only [contains, Tok3n.contains]
    refine .op (hQ a x) ?_
    by_cases h : C.eqv a x = true
    · simpa only [if_pos h] using IRel.pure true
    · simpa only [if_neg h] using contains_rel x as

theorem equalLoop_rel (l : Nat → Run α) (r : Nat → Run β) : ∀ n i : Nat,
    IRel Q (fun _ F => equalLoop F C l r n i) (SRun.lift (Span.equalLoop l r C.eqv n i) : SRun σ Bool)
  | 0, _ => .liftPure _
  | n + 1, i => .liftBind (.lift _) fun _ => .liftBind (.lift _) fun _ => .op (hQ _ _)
      (.liftIte (.liftPure _) (equalLoop_rel l r n _))

theorem failureCondition_rel (b : BasicP α) (s : Span) :
    IRel Q (fun _ F => failureCondition F C b s) (SRun.lift (Tok3n.failureCondition C b s) : SRun σ Bool) := by
  cases b with
  | anyOf arr =>
    exact .liftIte (.liftPure _) (.liftBind (.lift _) fun x => .bind (contains_rel hQ x arr) fun c => .pure _)
  | noneOf arr => exact .liftIte (.liftPure _) (.liftBind (.lift _) fun x => contains_rel hQ x arr)
  | allOf arr =>
    refine .liftIte (.liftPure _) (.liftBind (.lift _) fun f => .liftBind ?_ fun e => .liftPure _)
    exact .liftIte (.liftPure _) (equalLoop_rel hQ _ _ _ _)
  | anything => exact .liftPure _

theorem parseBasic_rel (b : BasicP α) (s : Span) :
    IRel Q (fun _ F => parseBasic F C b s) (SRun.lift (Tok3n.parseBasic C b s) : SRun σ R) :=
  .liftBind (failureCondition_rel hQ b s) fun _ => .liftIte (.liftPure _) (.liftBind (.lift _) fun _ => .liftPure _)

theorem lookBasic_rel (b : BasicP α) (s : Span) :
    IRel Q (fun _ F => lookBasic F C b s) (SRun.lift (Tok3n.lookBasic C b s) : SRun σ R) :=
  .liftBind (failureCondition_rel hQ b s) fun _ => .liftIte (.liftPure _) (.liftBind (.lift _) fun _ => .liftPure _)

/-! ### The specialisations of join -/

theorem joinExactlyLoop_rel (b : BasicP α) (o : Span) : ∀ (n : Nat) (s r : Span),
    IRel Q (fun _ F => joinExactlyLoop F C b o n s r) (SRun.lift (Tok3n.joinExactlyLoop C b o n s r) : SRun σ R)
  | 0, _, _ => .liftPure _
  | n + 1, _, _ => .liftBind (failureCondition_rel hQ b _) fun _ => .liftIte (.liftPure _)
      (.liftBind (.lift _) fun _ => joinExactlyLoop_rel b o n _ _)

theorem lookJoinExactlyLoop_rel (b : BasicP α) (o : Span) : ∀ (n : Nat) (s : Span),
    IRel Q (fun _ F => lookJoinExactlyLoop F C b o n s) (SRun.lift (Tok3n.lookJoinExactlyLoop C b o n s) : SRun σ R)
  | 0, _ => .liftPure _
  | n + 1, _ => .liftBind (failureCondition_rel hQ b _) fun _ => .liftIte (.liftPure _)
      (.liftBind (.lift _) fun _ => lookJoinExactlyLoop_rel b o n _)

theorem joinRepeatLoop_rel (b : BasicP α) : ∀ (n : Nat) (s r : Span),
    IRel Q (fun _ F => joinRepeatLoop F C b n s r) (SRun.lift (Tok3n.joinRepeatLoop C b n s r) : SRun σ _)
  | 0, _, _ => .diverge
  | n + 1, _, _ => .liftBind (failureCondition_rel hQ b _) fun _ => .liftIte (.liftPure _)
      (.liftBind (.lift _) fun _ => joinRepeatLoop_rel b n _ _)

theorem lookJoinRepeatLoop_rel (b : BasicP α) : ∀ (n : Nat) (s : Span),
    IRel Q (fun _ F => lookJoinRepeatLoop F C b n s) (SRun.lift (Tok3n.lookJoinRepeatLoop C b n s) : SRun σ _)
  | 0, _ => .diverge
  | n + 1, _ => .liftBind (failureCondition_rel hQ b _) fun _ => .liftIte (.liftPure _)
      (.liftBind (.lift _) fun _ => lookJoinRepeatLoop_rel b n _)

end

/-! ### `lookahead` -/

section
variable (hQ : ∀ a x, Q (.compare a x))

/-- `lookahead` of a parser in all environments and without -/
def LookRel (Q : Op α β → Prop) (P : ∀ τ : Type, Env α β τ → Stateful.Sub (τ × σ)) (P' : Stateful.Sub σ) : Prop :=
  ∀ s, IRel Q (fun τ F => (P τ F).look s) (P'.look s)

/-- elements that are looked ahead -/
inductive LooksRel (Q : Op α β → Prop) :
    (∀ τ : Type, Env α β τ → List (Stateful.Elem (τ × σ))) → List (Stateful.Elem σ) → Prop where
  | nil : LooksRel Q (fun _ _ => []) []
  | cons {P P' t es es'} : LookRel Q P P' → LooksRel Q es es' →
      LooksRel Q (fun τ F => ⟨P τ F, t, none⟩ :: es τ F) (⟨P', t, none⟩ :: es')

theorem mkLookElems_rel {rec : ∀ τ : Type, Env α β τ → Parser α → Stateful.Sub (τ × σ)} {rec' : Parser α → Stateful.Sub σ}
    (h : ∀ q, LookRel Q (fun τ F => rec τ F q) (rec' q)) : ∀ ps : List (Parser α),
      LooksRel Q (fun τ F => Stateful.mkLookElems (rec τ F) C ps) (Stateful.mkLookElems rec' C ps)
  | [] => .nil
  | q :: ps => .cons (P := fun τ F => rec τ F q) (h q) (mkLookElems_rel h ps)

theorem lookOr_rel {es : ∀ τ : Type, Env α β τ → List (Stateful.Elem (τ × σ))} {es' : List (Stateful.Elem σ)}
    (h : LooksRel Q es es') (T : Ty) (u c : Bool) (x : Exec) :
    IRel Q (fun τ F => Stateful.foldOr (Stateful.execute C T u c) (es τ F) x)
      (Stateful.foldOr (Stateful.execute C T u c) es' x) := by
  induction h generalizing x with
  | nil => exact .pure _
  | @cons P P' t es es' hP _ ih =>
    refine .bind (m := fun τ F => Stateful.execute C T u c ⟨P τ F, t, none⟩ x) ?_ fun y => .ite (.pure _) (ih _)
    exact .bind (m := fun τ F => (P τ F).look x.input) (hP _) fun r => .pure _

theorem lookAnd_rel {es : ∀ τ : Type, Env α β τ → List (Stateful.Elem (τ × σ))} {es' : List (Stateful.Elem σ)}
    (h : LooksRel Q es es') (T : Ty) (u c : Bool) (x : Exec) :
    IRel Q (fun τ F => Stateful.foldAnd (Stateful.execute C T u c) (es τ F) x)
      (Stateful.foldAnd (Stateful.execute C T u c) es' x) := by
  induction h generalizing x with
  | nil => exact .pure _
  | @cons P P' t es es' hP _ ih =>
    refine .bind (m := fun τ F => Stateful.execute C T u c ⟨P τ F, t, none⟩ x) ?_ fun y => .ite (ih _) (.pure _)
    exact .bind (m := fun τ F => (P τ F).look x.input) (hP _) fun r => .pure _

variable {P D : ∀ τ : Type, Env α β τ → Stateful.Sub (τ × σ)} {P' D' : Stateful.Sub σ}

theorem lookExactlyLoop_rel (h : LookRel Q P P') (o : Span) : ∀ (n : Nat) (s : Span),
    IRel Q (fun τ F => Stateful.lookExactlyLoop (P τ F) o n s) (Stateful.lookExactlyLoop P' o n s)
  | 0, _ => .pure _
  | n + 1, s => .bind (m := fun τ F => (P τ F).look s) (h s) fun _ => .ite (.pure _) (lookExactlyLoop_rel h o n _)

theorem lookOneOrMoreLoop_rel (h : LookRel Q P P') : ∀ (n : Nat) (b : Bool) (s : Span),
    IRel Q (fun τ F => Stateful.lookOneOrMoreLoop (P τ F) n b s) (Stateful.lookOneOrMoreLoop P' n b s)
  | 0, _, _ => .diverge
  | n + 1, b, s => .bind (m := fun τ F => (P τ F).look s) (h s) fun _ => .ite (.pure _) (lookOneOrMoreLoop_rel h n _ _)

theorem lookZeroOrMoreLoop_rel (h : LookRel Q P P') : ∀ (n : Nat) (s : Span),
    IRel Q (fun τ F => Stateful.lookZeroOrMoreLoop (P τ F) n s) (Stateful.lookZeroOrMoreLoop P' n s)
  | 0, _ => .diverge
  | n + 1, s => .bind (m := fun τ F => (P τ F).look s) (h s) fun _ => .ite (.pure _) (lookZeroOrMoreLoop_rel h n _)

theorem lookDelimitLoop_rel (h : LookRel Q P P') (hd : LookRel Q D D') : ∀ (n : Nat) (r : R) (s : Span),
    IRel Q (fun τ F => Stateful.lookDelimitLoop (P τ F) (D τ F) n r s) (Stateful.lookDelimitLoop P' D' n r s)
  | 0, _, _ => .diverge
  | n + 1, r, s => .ite (.pure _) (.bind (m := fun τ F => (D τ F).look r.rem) (hd _) fun d => .ite (.pure _)
      (.bind (m := fun τ F => (P τ F).look d.rem) (h _) fun _ => lookDelimitLoop_rel h hd n _ _))

include hQ

theorem semJoin_look_rel {rec : ∀ τ : Type, Env α β τ → Parser α → Stateful.Sub (τ × σ)}
    {rec' : Parser α → Stateful.Sub σ} (h : ∀ q, LookRel Q (fun τ F => rec τ F q) (rec' q)) (n : Nat) (p : Parser α) :
    LookRel Q (fun τ F => semJoin F C (rec τ F) n p) (Stateful.semJoin C rec' n p) := by
  cases p
  case exactly q k =>
    simp only [semJoin, Stateful.semJoin]
    cases asBasic C q
    exacts [fun s => h _ s, fun s => lookJoinExactlyLoop_rel hQ _ s k s]
  case maybe q =>
    simp only [semJoin, Stateful.semJoin]
    cases asBasic C q
    · exact fun s => h _ s
    · exact fun s => .liftBind (failureCondition_rel hQ _ s) fun _ => .liftIte (.liftPure _)
        (.liftBind (.lift _) fun _ => .liftPure _)
  case oneOrMore q =>
    simp only [semJoin, Stateful.semJoin]
    cases asBasic C q
    · exact fun s => h _ s
    · exact fun s => .liftBind (failureCondition_rel hQ _ s) fun _ => .liftIte (.liftPure _)
        (.liftBind (.lift _) fun _ => .liftBind (lookJoinRepeatLoop_rel hQ _ n _) fun _ => .liftPure _)
  case zeroOrMore q =>
    simp only [semJoin, Stateful.semJoin]
    cases asBasic C q
    · exact fun s => h _ s
    · exact fun s => .liftBind (lookJoinRepeatLoop_rel hQ _ n _) fun _ => .liftPure _
  all_goals exact fun s => h _ s

theorem step_look_rel {rec : ∀ τ : Type, Env α β τ → Parser α → Stateful.Sub (τ × σ)}
    {rec' : Parser α → Stateful.Sub σ} (h : ∀ q, LookRel Q (fun τ F => rec τ F q) (rec' q)) (n : Nat) (p : Parser α) :
    LookRel Q (fun τ F => step F C U (rec τ F) n p) (Stateful.step C U rec' n p) := by
  intro s
  cases p with
  | anyOf | noneOf | allOf | anything => exact lookBasic_rel hQ _ s
  | epsilon => exact IRel.lift (parseEpsilon s)
  | choice ps => exact .bind (lookOr_rel (mkLookElems_rel h ps) _ _ _ _) fun _ => .ite (.pure _) (.pure _)
  | sequence ps => exact .bind (lookAnd_rel (mkLookElems_rel h ps) _ _ _ _) fun _ => .ite (.pure _) (.pure _)
  | maybe q => exact .bind (m := fun τ F => (rec τ F q).look s) (h q s) fun _ => .ite (.pure _) (.pure _)
  | exactly q k => exact lookExactlyLoop_rel (P := fun τ F => rec τ F q) (h q) s k s
  | oneOrMore q =>
    exact .bind (lookOneOrMoreLoop_rel (P := fun τ F => rec τ F q) (h q) n _ _) fun _ => .ite (.pure _) (.pure _)
  | zeroOrMore q => exact .bind (lookZeroOrMoreLoop_rel (P := fun τ F => rec τ F q) (h q) n _) fun _ => .pure _
  | delimit q d =>
    exact .bind (m := fun τ F => (rec τ F q).look s) (h q s) fun _ => .ite (.pure _)
      (.bind (lookDelimitLoop_rel (P := fun τ F => rec τ F q) (D := fun τ F => rec τ F d) (h q) (h d) n _ _) fun _ => .pure _)
  | ignore q => exact h q s
  | complete q => exact .bind (m := fun τ F => (rec τ F q).look s) (h q s) fun _ => .ite (.pure _) (.pure _)
  | join q => exact semJoin_look_rel hQ h n q s
  | map q f => exact h q s
  | filter q f => exact h q s
  | named q _ => exact h q s
  | custom k => exact h _ s

theorem sem_look_rel (n : Nat) (p : Parser α) :
    LookRel Q (fun _ F => sem F C U n p) (Stateful.sem C U n p) := by
  induction n generalizing p with
  | zero => exact fun s => .diverge
  | succ n ih => exact step_look_rel hQ ih n p

end

/-! ### `parse` -/

/-- both of a parser in all environments and without -/
structure SubRel (P : ∀ τ : Type, Env α β τ → Stateful.Sub (τ × σ)) (P' : Stateful.Sub σ) : Prop where
  parse : ∀ s, IRel (fun _ => True) (fun τ F => (P τ F).parse s) (P'.parse s)
  look : ∀ s, IRel (fun _ => True) (fun τ F => (P τ F).look s) (P'.look s)

/-- elements of a choice or sequence -/
inductive ElemsRel : (∀ τ : Type, Env α β τ → List (Stateful.Elem (τ × σ))) → List (Stateful.Elem σ) → Prop where
  | nil : ElemsRel (fun _ _ => []) []
  | cons {P P' t i es es'} : SubRel P P' → ElemsRel es es' →
      ElemsRel (fun τ F => ⟨P τ F, t, i⟩ :: es τ F) (⟨P', t, i⟩ :: es')

theorem mkElems_rel {rec : ∀ τ : Type, Env α β τ → Parser α → Stateful.Sub (τ × σ)} {rec' : Parser α → Stateful.Sub σ}
    (h : ∀ q, SubRel (fun τ F => rec τ F q) (rec' q)) : ∀ (ps : List (Parser α)) (is : List (Option Nat)),
      ElemsRel (fun τ F => Stateful.mkElems (rec τ F) C ps is) (Stateful.mkElems rec' C ps is)
  | [], _ => .nil
  | _ :: _, [] => .nil
  | q :: ps, _ :: is => .cons (P := fun τ F => rec τ F q) (h q) (mkElems_rel h ps is)

theorem execute_rel {P : ∀ τ : Type, Env α β τ → Stateful.Sub (τ × σ)} {P' : Stateful.Sub σ} (h : SubRel P P')
    (t : Ty) (i : Option Nat) (T : Ty) (u c : Bool) (x : Exec) :
    IRel (fun _ => True) (fun τ F => execute F C T u c ⟨P τ F, t, i⟩ x) (Stateful.execute C T u c ⟨P', t, i⟩ x) := by
  cases i with
  | none => exact .bind (m := fun τ F => (P τ F).look x.input) (h.look _) fun r => .pure _
  | some i =>
    refine .bind (m := fun τ F => (P τ F).parse x.input) (h.parse _) fun r => .ite (.pure _)
      (.bind ?_ fun _ => .pure _)
    have b : ∀ m : Run Val, IRel (fun _ => True) (fun _ (F : Env α β _) => built F T m) (SRun.lift m : SRun σ Val) :=
      fun m => .built trivial T m
    cases u <;> cases c <;> exact b _

theorem foldOr_rel {es : ∀ τ : Type, Env α β τ → List (Stateful.Elem (τ × σ))} {es' : List (Stateful.Elem σ)}
    (h : ElemsRel es es') (T : Ty) (u c : Bool) (x : Exec) :
    IRel (fun _ => True) (fun τ F => Stateful.foldOr (execute F C T u c) (es τ F) x)
      (Stateful.foldOr (Stateful.execute C T u c) es' x) := by
  induction h generalizing x with
  | nil => exact .pure _
  | cons hP _ ih => exact .bind (execute_rel hP _ _ T u c x) fun y => .ite (.pure _) (ih _)

theorem foldAnd_rel {es : ∀ τ : Type, Env α β τ → List (Stateful.Elem (τ × σ))} {es' : List (Stateful.Elem σ)}
    (h : ElemsRel es es') (T : Ty) (u c : Bool) (x : Exec) :
    IRel (fun _ => True) (fun τ F => Stateful.foldAnd (execute F C T u c) (es τ F) x)
      (Stateful.foldAnd (Stateful.execute C T u c) es' x) := by
  induction h generalizing x with
  | nil => exact .pure _
  | cons hP _ ih => exact .bind (execute_rel hP _ _ T u c x) fun y => .ite (ih _) (.pure _)

theorem build_rel (T : Ty) (v : Val) (s : Span) :
    IRel (fun _ => True) (fun _ (F : Env α β _) => build F T v s) (SRun.pure (builderBuild T v s) : SRun σ R) :=
  .built trivial T (M.pure _)

theorem invoke_rel (f : Fn) : ∀ args : List Val,
    IRel (fun _ => True) (fun _ (_ : Env α β _) => Stateful.invoke C (carried U) f args) (Stateful.invoke C U f args) := by
  induction f with
  | user k => exact fun args => .answer _ _
  | apply f ih =>
    intro args
    unfold Stateful.invoke
    rcases args with _ | ⟨v, _ | ⟨w, ws⟩⟩
    · exact .lift _
    · dsimp only
      cases componentsOf v with
      | none => exact .lift _
      | some vs => exact ih vs
    · exact .lift _
  | const k => exact fun args => .answer _ fun st => (.ok (C.constVal k), st)
  | construct t => exact fun args => .answer _ _
  | deflt t => exact fun args => .bind (.lift _) fun _ => .lift _

theorem called_rel (f : Fn) (args : List Val) :
    IRel (fun _ => True) (fun _ F => invoke F C U f args) (Stateful.invoke C U f args) := by
  have h : IRel (fun _ => True) (fun _ F => invoke F C U f args) (Stateful.invoke C U f args >>= SRun.pure) :=
    .op trivial (.bind (invoke_rel f args) fun v => .opPure trivial v)
  have e : (Stateful.invoke C U f args >>= SRun.pure) = Stateful.invoke C U f args := by
    funext st
    show M.bind (Stateful.invoke C U f args st) (fun x => M.pure (x.1, x.2)) = _
    exact M.bind_pure _
  rwa [e] at h

section
variable {P D : ∀ τ : Type, Env α β τ → Stateful.Sub (τ × σ)} {P' D' : Stateful.Sub σ}

theorem exactlyLoop_rel (h : SubRel P P') (T : Ty) (o : Span) : ∀ (n i : Nat) (s : Span) (v : Val),
    IRel (fun _ => True) (fun τ F => exactlyLoop F T (P τ F) o n i s v) (Stateful.exactlyLoop T P' o n i s v)
  | 0, _, _, _ => build_rel _ _ _
  | n + 1, _, s, _ => .bind (m := fun τ F => (P τ F).parse s) (h.parse s) fun _ => .ite (.pure _)
      (.bind (.built trivial _ _) fun _ => exactlyLoop_rel h T o n _ _ _)

theorem oneOrMoreLoop_rel (h : SubRel P P') (T : Ty) : ∀ (n : Nat) (b : Bool) (s : Span) (v : Val),
    IRel (fun _ => True) (fun τ F => oneOrMoreLoop F T (P τ F) n b s v) (Stateful.oneOrMoreLoop T P' n b s v)
  | 0, _, _, _ => .diverge
  | n + 1, _, s, _ => .bind (m := fun τ F => (P τ F).parse s) (h.parse s) fun _ => .ite (.pure _)
      (.bind (.built trivial _ _) fun _ => oneOrMoreLoop_rel h T n _ _ _)

theorem zeroOrMoreLoop_rel (h : SubRel P P') (T : Ty) : ∀ (n : Nat) (s : Span) (v : Val),
    IRel (fun _ => True) (fun τ F => zeroOrMoreLoop F T (P τ F) n s v) (Stateful.zeroOrMoreLoop T P' n s v)
  | 0, _, _ => .diverge
  | n + 1, s, _ => .bind (m := fun τ F => (P τ F).parse s) (h.parse s) fun _ => .ite (.pure _)
      (.bind (.built trivial _ _) fun _ => zeroOrMoreLoop_rel h T n _ _)

theorem delimitLoop_rel (h : SubRel P P') (hd : SubRel D D') (T tp td : Ty) : ∀ (n : Nat) (r : R) (s : Span) (v : Val),
    IRel (fun _ => True) (fun τ F => delimitLoop F T tp td (P τ F) (D τ F) n r s v)
      (Stateful.delimitLoop T tp td P' D' n r s v)
  | 0, _, _, _ => .diverge
  | n + 1, r, _, _ => .ite (.pure _) (.bind (.built trivial _ _) fun _ =>
      .bind (m := fun τ F => (D τ F).parse r.rem) (hd.parse _) fun d => .ite (.pure _)
        (.bind (m := fun τ F => (P τ F).parse d.rem) (h.parse _) fun _ => .bind (.built trivial _ _) fun _ =>
          delimitLoop_rel h hd T tp td n _ _ _))

theorem joinGeneric_rel (h : SubRel P P') (s : Span) :
    IRel (fun _ => True) (fun τ F => (joinGeneric F C (P τ F)).parse s) ((Stateful.joinGeneric C P').parse s) := by
  refine .bind (m := fun τ F => (P τ F).parse s) (h.parse s) fun r => .ite (.op trivial (.bind (.lift _) fun j => ?_)) (.pure _)
  cases j <;> exact .pure _

end

variable {rec : ∀ τ : Type, Env α β τ → Parser α → Stateful.Sub (τ × σ)} {rec' : Parser α → Stateful.Sub σ}

theorem semJoin_rel (h : ∀ q, SubRel (fun τ F => rec τ F q) (rec' q)) (n : Nat) (p : Parser α) (s : Span) :
    IRel (fun _ => True) (fun τ F => (semJoin F C (rec τ F) n p).parse s) ((Stateful.semJoin C rec' n p).parse s) := by
  have hQ : ∀ (a : α) (x : β), (fun _ : Op α β => True) (.compare a x) := fun _ _ => trivial
  cases p
  case exactly q k =>
    simp only [semJoin, Stateful.semJoin]
    cases asBasic C q
    exacts [joinGeneric_rel (h _) s, joinExactlyLoop_rel hQ _ s k s _]
  case maybe q =>
    simp only [semJoin, Stateful.semJoin]
    cases asBasic C q
    · exact joinGeneric_rel (h _) s
    · exact .liftBind (failureCondition_rel hQ _ s) fun _ => .liftIte (.liftPure _)
        (.liftBind (.lift _) fun _ => .liftPure _)
  case oneOrMore q =>
    simp only [semJoin, Stateful.semJoin]
    cases asBasic C q
    · exact joinGeneric_rel (h _) s
    · exact .liftBind (failureCondition_rel hQ _ s) fun _ => .liftIte (.liftPure _)
        (.liftBind (.lift _) fun _ => .liftBind (joinRepeatLoop_rel hQ _ n _ _) fun _ => .liftPure _)
  case zeroOrMore q =>
    simp only [semJoin, Stateful.semJoin]
    cases asBasic C q
    · exact joinGeneric_rel (h _) s
    · exact .liftBind (joinRepeatLoop_rel hQ _ n _ _) fun _ => .liftPure _
  all_goals exact joinGeneric_rel (h _) s

theorem step_rel (h : ∀ q, SubRel (fun τ F => rec τ F q) (rec' q)) (n : Nat) (p : Parser α) :
    SubRel (fun τ F => step F C U (rec τ F) n p) (Stateful.step C U rec' n p) := by
  have hQ : ∀ (a : α) (x : β), (fun _ : Op α β => True) (.compare a x) := fun _ _ => trivial
  refine ⟨fun s => ?_, step_look_rel hQ (fun q => (h q).look) n p⟩
  cases p with
  | anyOf | noneOf | allOf | anything => exact parseBasic_rel hQ _ s
  | epsilon => exact IRel.lift (parseEpsilon s)
  | choice ps =>
    exact .bind (.built trivial _ _) fun _ => .bind (foldOr_rel (mkElems_rel h ps _) _ _ _ _) fun _ =>
      .ite (.pure _) (build_rel _ _ _)
  | sequence ps =>
    exact .bind (.built trivial _ _) fun _ => .bind (foldAnd_rel (mkElems_rel h ps _) _ _ _ _) fun _ =>
      .ite (.pure _) (build_rel _ _ _)
  | maybe q =>
    exact .bind (.built trivial _ _) fun _ => .bind (m := fun τ F => (rec τ F q).parse s) ((h q).parse s) fun _ =>
      .bind (.ite (.built trivial _ _) (.pure _)) fun _ => build_rel _ _ _
  | exactly q k =>
    exact .bind (.built trivial _ _) fun _ => exactlyLoop_rel (P := fun τ F => rec τ F q) (h q) _ s k _ s _
  | oneOrMore q =>
    exact .bind (.built trivial _ _) fun _ => .bind (oneOrMoreLoop_rel (P := fun τ F => rec τ F q) (h q) _ n _ _ _) fun _ =>
      .ite (build_rel _ _ _) (.pure _)
  | zeroOrMore q =>
    exact .bind (.built trivial _ _) fun _ => .bind (zeroOrMoreLoop_rel (P := fun τ F => rec τ F q) (h q) _ n _ _) fun _ =>
      build_rel _ _ _
  | delimit q d =>
    exact .bind (.built trivial _ _) fun _ => .bind (m := fun τ F => (rec τ F q).parse s) ((h q).parse s) fun _ =>
      .ite (.pure _) (.bind (delimitLoop_rel (P := fun τ F => rec τ F q) (D := fun τ F => rec τ F d) (h q) (h d) _ _ _ n _ _ _)
        fun _ => build_rel _ _ _)
  | ignore q => exact (h q).look s
  | complete q =>
    exact .bind (m := fun τ F => (rec τ F q).parse s) ((h q).parse s) fun _ => .ite (.pure _) (.opPure trivial _)
  | join q => exact semJoin_rel h n q s
  | map q f =>
    exact .bind (m := fun τ F => (rec τ F q).parse s) ((h q).parse s) fun _ => .ite (.pure _)
      (.bind (.lift _) fun _ => .bind (called_rel _ _) fun _ => .ite (.pure _) (.pure _))
  | filter q f =>
    exact .bind (m := fun τ F => (rec τ F q).parse s) ((h q).parse s) fun _ => .ite (.pure _)
      (.bind (.lift _) fun _ => .bind (called_rel _ _) fun _ => .ite (.pure _) (.pure _))
  | named q _ => exact (h q).parse s
  | custom k =>
    exact .bind (m := fun τ F => (rec τ F _).parse s) ((h _).parse s) fun _ => .built trivial _ _

theorem sem_rel (n : Nat) (p : Parser α) : SubRel (fun _ F => sem F C U n p) (Stateful.sem C U n p) := by
  induction n generalizing p with
  | zero => exact ⟨fun _ => .diverge, fun _ => .diverge⟩
  | succ n ih => exact step_rel ih n p

/-! ### What is seen of it -/

section
variable {τ : Type} (F : Env α β τ)

theorem play_done (t : τ) (ev : List (Event α β)) (r : Res (A × σ)) : ∃ l x, play F t ev r = .done l x := by
  induction ev generalizing t with
  | nil => rcases r with ⟨a, st⟩ | e <;> exact ⟨_, _, rfl⟩
  | cons y ev ih =>
    cases y with
    | op o =>
      simp only [play]
      cases F o t with
      | ok t => exact ih t
      | error e => exact ⟨_, _, rfl⟩
    | call c =>
      obtain ⟨l, x, h⟩ := ih t
      simp only [play, h]
      exact ⟨_, _, rfl⟩

theorem play_cases (t : τ) (ev : List (Event α β)) (r : Res (A × σ)) :
    (∃ before e, play F t ev r = .done before (.err (.exn e)) ∧ before <+: calls ev ∧ ∃ o t', F o t' = .error e) ∨
    (∃ x st' t', r = .ok (x, st') ∧ play F t ev r = .done (calls ev) (.ok (x, t', st'))) ∨
    ∃ e, r = .err e ∧ play F t ev r = .done (calls ev) (.err e) := by
  induction ev generalizing t with
  | nil =>
    rcases r with ⟨a, st⟩ | e
    · exact .inr (.inl ⟨a, st, t, rfl, rfl⟩)
    · exact .inr (.inr ⟨e, rfl, rfl⟩)
  | cons y ev ih =>
    cases y with
    | op o =>
      simp only [play, calls]
      cases h : F o t with
      | ok t => exact ih t
      | error e => exact .inl ⟨[], e, rfl, List.nil_prefix, o, t, h⟩
    | call c =>
      simp only [play, calls]
      rcases ih t with ⟨b, e, h, hb, h'⟩ | ⟨x, st', t', rfl, h⟩ | ⟨e, rfl, h⟩
      · rw [h]
        exact .inl ⟨c :: b, e, rfl, by simpa using hb, h'⟩
      · rw [h]
        exact .inr (.inl ⟨x, st', t', rfl, rfl⟩)
      · rw [h]
        exact .inr (.inr ⟨e, rfl, rfl⟩)

theorem Parse_diverge {p : Parser α} {s : Span} {st : σ} (h : Stateful.Parse C U p s st = .diverge) (t : τ) :
    Parse F C U p s (t, st) = .diverge ∨ Thrown F (Parse F C U p s (t, st)) := by
  cases h1 : Parse F C U p s (t, st) with
  | diverge => exact .inl rfl
  | done l r =>
    obtain ⟨n, hn⟩ := ((sem_lim p s (t, st)).1.iff l r).1 h1
    have h2 := (sem_rel (C := C) (U := U) n p).parse s st
    have h3 : (Stateful.sem C U n p).parse s st = .diverge := by
      cases h4 : (Stateful.sem C U n p).parse s st with
      | diverge => rfl
      | done l r => rw [Stateful.Parse_eq_done.2 ⟨n, h4⟩] at h; cases h
    rw [h3] at h2
    have h5 := h2 τ F t
    simp only [hn] at h5
    exact h5

end

/-- the calls before each operation -/
def points : List (Event α β) → List (List Call)
  | [] => []
  | .op _ :: ev => [] :: points ev
  | .call c :: ev => (points ev).map (c :: ·)

theorem points_prefix {l : List Call} : ∀ {ev : List (Event α β)}, l ∈ points ev → l <+: calls ev
  | .op _ :: ev, h => by
    rcases List.mem_cons.1 h with rfl | h
    · exact List.nil_prefix
    · exact points_prefix (ev := ev) h
  | .call c :: ev, h => by
    obtain ⟨k, hk, rfl⟩ := List.mem_map.1 h
    simpa [calls] using points_prefix (ev := ev) hk

theorem points_chain : ∀ ev : List (Event α β), (points ev).Pairwise (· <+: ·)
  | [] => .nil
  | .op _ :: ev => .cons (fun _ _ => List.nil_prefix) (points_chain ev)
  | .call c :: ev => by
    simp only [points, List.pairwise_map]
    exact (points_chain ev).imp fun h => by simpa using h

theorem play_nth_at (ev : List (Event α β)) (r : Res (A × σ)) (i e k : Nat) :
    match (points ev)[i]? with
    | some l => play (nth (k + i) e) k ev r = .done l (.err (.exn e))
    | none => ∀ x, r = .ok x → play (nth (k + i) e) k ev r = .done (calls ev) (.ok (x.1, k + (points ev).length, x.2)) := by
  induction ev generalizing i k with
  | nil => rintro x rfl; rfl
  | cons y ev ih =>
    cases y with
    | op o =>
      cases i with
      | zero => simp [points, play, nth]
      | succ i =>
        have h := ih i (k + 1)
        have e1 : k + 1 + i = k + (i + 1) := by omega
        have e2 : k + 1 + (points ev).length = k + ((points ev).length + 1) := by omega
        rw [e1, e2] at h
        have e3 : ∀ r : Res (A × σ), play (nth (k + (i + 1)) e) k (.op o :: ev) r = play (nth (k + (i + 1)) e) (k + 1) ev r := fun r => by
          simp [play, nth]
        rw [e3]
        simpa only [points, List.getElem?_cons_succ, List.length_cons, calls] using h
    | call c =>
      have h := ih i k
      simp only [points, List.getElem?_map, List.length_map, calls, play]
      cases h1 : (points ev)[i]? with
      | some l =>
        rw [h1] at h
        simp only [Option.map_some]
        rw [h]; rfl
      | none =>
        rw [h1] at h
        simp only [Option.map_none]
        intro x hx
        rw [h x hx]; rfl

theorem play_nth (ev : List (Event α β)) (r : Res (A × σ)) (i e : Nat) :
    match (points ev)[i]? with
    | some l => play (nth i e) 0 ev r = .done l (.err (.exn e))
    | none => ∀ x, r = .ok x → play (nth i e) 0 ev r = .done (calls ev) (.ok (x.1, (points ev).length, x.2)) := by
  simpa only [Nat.zero_add] using play_nth_at ev r i e 0

end Tok3n.Interrupted
