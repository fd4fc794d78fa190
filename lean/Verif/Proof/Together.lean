import Verif.Proof.StatefulTracks
import Verif.Proof.StatefulRelated
import Verif.Spec.Together
/-
A run with stateful callbacks is determined by the answers it gets.
-/

namespace Tok3n.Stateful

variable {σ τ α β : Type} {C : Ctx α β}

/-- the state after some calls -/
def after (U : Callbacks σ) (st : σ) (l : List Call) : σ := l.foldl (fun st c => (U.reply c st).2) st

/-- the calls of `l` get the same answers from `st` on and from `st'` on -/
def Agrees (U : Callbacks σ) (W : Callbacks τ) : σ → τ → List Call → Prop
  | _, _, [] => True
  | st, st', c :: l => (U.reply c st).1 = (W.reply c st').1 ∧ Agrees U W (U.reply c st).2 (W.reply c st').2 l

theorem Agrees.append {U : Callbacks σ} {W : Callbacks τ} {st : σ} {st' : τ} {l l' : List Call} :
    Agrees U W st st' (l ++ l') ↔ Agrees U W st st' l ∧ Agrees U W (after U st l) (after W st' l) l' := by
  induction l generalizing st st' with
  | nil => simp [Agrees, after]
  | cons c l ih => simp [Agrees, after, ih, and_assoc]

theorem Agrees.refl (U : Callbacks σ) (st : σ) (l : List Call) : Agrees U U st st l := by
  induction l generalizing st with
  | nil => trivial
  | cons c l ih => exact ⟨rfl, ih _⟩

theorem Agrees.symm {U : Callbacks σ} {W : Callbacks τ} {st : σ} {st' : τ} {l : List Call} (h : Agrees U W st st' l) :
    Agrees W U st' st l := by
  induction l generalizing st st' with
  | nil => trivial
  | cons c l ih => exact ⟨h.1.symm, ih h.2⟩

theorem after_append (U : Callbacks σ) (st : σ) (l l' : List Call) : after U st (l ++ l') = after U (after U st l) l' := by
  simp [after]

/-- the outcome of a run whose log is known, started elsewhere -/
def There (U : Callbacks σ) {A : Type} (m : SRun σ A) (x y : σ) (l : List Call) : Res (A × σ) → Prop
  | .ok (a, x') => x' = after U x l ∧ m y = .done l (.ok (a, after U y l))
  | .err e => m y = .done l (.err e)

/-- the assertion: started in another state that gives the same answers, the run is the same -/
def Replayed (U : Callbacks σ) (A : Type) (m : SRun σ A) : Prop :=
  ∀ x y l r, m x = .done l r → Agrees U U x y l → There U m x y l r

theorem replayed_closed (U : Callbacks σ) : Closed (Replayed U) where
  diverge _ := nofun
  lift A m hm x y l r h _ := by
    cases hm' : m with
    | diverge => simp [SRun.lift, hm', M.bind] at h
    | done l0 r0 =>
      obtain ⟨rfl, he⟩ := hm _ _ hm'
      cases r0 with
      | ok a =>
        simp only [SRun.lift, hm', M.bind, M.pure] at h
        cases h
        exact ⟨rfl, rfl⟩
      | err e =>
        simp only [SRun.lift, hm', M.bind] at h
        cases h
        exact rfl
  bind A B m f hm hf x y l r h ha := by
    change M.bind (m x) (fun z => f z.1 z.2) = _ at h
    have hy : (m >>= f) y = M.bind (m y) (fun z => f z.1 z.2) := rfl
    cases hx : m x with
    | diverge => rw [hx] at h; cases h
    | done l0 r0 =>
      rw [hx] at h
      cases r0 with
      | err e =>
        cases h
        have h2 : m y = _ := hm x y _ _ hx ha
        rw [There, hy, h2]; rfl
      | ok z =>
        obtain ⟨a, x1⟩ := z
        change M.after l0 (f a x1) = _ at h
        cases hfa : f a x1 with
        | diverge => rw [hfa] at h; cases h
        | done l1 r1 =>
          rw [hfa] at h
          cases h
          rw [Agrees.append] at ha
          obtain ⟨rfl, h2⟩ := hm x y _ _ hx ha.1
          have h3 := hf a _ (after U y l0) _ _ hfa ha.2
          cases r with
          | err e =>
            have h3 : f a (after U y l0) = _ := h3
            rw [There, hy, h2]
            show M.after l0 (f a (after U y l0)) = _
            rw [h3]; rfl
          | ok w =>
            obtain ⟨b, x2⟩ := w
            obtain ⟨h4, h5⟩ := h3
            refine ⟨by rw [h4, after_append], ?_⟩
            rw [hy, h2]
            show M.after l0 (f a (after U y l0)) = _
            rw [h5, after_append]; rfl

theorem answer_replayed (U : Callbacks σ) (c : Call) (f : σ → Except Nat Val × σ)
    (hf : ∀ x y, (U.reply c x).1 = (U.reply c y).1 → (f x).1 = (f y).1)
    (h2 : ∀ x, (U.reply c x).2 = (f x).2) : Replayed U _ (answer c f) := by
  intro x y l r h ha
  have key : ∀ z, answer c f z = match f z with
      | (.ok v, st) => .done [c] (.ok (v, st))
      | (.error e, _) => .done [c] (.err (.exn e)) := by
    intro z
    unfold answer
    rcases f z with ⟨_ | _, _⟩ <;> rfl
  rw [key] at h
  have hl : l = [c] := by
    revert h; rcases f x with ⟨_ | _, _⟩ <;> intro h <;> cases h <;> rfl
  subst hl
  have e1 := hf x y ha.1
  have e2 := h2 x
  have e3 := h2 y
  have hy := key y
  revert h e1 e2 e3 hy
  rcases f x with ⟨a, x1⟩
  rcases f y with ⟨b, y1⟩
  intro h e1 e2 e3 hy
  cases (show a = b from e1)
  cases a with
  | error e => cases h; exact hy
  | ok v =>
    cases h
    exact ⟨e2.symm, hy.trans (by rw [after, List.foldl_cons, e3]; rfl)⟩

theorem invoke_replayed (U : Callbacks σ) : ∀ (f : Fn) (args : List Val), Replayed U _ (invoke C U f args)
  | .user k, args => answer_replayed U ⟨.user k, args⟩ _ (fun _ _ h => h) fun _ => rfl
  | .apply f, args => by
    have H := replayed_closed U
    unfold invoke
    split
    · split
      · exact invoke_replayed U f _
      · exact H.lift _ _ (calm_closed.ill _)
    · exact H.lift _ _ (calm_closed.ill _)
  | .const k, args => answer_replayed U ⟨.const k, args⟩ _ (fun _ _ _ => rfl) fun _ => rfl
  | .construct t, args => answer_replayed U ⟨.construct t, args⟩ _ (fun _ _ h => h) fun _ => rfl
  | .deflt t, args => by
    intro x y l r h _
    cases hd : defaultVal C t with
    | none =>
      have key : ∀ z, invoke C U (.deflt t) args z = .done [⟨.deflt t, args⟩] (.err .ill) := fun z => by
        unfold invoke; rw [hd]; rfl
      rw [key] at h; cases h; exact key y
    | some v =>
      have key : ∀ z, invoke C U (.deflt t) args z = .done [⟨.deflt t, args⟩] (.ok (v, z)) := fun z => by
        unfold invoke; rw [hd]; rfl
      rw [key] at h; cases h; exact ⟨rfl, key y⟩

/-- A run is determined by the answers it gets. -/
theorem Parse_replayed (U : Callbacks σ) (p : Parser α) (s : Span) : Replayed U _ (Parse C U p s) := by
  intro x y l r h ha
  obtain ⟨n, hn⟩ := Parse_eq_done.1 h
  have h1 := (sem_closed (replayed_closed U) (C := C) (U := U) n p).2 (fun _ f _ args => invoke_replayed U f args) s x y l r hn ha
  cases r with
  | err e => exact Parse_eq_done.2 ⟨n, h1⟩
  | ok z => exact ⟨h1.1, Parse_eq_done.2 ⟨n, h1.2⟩⟩

/-- two kinds of callbacks and of state at once -/
def both (U : Callbacks σ) (W : Callbacks τ) : Callbacks (σ ⊕ τ) where
  fnCall k args
    | .inl st => ((U.fnCall k args st).1, .inl (U.fnCall k args st).2)
    | .inr st => ((W.fnCall k args st).1, .inr (W.fnCall k args st).2)
  ctor t args
    | .inl st => ((U.ctor t args st).1, .inl (U.ctor t args st).2)
    | .inr st => ((W.ctor t args st).1, .inr (W.ctor t args st).2)

theorem corresponds_left (U : Callbacks σ) (W : Callbacks τ) :
    ∀ f, Corresponds (fun st x => x = .inl st) U (both U W) f
  | .user _ => fun _ _ _ h => by subst h; exact ⟨rfl, rfl⟩
  | .construct _ => fun _ _ _ h => by subst h; exact ⟨rfl, rfl⟩
  | .apply f => corresponds_left U W f
  | .const _ => trivial
  | .deflt _ => trivial

theorem corresponds_right (U : Callbacks σ) (W : Callbacks τ) :
    ∀ f, Corresponds (fun st x => x = .inr st) W (both U W) f
  | .user _ => fun _ _ _ h => by subst h; exact ⟨rfl, rfl⟩
  | .construct _ => fun _ _ _ h => by subst h; exact ⟨rfl, rfl⟩
  | .apply f => corresponds_right U W f
  | .const _ => trivial
  | .deflt _ => trivial

theorem reply_left (U : Callbacks σ) (W : Callbacks τ) (c : Call) (st : σ) :
    (both U W).reply c (.inl st) = ((U.reply c st).1, .inl (U.reply c st).2) := by
  unfold Callbacks.reply; split <;> rfl
theorem reply_right (U : Callbacks σ) (W : Callbacks τ) (c : Call) (st : τ) :
    (both U W).reply c (.inr st) = ((W.reply c st).1, .inr (W.reply c st).2) := by
  unfold Callbacks.reply; split <;> rfl

theorem after_left (U : Callbacks σ) (W : Callbacks τ) (l : List Call) (st : σ) :
    after (both U W) (.inl st) l = .inl (after U st l) := by
  induction l generalizing st with
  | nil => rfl
  | cons c l ih => rw [after, List.foldl_cons, reply_left]; exact ih _
theorem after_right (U : Callbacks σ) (W : Callbacks τ) (l : List Call) (st : τ) :
    after (both U W) (.inr st) l = .inr (after W st l) := by
  induction l generalizing st with
  | nil => rfl
  | cons c l ih => rw [after, List.foldl_cons, reply_right]; exact ih _

theorem agrees_both {U : Callbacks σ} {W : Callbacks τ} {l : List Call} {st : σ} {st' : τ} (h : Agrees U W st st' l) :
    Agrees (both U W) (both U W) (.inl st) (.inr st') l := by
  induction l generalizing st st' with
  | nil => trivial
  | cons c l ih =>
    unfold Agrees
    rw [reply_left, reply_right]
    exact ⟨h.1, ih h.2⟩

theorem Parse_replay {U : Callbacks σ} {W : Callbacks τ} {p : Parser α} {s : Span} {st : σ} {st' : τ} {l : List Call}
    (ha : Agrees U W st st' l) :
    (∀ x st1, Parse C U p s st = .done l (.ok (x, st1)) →
      st1 = after U st l ∧ Parse C W p s st' = .done l (.ok (x, after W st' l))) ∧
    (∀ e, Parse C U p s st = .done l (.err e) → Parse C W p s st' = .done l (.err e)) := by
  have hl := Parse_rel (C := C) (p := p) (fun q f _ => corresponds_left U W f) s st _ rfl
  have hr := Parse_rel (C := C) (p := p) (fun q f _ => corresponds_right U W f) s st' _ rfl
  have key := Parse_replayed (C := C) (both U W) p s (.inl st) (.inr st') l
  refine ⟨fun x st1 h => ?_, fun e h => ?_⟩
  · rw [h] at hl
    cases hb : Parse C (both U W) p s (.inl st) with
    | diverge => rw [hb] at hl; cases hl
    | done l1 r1 =>
      rw [hb] at hl
      cases hl with
      | ok h1 =>
        subst h1
        obtain ⟨h2, h3⟩ := key _ hb (agrees_both ha)
        rw [after_left] at h2
        cases h2
        rw [after_right] at h3
        rw [h3] at hr
        cases hw : Parse C W p s st' with
        | diverge => rw [hw] at hr; cases hr
        | done l2 r2 =>
          rw [hw] at hr
          cases hr with
          | ok h4 => cases h4; exact ⟨rfl, rfl⟩
  · rw [h] at hl
    cases hb : Parse C (both U W) p s (.inl st) with
    | diverge => rw [hb] at hl; cases hl
    | done l1 r1 =>
      rw [hb] at hl
      cases hl with
      | err =>
        have h3 : Parse C (both U W) p s (.inr st') = _ := key _ hb (agrees_both ha)
        rw [h3] at hr
        cases hw : Parse C W p s st' with
        | diverge => rw [hw] at hr; cases hr
        | done l2 r2 =>
          rw [hw] at hr
          cases hr with
          | err => rfl

theorem reply_pure (U : Callbacks σ) {c : Call} (h : c.own = false) (st : σ) : U.reply c st = (.ok .unit, st) := by
  obtain ⟨f, args⟩ := c
  cases f <;> first | rfl | cases h

theorem reply_answering (a : Nat → Except Nat Val) {c : Call} (h : c.own = true) (n : Nat) :
    (answering a).reply c n = (a n, n + 1) := by
  obtain ⟨f, args⟩ := c
  cases f <;> first | rfl | cases h

theorem happens_append {U : Nat → Callbacks σ} {st st' : σ} {h h' : List Event} :
    Happens U st (h ++ h') st' ↔ ∃ st1, Happens U st h st1 ∧ Happens U st1 h' st' := by
  induction h generalizing st with
  | nil => exact ⟨fun x => ⟨st, .nil, x⟩, fun ⟨_, h1, h2⟩ => by cases h1; exact h2⟩
  | cons e h ih =>
    constructor
    · intro x
      cases x with
      | cons h1 h2 => obtain ⟨st1, h3, h4⟩ := ih.1 h2; exact ⟨st1, .cons h1 h3, h4⟩
    · rintro ⟨st1, h1, h2⟩
      cases h1 with
      | cons h3 h4 => exact .cons h3 (ih.2 ⟨_, h4, h2⟩)

/-- the answers a thread got are those of the callbacks it called -/
theorem answering_agrees {W : Callbacks τ} {a : Nat → Except Nat Val} :
    ∀ (log : List Call) {es : List Event} {n : Nat} {t t' : τ}, es.map (·.call) = log.filter Call.own →
      Happens (fun _ => W) t es t' → (∀ j e, es[j]? = some e → a (n + j) = e.answer) →
      Agrees (answering a) W n t log ∧ after W t log = t'
  | [], es, n, t, t', hc, hh, _ => by
    simp only [List.filter_nil, List.map_eq_nil_iff] at hc
    subst hc
    cases hh
    exact ⟨trivial, rfl⟩
  | c :: log, es, n, t, t', hc, hh, ha => by
    cases ho : c.own with
    | false =>
      rw [List.filter_cons_of_neg (by simp [ho])] at hc
      obtain ⟨h1, h2⟩ := answering_agrees log hc hh ha
      unfold Agrees after
      rw [List.foldl_cons, reply_pure _ ho, reply_pure _ ho]
      exact ⟨⟨rfl, h1⟩, h2⟩
    | true =>
      rw [List.filter_cons_of_pos ho] at hc
      cases es with
      | nil => cases hc
      | cons e es =>
        simp only [List.map_cons, List.cons.injEq] at hc
        obtain ⟨rfl, hc⟩ := hc
        cases hh with
        | cons h1 h2 =>
          obtain ⟨h3, h4⟩ := answering_agrees log (n := n + 1) hc h2
            (fun j e' h => by rw [Nat.add_right_comm]; exact ha (j + 1) e' h)
          unfold Agrees after
          rw [List.foldl_cons, reply_answering _ ho, h1]
          exact ⟨⟨ha 0 e rfl, h3⟩, h4⟩

theorem outcome_ok {m : M Call (R × σ)} {log x} : outcome m = .done log (.ok x) ↔ ∃ st, m = .done log (.ok (x, st)) := by
  rcases m with _ | ⟨l, ⟨y, st⟩ | e⟩ <;> simp [outcome, M.bind, M.pure]
theorem outcome_err {m : M Call (R × σ)} {log e} : outcome m = .done log (.err e) ↔ m = .done log (.err e) := by
  rcases m with _ | ⟨l, ⟨y, st⟩ | e⟩ <;> simp [outcome, M.bind, M.pure]

/-- A thread is a run with the callbacks that gave it its answers. -/
theorem thread_iff {W : Callbacks τ} {p : Parser α} {s : Span} {i : Nat} {h : List Event} {log : List Call} {t t' : τ}
    (hc : (eventsOf i h).map (·.call) = log.filter Call.own) (hh : Happens (fun _ => W) t (eventsOf i h) t') :
    (∀ x, Thread C p s i h log (.ok x) ↔ Parse C W p s t = .done log (.ok (x, t'))) ∧
    (∀ e, Thread C p s i h log (.err e) ↔ Parse C W p s t = .done log (.err e)) := by
  obtain ⟨h1, h2⟩ := answering_agrees (a := fun n => ((eventsOf i h).map (·.answer)).getD n (.error 0)) log (n := 0) hc hh
    (fun j e he => by simp [List.getD, he])
  have k1 := Parse_replay (C := C) (p := p) (s := s) h1
  have k2 := Parse_replay (C := C) (p := p) (s := s) h1.symm
  rw [h2] at k1
  refine ⟨fun x => ⟨fun ht => ?_, fun ht => ⟨hc, outcome_ok.2 ⟨_, (k2.1 _ _ ht).2⟩⟩⟩,
    fun e => ⟨fun ht => k1.2 _ (outcome_err.1 ht.run), fun ht => ⟨hc, outcome_err.2 (k2.2 _ ht)⟩⟩⟩
  obtain ⟨n, hn⟩ := outcome_ok.1 ht.run
  exact (k1.1 _ _ hn).2

/-- what a thread sees if it has a state of its own -/
theorem happens_view {U : Nat → Callbacks σ} {W : Callbacks τ} {i : Nat} {view : σ → τ}
    (hown : ∀ c st, W.reply c (view st) = (((U i).reply c st).1, view ((U i).reply c st).2))
    (hoth : ∀ j, j ≠ i → ∀ c st, view ((U j).reply c st).2 = view st) {st st' : σ} {h : List Event}
    (hh : Happens U st h st') : Happens (fun _ => W) (view st) (eventsOf i h) (view st') := by
  induction hh with
  | nil => exact .nil
  | @cons st e st1 h st' h1 _ ih =>
    unfold eventsOf
    by_cases he : e.thread = i
    · rw [List.filter_cons_of_pos (by simpa using he)]
      subst he
      refine .cons ?_ ih
      rw [hown, h1]
    · rw [List.filter_cons_of_neg (by simpa using he)]
      have := hoth _ he e.call st
      rw [h1] at this
      rw [← this]
      exact ih

/-- The callbacks of `U`, the successive calls finding the states of a list (`st0` when there are no more). -/
def amid (U : Callbacks σ) (st0 : σ) : Callbacks (List σ) where
  fnCall k args l := ((U.fnCall k args (l.headD st0)).1, l.tail)
  ctor t args l := ((U.ctor t args (l.headD st0)).1, l.tail)

theorem freeze_amid (C : Ctx α β) (U : Callbacks σ) (st0 : σ) (l : List σ) :
    freeze C (amid U st0) l = freeze C U (l.headD st0) := rfl

theorem happens_amid {U : Nat → Callbacks σ} (i : Nat) {st st' : σ} (st0 : σ) {h : List Event} (hh : Happens U st h st')
    (ho : ∀ e ∈ eventsOf i h, e.call.own = true) :
    ∃ sts, Happens (fun _ => amid (U i) st0) sts (eventsOf i h) [] := by
  induction hh with
  | nil => exact ⟨[], .nil⟩
  | @cons st e st1 h st' h1 _ ih =>
    by_cases he : e.thread = i
    · have hf : eventsOf i (e :: h) = e :: eventsOf i h := List.filter_cons_of_pos (by simpa using he)
      rw [hf] at ho ⊢
      obtain ⟨sts, hs⟩ := ih fun e' h' => ho e' (List.mem_cons_of_mem _ h')
      have h2 := ho e (List.mem_cons_self ..)
      refine ⟨st :: sts, .cons (st1 := sts) ?_ hs⟩
      subst he
      have h1 := congrArg Prod.fst h1
      obtain ⟨j, ⟨f, args⟩, a⟩ := e
      cases f <;> first | exact Prod.ext h1 rfl | cases h2
    · have hf : eventsOf i (e :: h) = eventsOf i h := List.filter_cons_of_neg (by simpa using he)
      rw [hf] at ho ⊢
      exact ih ho

/-- calls that are not of the user's code are not in the history of a thread -/
theorem Thread.own {p : Parser α} {s : Span} {i : Nat} {h : List Event} {log : List Call} {r : Res R}
    (ht : Thread C p s i h log r) : ∀ e ∈ eventsOf i h, e.call.own = true := by
  intro e he
  have : e.call ∈ log.filter Call.own := ht.calls ▸ List.mem_map_of_mem he
  exact (List.mem_filter.1 this).2

/-- every order of calls is possible if the callbacks answer whatever the state is -/
theorem happens_exists (U : Nat → Callbacks σ) : ∀ (cs : List (Nat × Call)) (st : σ),
    ∃ h st', Happens U st h st' ∧ h.map (fun e => (e.thread, e.call)) = cs
  | [], st => ⟨[], st, .nil, rfl⟩
  | (i, c) :: cs, st => by
    obtain ⟨h, st', h1, h2⟩ := happens_exists U cs ((U i).reply c st).2
    exact ⟨⟨i, c, ((U i).reply c st).1⟩ :: h, st', .cons rfl h1, by simp [h2]⟩

end Tok3n.Stateful
