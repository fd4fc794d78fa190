import Verif.Proof.Together
import Verif.Props.Stateful
/-
C80: parses that run at the same time.
-/

namespace Tok3n

open Stateful (Callbacks Event Happens Thread eventsOf answering)

variable {σ τ α β : Type} {C : Ctx α β} {U : Nat → Callbacks σ} {p : Parser α} {s : Span} {i : Nat} {h : List Event}
  {log : List Call} {st st' : σ}

/-- A thread that nobody interrupts is a `parse` with the callbacks' state as the calls before it left it (C75). -/
theorem C80_uninterrupted {before after : List Event} (hh : Happens U st (before ++ h ++ after) st')
    (hb : ∀ e ∈ before ++ after, e.thread ≠ i) (hi : ∀ e ∈ h, e.thread = i)
    (hc : h.map (·.call) = log.filter Call.own) :
    ∃ st1 st2, Happens U st before st1 ∧ Happens U st1 h st2 ∧ Happens U st2 after st' ∧
      (∀ x, Thread C p s i (before ++ h ++ after) log (.ok x) ↔
        Stateful.Parse C (U i) p s st1 = .done log (.ok (x, st2))) ∧
      ∀ e, Thread C p s i (before ++ h ++ after) log (.err e) ↔ Stateful.Parse C (U i) p s st1 = .done log (.err e) := by
  obtain ⟨st2, h1, h2⟩ := Stateful.happens_append.1 hh
  obtain ⟨st1, h3, h4⟩ := Stateful.happens_append.1 h1
  have he : eventsOf i (before ++ h ++ after) = h := by
    have e1 : before.filter (·.thread == i) = [] :=
      List.filter_eq_nil_iff.2 fun e he => by simpa using hb e (List.mem_append_left _ he)
    have e2 : after.filter (·.thread == i) = [] :=
      List.filter_eq_nil_iff.2 fun e he => by simpa using hb e (List.mem_append_right _ he)
    have e3 : h.filter (·.thread == i) = h := List.filter_eq_self.2 fun e he => by simpa using hi e he
    simp [eventsOf, e1, e2, e3]
  have h5 : Happens (fun _ => U i) st1 h st2 := by
    clear hh h1 h2 h3 he hc
    induction h4 with
    | nil => exact .nil
    | cons a _ ih =>
      exact .cons (by rw [← hi _ (List.mem_cons_self ..)]; exact a) (ih fun e he => hi e (List.mem_cons_of_mem _ he))
  exact ⟨st1, st2, h3, h4, h2, Stateful.thread_iff (by rw [he]; exact hc) (by rw [he]; exact h5)⟩

/-- If the callbacks of a thread have a state of their own, which the calls of the other threads leave alone, it does
what it does when it runs alone: it makes the same calls, with the same outcome, and leaves the same state. -/
theorem C80_own_state {W : Callbacks τ} {view : σ → τ}
    (hown : ∀ c st, W.reply c (view st) = (((U i).reply c st).1, view ((U i).reply c st).2))
    (hoth : ∀ j, j ≠ i → ∀ c st, view ((U j).reply c st).2 = view st) (hh : Happens U st h st')
    (hc : (eventsOf i h).map (·.call) = log.filter Call.own) :
    (∀ x, Thread C p s i h log (.ok x) ↔ Stateful.Parse C W p s (view st) = .done log (.ok (x, view st'))) ∧
    ∀ e, Thread C p s i h log (.err e) ↔ Stateful.Parse C W p s (view st) = .done log (.err e) :=
  Stateful.thread_iff hc (Stateful.happens_view hown hoth hh)

/-- If what the callbacks answer does not depend on the state, a thread does what it does when it runs alone; the
callbacks may change the state. -/
theorem C80_no_state (hf : ∀ k args st, ((U i).fnCall k args st).1 = C.fnCall k args)
    (hk : ∀ t args st, ((U i).ctor t args st).1 = C.ctor t args) (hh : Happens U st h st')
    (hc : (eventsOf i h).map (·.call) = log.filter Call.own) (r : Res R) :
    Thread C p s i h log r ↔ Parse C p s = .done log r := by
  have hh' : Happens (fun _ => Callbacks.ofCtx (σ := Unit) C) () (eventsOf i h) () := by
    refine Stateful.happens_view (U := U) (view := fun _ => ()) (fun c st => ?_) (fun _ _ _ _ => rfl) hh
    obtain ⟨f, args⟩ := c
    cases f <;> first | rfl | exact Prod.ext (hf _ _ _).symm rfl | exact Prod.ext (hk _ _ _).symm rfl
  obtain ⟨h1, h2⟩ := Stateful.thread_iff (C := C) (p := p) (s := s) hc hh'
  have key : Stateful.Parse C (.ofCtx C) p s () = M.bind (Parse C p s) fun r => M.pure (r, ()) :=
    congrFun (Stateful.Parse_lift C p s) ()
  cases r with
  | ok x =>
    rw [h1 x, key]
    rcases Parse C p s with _ | ⟨l, r | e⟩ <;> simp [M.bind, M.pure]
  | err e =>
    rw [h2 e, key]
    rcases Parse C p s with _ | ⟨l, r | e⟩ <;> simp [M.bind, M.pure]

/-- And every interleaving of the calls the threads make alone can happen. -/
theorem C80_every_order (hf : ∀ i k args st, ((U i).fnCall k args st).1 = C.fnCall k args)
    (hk : ∀ i t args st, ((U i).ctor t args st).1 = C.ctor t args) (threads : Nat → Prop) (ps : Nat → Parser α)
    (ss : Nat → Span) (logs : Nat → List Call) (rs : Nat → Res R)
    (hr : ∀ i, threads i → Parse C (ps i) (ss i) = .done (logs i) (rs i)) (cs : List (Nat × Call))
    (hc : ∀ i, threads i → (cs.filter (·.1 == i)).map (·.2) = (logs i).filter Call.own) (st : σ) :
    ∃ h st', Happens U st h st' ∧ h.map (fun e => (e.thread, e.call)) = cs ∧
      ∀ i, threads i → Thread C (ps i) (ss i) i h (logs i) (rs i) := by
  obtain ⟨h, st', h1, h2⟩ := Stateful.happens_exists U cs st
  refine ⟨h, st', h1, h2, fun i hi => (C80_no_state (hf i) (hk i) h1 ?_ _).2 (hr i hi)⟩
  rw [← hc i hi, ← h2, List.filter_map, List.map_map]
  rfl

/-- Whatever the others do: a failed `parse` gives the input back, a successful one has consumed a prefix. -/
theorem C80_input {x : R} (ht : Thread C p s i h log (.ok x)) : (x.val = none → x.rem = s) ∧ x.rem.SuffixOf s := by
  obtain ⟨v, s'⟩ := x
  obtain ⟨n, hn⟩ := Stateful.outcome_ok.1 ht.run
  have := C75_input C (answering fun n => ((eventsOf i h).map (·.answer)).getD n (.error 0)) p s s' 0 n log
  cases v with
  | none =>
    have h1 := this.2 hn
    exact ⟨fun _ => h1, h1 ▸ Span.SuffixOf.refl _⟩
  | some v => exact ⟨nofun, this.1 v hn⟩

/-- Whatever the others do: without `filter`, `join` and conversions of a failing result, a thread accepts and rejects
as `lookahead` does, however the calls are interleaved. -/
theorem C80_verdict (hp : Plain C p) {x : R} (ht : Thread C p s i h log (.ok x)) :
    (x.val ≠ none → Looks C p s [] x.rem) ∧ (x.val = none → LookFails C p s [] x.rem) := by
  obtain ⟨v, s'⟩ := x
  obtain ⟨n, hn⟩ := Stateful.outcome_ok.1 ht.run
  obtain ⟨h1, h2, -⟩ := C75_verdict C _ p hp s 0
  cases v with
  | none => exact ⟨fun h => absurd rfl h, fun _ => h2 _ _ _ hn⟩
  | some v => exact ⟨fun _ => h1 _ _ _ _ hn, nofun⟩

/-- Whatever the others do: if the callbacks keep their types in every state, values have the documented type, and
nothing undefined happens. -/
theorem C80_safe [LinearOrder α] (hc : Compiles C p) (ht : ∀ st, (Stateful.freeze C (U i) st).Typed)
    (hh : Happens U st h st') :
    (∀ v s', Thread C p s i h log (.ok ⟨some v, s'⟩) → HasTy (resultFor C p) v) ∧
    ((∀ st, JoinSafe (Stateful.freeze C (U i) st) p) → s.Valid C.mem →
      ∀ e, Thread C p s i h log (.err e) → ∃ x, e = .exn x) := by
  have key : ∀ {r}, Thread C p s i h log r → ∃ sts, Happens (fun _ => Stateful.amid (U i) st) sts (eventsOf i h) [] :=
    fun h1 => Stateful.happens_amid i st hh h1.own
  refine ⟨fun v s' h1 => ?_, fun hj hs e h1 => ?_⟩
  · obtain ⟨sts, h2⟩ := key h1
    exact (C75_safe C (Stateful.amid (U i) st) p s s' sts [] hc (fun l => ht _) log).1 v
      (((Stateful.thread_iff h1.calls h2).1 _).1 h1)
  · obtain ⟨sts, h2⟩ := key h1
    exact (C75_safe C (Stateful.amid (U i) st) p s s sts [] hc (fun l => ht _) log).2 (fun l => hj _) hs e
      (((Stateful.thread_iff h1.calls h2).2 _).1 h1)

/-- Whatever the others do: a grammar that passes the check of C39 returns, after finitely many calls, whatever answers
`a 0`, `a 1`, … its calls get. -/
theorem C80_returns (ks : List Nat) (null : Nat → Bool) (rank : Nat → Nat) (hp : productive C ks null rank p = true)
    (hs : s.Valid C.mem) (i : Nat) (a : Nat → Except Nat Val) :
    ∃ h log r, (∀ e ∈ h, e.thread = i) ∧ (∀ j e, h[j]? = some e → e.answer = a j) ∧ Thread C p s i h log r := by
  have hl := C75_checked C (answering a) p ks null rank hp s hs 0
  cases hr : Stateful.Parse C (answering a) p s 0 with
  | diverge => exact absurd hr hl
  | done log r =>
    obtain ⟨h, n, h1, h2⟩ := Stateful.happens_exists (fun _ => answering a) ((log.filter Call.own).map fun c => (i, c)) 0
    have hi : ∀ e ∈ h, e.thread = i := fun e he => by
      have := List.mem_map_of_mem (f := fun e : Event => (e.thread, e.call)) he
      rw [h2] at this
      obtain ⟨c, -, hc⟩ := List.mem_map.1 this
      exact (congrArg Prod.fst hc).symm
    have he : eventsOf i h = h := List.filter_eq_self.2 fun e he => by simpa using hi e he
    have hc : h.map (·.call) = log.filter Call.own := by
      have := congrArg (List.map Prod.snd) h2
      simpa [Function.comp_def] using this
    have ha : ∀ (h : List Event) (m n : Nat), Happens (fun _ => answering a) m h n → (∀ e ∈ h, e.call.own = true) →
        ∀ j e, h[j]? = some e → e.answer = a (m + j) := by
      intro h
      induction h with
      | nil => intro _ _ _ _ j e he; simp at he
      | cons e0 h ih =>
        intro m n hh ho j e he
        cases hh with
        | cons h3 h4 =>
          rw [Stateful.reply_answering _ (ho _ (List.mem_cons_self ..))] at h3
          cases j with
          | zero => simp at he; subst he; exact (congrArg Prod.fst h3).symm
          | succ j =>
            have e1 : m + 1 = _ := congrArg Prod.snd h3
            subst e1
            have := ih _ _ h4 (fun e he => ho e (List.mem_cons_of_mem _ he)) j e he
            rw [this, Nat.add_right_comm, Nat.add_assoc]
    have ho : ∀ e ∈ h, e.call.own = true := fun e he => by
      have : e.call ∈ log.filter Call.own := hc ▸ List.mem_map_of_mem he
      exact (List.mem_filter.1 this).2
    have hx := Stateful.thread_iff (C := C) (p := p) (s := s) (i := i) (h := h) (by rw [he]; exact hc) (by rw [he]; exact h1)
    have hj : ∀ j e, h[j]? = some e → a (0 + j) = e.answer := fun j e hj => (ha h 0 n h1 ho j e hj).symm
    have hn := (Stateful.answering_agrees (W := answering a) log hc h1 hj).2
    cases r with
    | ok y =>
      obtain ⟨x, m⟩ := y
      have hm := ((Stateful.Parse_replay (Stateful.Agrees.refl (answering a) 0 log)).1 x m hr).1
      exact ⟨h, log, .ok x, hi, fun j e he => by simpa using (hj j e he).symm, (hx.1 x).2 (by rw [hr, hm, hn])⟩
    | err e => exact ⟨h, log, .err e, hi, fun j e he => by simpa using (hj j e he).symm, (hx.2 e).2 hr⟩

namespace Ex

/-- two characters a callback accepts -/
def acceptTwo : Parser Nat := .exactly (.filter (all "a") (.user 1)) 2

def ask (i : Nat) : Call := ⟨.user 1, [char i]⟩

def yes : Except Nat Val := .ok (.user 1 1 [])
def no : Except Nat Val := .ok (.user 1 0 [])

/-- two threads share the callback of `counting`, which accepts twice -/
def mixed : List Event := [⟨0, ask 0, yes⟩, ⟨1, ask 0, yes⟩, ⟨0, ask 1, no⟩, ⟨1, ask 1, no⟩]

theorem mixed_happens : Happens (fun _ => counting) 0 mixed 4 :=
  .cons rfl (.cons rfl (.cons rfl (.cons rfl .nil)))

theorem mixed_thread (i : Nat) (hi : i < 2) :
    Thread (ctx "aa") acceptTwo (input "aa") i mixed [ask 0, ask 1] (.ok ⟨.none, input "aa"⟩) := by
  match i, hi with
  | 0, _ => exact ⟨rfl, Stateful.outcome_ok.2 ⟨_, sparses 8 rfl⟩⟩
  | 1, _ => exact ⟨rfl, Stateful.outcome_ok.2 ⟨_, sparses 8 rfl⟩⟩

end Ex

/-- In general it does matter: with a callback both threads share, which accepts two characters and no more, whichever
thread runs before the other accepts, and the other one rejects; at the same time, both may reject. -/
theorem C80_refuted : ∃ (C : Ctx Nat Nat) (U : Callbacks Nat) (p : Parser Nat) (s : Span), Compiles C p ∧ s.Valid C.mem ∧
    (∃ log v s' st, Stateful.Parses C U p s 0 log v s' st ∧ ∃ log' st', Stateful.ParseFails C U p s st log' s st') ∧
    ∃ h st log, Happens (fun _ => U) 0 h st ∧ Thread C p s 0 h log (.ok ⟨none, s⟩) ∧ Thread C p s 1 h log (.ok ⟨none, s⟩) :=
  ⟨Ex.ctx "aa", Ex.counting, Ex.acceptTwo, Ex.input "aa", ⟨Ex.ctx_ok _, rfl, rfl, rfl⟩, Ex.input_valid _,
    ⟨_, _, _, _, Ex.sparses 8 rfl, _, _, Ex.sparses 8 rfl⟩,
    Ex.mixed, 4, _, Ex.mixed_happens, Ex.mixed_thread 0 (by decide), Ex.mixed_thread 1 (by decide)⟩

namespace Ex

/-- the hypotheses of `C80_uninterrupted`: thread 1 runs between two calls of thread 0 -/
example : ∃ st', Happens (fun _ => counting) 0
      ([⟨0, ask 0, yes⟩] ++ [⟨1, ask 0, yes⟩, ⟨1, ask 1, no⟩] ++ [⟨0, ask 1, no⟩]) st' :=
  ⟨4, .cons rfl (.cons rfl (.cons rfl (.cons rfl .nil)))⟩
/-- the state is split: thread `i` uses component `i` -/
def apart (i : Nat) : Callbacks (Nat × Nat) where
  fnCall k args st := match i with
    | 0 => ((counting.fnCall k args st.1).1, (counting.fnCall k args st.1).2, st.2)
    | _ => ((counting.fnCall k args st.2).1, st.1, (counting.fnCall k args st.2).2)
  ctor k args st := match i with
    | 0 => ((counting.ctor k args st.1).1, (counting.ctor k args st.1).2, st.2)
    | _ => ((counting.ctor k args st.2).1, st.1, (counting.ctor k args st.2).2)
/-- the hypotheses of `C80_own_state`, with thread 0 -/
example : (∀ c st, counting.reply c (Prod.fst st) = (((apart 0).reply c st).1, Prod.fst ((apart 0).reply c st).2)) ∧
    ∀ j, j ≠ 0 → ∀ c st, Prod.fst ((apart j).reply c st).2 = Prod.fst st := by
  refine ⟨fun c st => ?_, fun j hj c st => ?_⟩
  · obtain ⟨f, args⟩ := c
    cases f <;> rfl
  · obtain ⟨f, args⟩ := c
    cases j with
    | zero => exact absurd rfl hj
    | succ j => cases f <;> rfl
example : Happens apart (0, 0)
    [⟨0, ask 0, yes⟩, ⟨1, ask 0, yes⟩, ⟨1, ask 1, yes⟩, ⟨0, ask 1, yes⟩] (2, 2) :=
  .cons rfl (.cons rfl (.cons rfl (.cons rfl .nil)))
/-- callbacks that answer as those of `ctx` and count the calls of all threads -/
def tallying (text : String) : Callbacks Nat where
  fnCall k args st := ((ctx text).fnCall k args, st + 1)
  ctor k args st := ((ctx text).ctor k args, st + 1)
/-- the hypotheses of `C80_no_state` and `C80_every_order`: two parses of different parsers and an interleaving -/
example : ∃ h st', Happens (fun _ => tallying "aa") 0 h st' ∧
    h.map (fun e => (e.thread, e.call)) = [(1, ⟨.user 0, [.span ⟨.at 0 0, 2⟩]⟩), (0, ask 0), (0, ask 1)] ∧
    ∀ i, i < 2 → Thread (ctx "aa") (if i = 0 then acceptTwo else .map (all "aa") (.user 0)) (input "aa") i h
      (if i = 0 then [ask 0, ask 1] else [⟨.user 0, [.span ⟨.at 0 0, 2⟩]⟩])
      (if i = 0 then .ok ⟨some (.arr [char 0, char 1]), ⟨.at 0 2, 0⟩⟩
        else .ok ⟨some (.user 0 0 [.span ⟨.at 0 0, 2⟩]), ⟨.at 0 2, 0⟩⟩) :=
  C80_every_order (fun _ _ _ _ => rfl) (fun _ _ _ _ => rfl) (· < 2) _ _ _ _
    (fun i hi => by
      match i, hi with
      | 0, _ => exact parses _ 8 rfl
      | 1, _ => exact parses _ 8 rfl) _
    (fun i hi => by
      match i, hi with
      | 0, _ => rfl
      | 1, _ => rfl) 0
/-- the hypotheses of `C80_input` and of `C80_safe` (first part): `mixed` -/
example : Thread (ctx "aa") acceptTwo (input "aa") 1 mixed [ask 0, ask 1] (.ok ⟨.none, input "aa"⟩) ∧
    Compiles (ctx "aa") acceptTwo ∧ ∀ n, (Stateful.freeze (ctx "aa") counting n).Typed :=
  ⟨mixed_thread 1 (by decide), ⟨ctx_ok _, rfl, rfl, rfl⟩, counting_typed _⟩
/-- the hypotheses of `C80_verdict`: thread 0 maps two characters while thread 1 uses the same function object -/
example : Plain (ctx "aa") (.oneOrMore (.map (all "a") (.user 0))) ∧
    Thread (ctx "aa") (.oneOrMore (.map (all "a") (.user 0))) (input "aa") 0
      [⟨0, ⟨.user 0, [char 0]⟩, .ok (.user 0 0 [char 0])⟩, ⟨1, ⟨.user 0, [char 0]⟩, .ok (.user 0 1 [char 0])⟩,
        ⟨0, ⟨.user 0, [char 1]⟩, .ok (.user 0 2 [char 1])⟩]
      [⟨.user 0, [char 0]⟩, ⟨.user 0, [char 1]⟩]
      (.ok ⟨some (.vec [.user 0 0 [char 0], .user 0 2 [char 1]]), ⟨.at 0 2, 0⟩⟩) :=
  ⟨plain_of ctx_plain rfl, rfl, Stateful.outcome_ok.2 ⟨_, sparses 8 rfl⟩⟩
/-- the hypotheses of `C80_returns` -/
example (text : String) (a : Nat → Except Nat Val) := C80_returns (C := ctx text)
  (p := .zeroOrMore (.choice [.custom 0, .filter (all "a") (.user 1)])) [0, 1] (fun _ => false) id rfl
  (input_valid text) 0 a

end Ex

end Tok3n
