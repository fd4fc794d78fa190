import Verif.Spec.Stateful
import Verif.Spec.Modify
import Verif.Spec.Example
import Verif.Proof.StatefulRepeat
import Verif.Props.Exact
import Verif.Proof.StatefulAgree
import Verif.Proof.StatefulRelated
import Verif.Proof.StatefulModify
import Verif.Props.Modify

/-
C75: callbacks may keep state.

Everywhere else a callback answers the same to the same arguments.  Here the callbacks share a
state of any type, which each call may read and change.
-/

namespace Tok3n

variable {σ α β : Type}

theorem map_split {A B : Type} {f : A → B} {xs : List A} {before after : List B} {m : B}
    (h : xs.map f = before ++ m :: after) :
    ∃ qs p rest, xs = qs ++ p :: rest ∧ before = qs.map f ∧ m = f p ∧ after = rest.map f := by
  obtain ⟨qs, rest, rfl, rfl, hr⟩ := List.map_eq_append_iff.1 h
  obtain ⟨p, after', rfl, rfl, rfl⟩ := List.map_eq_cons_iff.1 hr
  exact ⟨qs, p, after', rfl, rfl, rfl, rfl⟩

theorem replicate_split {A : Type} {N : Nat} {x m : A} {before after : List A}
    (h : List.replicate N x = before ++ m :: after) :
    before.length < N ∧ before = List.replicate before.length x ∧ m = x := by
  obtain ⟨hl, hb, -⟩ := List.append_eq_replicate_iff.1 h.symm
  have : m ∈ List.replicate N x := by rw [h]; simp
  exact ⟨by simp at hl; omega, hb, (List.mem_replicate.1 this).2⟩

theorem split_replicate {A : Type} {n N : Nat} (h : n < N) (x : A) :
    List.replicate N x = List.replicate n x ++ x :: List.replicate (N - n - 1) x := by
  rw [← List.replicate_succ, List.replicate_append_replicate]
  congr 1; omega

/-- If the callbacks ignore the state, a run is the run of the stateless model, with the state
left alone: all other properties are about this special case. -/
theorem C75_stateless (C : Ctx α β) (p : Parser α) (s s' : Span) (st st' : σ) (log : List Call) :
    (∀ v, Stateful.Parses C (.ofCtx C) p s st log v s' st' ↔ Parses C p s log v s' ∧ st' = st) ∧
    (Stateful.ParseFails C (.ofCtx C) p s st log s' st' ↔ ParseFails C p s log s' ∧ st' = st) ∧
    (∀ e, Stateful.ParseErr C (.ofCtx C) p s st log e ↔ ParseErr C p s log e) ∧
    (Stateful.ParseLoops C (.ofCtx C) p s st ↔ ParseLoops C p s) := by
  have h : Stateful.Parse C (.ofCtx C) p s st = M.bind (Parse C p s) fun r => M.pure (r, st) :=
    congrFun (Stateful.Parse_lift C p s) st
  simp only [Stateful.Parses, Stateful.ParseFails, Stateful.ParseErr, Stateful.ParseLoops, Parses, ParseFails,
    ParseErr, ParseLoops, h]
  rcases Parse C p s with _ | ⟨l, r | e⟩ <;>
    simp [M.bind, M.pure, and_assoc, eq_comm (a := st)]

/-- `lookahead` is that of the stateless model, whatever the callbacks are and do: it calls none
of them and leaves the state alone. -/
theorem C75_lookahead (C : Ctx α β) (U : Stateful.Callbacks σ) (p : Parser α) (s : Span) (st : σ) :
    (∀ log r st', Stateful.Look C U p s st = .done log (.ok (r, st')) ↔
      Look C p s = .done [] (.ok r) ∧ log = [] ∧ st' = st) ∧
    (Stateful.Look C U p s st = .diverge ↔ LookLoops C p s) := by
  have h : Stateful.Look C U p s st = M.bind (Look C p s) fun r => M.pure (r, st) :=
    congrFun (Stateful.Look_lift C U p s) st
  rw [h, LookLoops]
  have hc := Stateful.Look_calm (C := C) p s
  generalize Look C p s = m at hc
  rcases m with _ | ⟨l, r | e⟩
  · simp [M.bind]
  · obtain ⟨rfl, -⟩ := hc _ _ rfl
    simp [M.bind, M.pure]
    intro log r' st'
    constructor
    · rintro ⟨rfl, rfl, rfl⟩; exact ⟨rfl, rfl, rfl⟩
    · rintro ⟨rfl, rfl, rfl⟩; exact ⟨rfl, rfl, rfl⟩
  · simp [M.bind]

/-- Success leaves an end of the input, failure all of it, from every state. -/
theorem C75_input (C : Ctx α β) (U : Stateful.Callbacks σ) (p : Parser α) (s s' : Span) (st st' : σ)
    (log : List Call) :
    (∀ v, Stateful.Parses C U p s st log v s' st' → s'.SuffixOf s) ∧
    (Stateful.ParseFails C U p s st log s' st' → s' = s) :=
  ⟨fun _ h => ((Stateful.Parse_good p s st).ok h).suffix, fun h => ((Stateful.Parse_good p s st).ok h).fail rfl⟩

/-- What happens to the state is what the calls of the log do to it, one after the other, each
exactly once: whether `parse` succeeds or fails, nothing a callback did is undone, repeated or
left out.  If `parse` throws, it is what the last call threw, in the state which the calls
before it left; none of those threw. -/
theorem C75_effects (C : Ctx α β) (U : Stateful.Callbacks σ) (p : Parser α) (s s' : Span) (st st' : σ)
    (log : List Call) :
    (∀ v, Stateful.Parses C U p s st log v s' st' → Stateful.Replays U st log st') ∧
    (Stateful.ParseFails C U p s st log s' st' → Stateful.Replays U st log st') ∧
    (∀ e, Stateful.ParseErr C U p s st log (.exn e) → Stateful.Throws U st log e) :=
  ⟨fun _ h => Stateful.Parse_tracks C U p s st log _ h, fun h => Stateful.Parse_tracks C U p s st log _ h,
    fun _ h => Stateful.Parse_tracks C U p s st log _ h⟩

/-- An invariant of the state that every call keeps holds after `parse`, whether it succeeds or
fails. -/
theorem C75_invariant (C : Ctx α β) (U : Stateful.Callbacks σ) (I : σ → Prop)
    (hf : ∀ k args st, I st → I (U.fnCall k args st).2) (hc : ∀ t args st, I st → I (U.ctor t args st).2)
    (p : Parser α) (s s' : Span) (st st' : σ) (log : List Call) (hI : I st)
    (h : (∃ v, Stateful.Parses C U p s st log v s' st') ∨ Stateful.ParseFails C U p s st log s' st') : I st' := by
  have hr : Stateful.Replays U st log st' := by
    rcases h with ⟨v, h⟩ | h
    · exact (C75_effects C U p s s' st st' log).1 v h
    · exact (C75_effects C U p s s' st st' log).2.1 h
  clear h
  induction hr with
  | nil => exact hI
  | @cons st c st1 cs st' h _ ih =>
    refine ih ?_
    have h := congrArg (fun x => x.2) h
    simp only at h
    subst h
    unfold Stateful.Callbacks.on
    split
    · exact hf _ _ _ hI
    · exact hc _ _ _ hI
    · exact hI

/-- In a parser that compiles, with callbacks that in every state return what their types say,
the value of a success has the announced type, and on a valid input the only error is an
exception of a callback (if nothing that is joined comes from a callback that invents spans). -/
theorem C75_safe [LinearOrder α] (C : Ctx α β) (U : Stateful.Callbacks σ) (p : Parser α) (s s' : Span)
    (st st' : σ) (hc : Compiles C p) (ht : ∀ st, (Stateful.freeze C U st).Typed) (log : List Call) :
    (∀ v, Stateful.Parses C U p s st log v s' st' → HasTy (resultFor C p) v) ∧
    ((∀ st, JoinSafe (Stateful.freeze C U st) p) → s.Valid C.mem →
      ∀ e, Stateful.ParseErr C U p s st log e → ∃ x, e = .exn x) := by
  have h := Stateful.Parse_typed hc ht s
  refine ⟨fun v hv => (((h st).ok hv).val v rfl).1, fun hj hs e he => ?_⟩
  have := (h st).err he
  cases e with
  | ub => exact absurd ⟨hs, hj⟩ (this.2 rfl)
  | exn x => exact ⟨x, rfl⟩
  | ill => exact absurd rfl this.1

/-- The parts of a sequence run one after the other, each on what the one before left and in the
state it left; the value is made of theirs.  A part that fails fails the sequence, which gives back
the whole input but keeps what the parts did to the state; likewise an error and a part that does
not return. -/
theorem C75_sequence [LinearOrder α] (C : Ctx α β) (U : Stateful.Callbacks σ) (ps : List (Parser α))
    (hc : Compiles C (.sequence ps)) (s s' : Span) (st st' : σ) (log : List Call) :
    (∀ w, Stateful.Parses C U (.sequence ps) s st log w s' st' ↔
      ∃ vs, Stateful.InTurn (ps.map (Stateful.partRun C U)) s st log vs s' st' ∧
        w = sequenceValue (withValue (ps.map (resultFor C)) vs)) ∧
    (Stateful.ParseFails C U (.sequence ps) s st log s' st' ↔ s' = s ∧ ∃ before p after blog plog vs s1 s2 st1,
      ps = before ++ p :: after ∧ Stateful.InTurn (before.map (Stateful.partRun C U)) s st blog vs s1 st1 ∧
      Stateful.partRun C U p s1 st1 = .done plog (.ok (⟨none, s2⟩, st')) ∧ log = blog ++ plog) ∧
    (∀ e, Stateful.ParseErr C U (.sequence ps) s st log e ↔ ∃ before p after blog plog vs s1 st1,
      ps = before ++ p :: after ∧ Stateful.InTurn (before.map (Stateful.partRun C U)) s st blog vs s1 st1 ∧
      Stateful.partRun C U p s1 st1 = .done plog (.err e) ∧ log = blog ++ plog) ∧
    (Stateful.ParseLoops C U (.sequence ps) s st ↔ ∃ before p after blog vs s1 st1,
      ps = before ++ p :: after ∧ Stateful.InTurn (before.map (Stateful.partRun C U)) s st blog vs s1 st1 ∧
      Stateful.partRun C U p s1 st1 = .diverge) := by
  obtain ⟨d, hd⟩ := defaultVal_sequence hc.parse
  unfold Stateful.Parses Stateful.ParseFails Stateful.ParseErr Stateful.ParseLoops
  rw [Stateful.Parse_sequence_eq hd]
  refine ⟨fun w => ?_, ?_, fun e => ?_, ?_⟩
  · rw [Stateful.allOrNothing_some]
    simp only [Stateful.inOrder_some, resultsFor_eq]
  · rw [Stateful.allOrNothing_none, Stateful.inOrder_none]
    apply and_congr_right'
    constructor
    · rintro ⟨before, m, after, l, l', vs, s1, s2, st1, he, hf, hm, rfl⟩
      obtain ⟨qs, p, rest, rfl, rfl, rfl, rfl⟩ := map_split he
      exact ⟨qs, p, rest, l, l', vs, s1, s2, st1, rfl, hf, hm, rfl⟩
    · rintro ⟨before, p, after, l, l', vs, s1, s2, st1, rfl, hf, hm, rfl⟩
      exact ⟨_, _, _, l, l', vs, s1, s2, st1, by rw [List.map_append, List.map_cons], hf, hm, rfl⟩
  · rw [Stateful.allOrNothing_err, Stateful.inOrder_err]
    constructor
    · rintro ⟨before, m, after, l, l', vs, s1, st1, he, hf, hm, rfl⟩
      obtain ⟨qs, p, rest, rfl, rfl, rfl, rfl⟩ := map_split he
      exact ⟨qs, p, rest, l, l', vs, s1, st1, rfl, hf, hm, rfl⟩
    · rintro ⟨before, p, after, l, l', vs, s1, st1, rfl, hf, hm, rfl⟩
      exact ⟨_, _, _, l, l', vs, s1, st1, by rw [List.map_append, List.map_cons], hf, hm, rfl⟩
  · rw [Stateful.allOrNothing_diverge, Stateful.inOrder_diverge]
    constructor
    · rintro ⟨before, m, after, l, vs, s1, st1, he, hf, hm⟩
      obtain ⟨qs, p, rest, rfl, rfl, rfl, rfl⟩ := map_split he
      exact ⟨qs, p, rest, l, vs, s1, st1, rfl, hf, hm⟩
    · rintro ⟨before, p, after, l, vs, s1, st1, rfl, hf, hm⟩
      exact ⟨_, _, _, l, vs, s1, st1, by rw [List.map_append, List.map_cons], hf, hm⟩

/-- The alternatives of a choice are tried in order; each runs on the whole input, in the state the
failed ones before it left: what they did is not undone. -/
theorem C75_choice [LinearOrder α] (C : Ctx α β) (U : Stateful.Callbacks σ) (ps : List (Parser α))
    (hc : Compiles C (.choice ps)) (hi : Indexable (ps.map (resultFor C))) (s s' : Span) (st st' : σ)
    (log : List Call) :
    (∀ w, Stateful.Parses C U (.choice ps) s st log w s' st' ↔ ∃ before p after blog plog v st1,
      ps = before ++ p :: after ∧ Stateful.AllFail (before.map fun q => Stateful.partRun C U q s) st blog st1 ∧
      Stateful.partRun C U p s st1 = .done plog (.ok (⟨some v, s'⟩, st')) ∧ log = blog ++ plog ∧
      ∃ d, IsDefault C (resultFor C (.choice ps)) d ∧
        w = choiceValue (distinct (ps.map (resultFor C))) d (resultFor C p) v) ∧
    (Stateful.ParseFails C U (.choice ps) s st log s' st' ↔
      s' = s ∧ Stateful.AllFail (ps.map fun q => Stateful.partRun C U q s) st log st') ∧
    (∀ e, Stateful.ParseErr C U (.choice ps) s st log e ↔ ∃ before p after blog plog st1,
      ps = before ++ p :: after ∧ Stateful.AllFail (before.map fun q => Stateful.partRun C U q s) st blog st1 ∧
      Stateful.partRun C U p s st1 = .done plog (.err e) ∧ log = blog ++ plog) ∧
    (Stateful.ParseLoops C U (.choice ps) s st ↔ ∃ before p after blog st1,
      ps = before ++ p :: after ∧ Stateful.AllFail (before.map fun q => Stateful.partRun C U q s) st blog st1 ∧
      Stateful.partRun C U p s st1 = .diverge) := by
  rw [← resultsFor_eq] at *
  obtain ⟨d, hd⟩ := defaultVal_choice hc.parse
  simp only [isDefault_iff]
  rw [resultFor_choice, hd]
  unfold Stateful.Parses Stateful.ParseFails Stateful.ParseErr Stateful.ParseLoops
  rw [Stateful.Parse_choice_eq hc.parse hi hd]
  refine ⟨fun w => ?_, ?_, fun e => ?_, ?_⟩
  · rw [Stateful.firstOf_some]
    constructor
    · rintro ⟨before, m, after, l, l', st1, he, hf, hm, rfl⟩
      obtain ⟨qs, p, rest, rfl, rfl, rfl, rfl⟩ := map_split he
      obtain ⟨v, hv, rfl⟩ := Stateful.mapVal_some.1 hm
      exact ⟨qs, p, rest, _, _, v, st1, rfl, Stateful.AllFail.mapVal_iff.1 hf, hv, rfl, d, rfl, rfl⟩
    · rintro ⟨before, p, after, blog, plog, v, st1, rfl, hf, hv, rfl, d', hd', rfl⟩
      cases hd'
      exact ⟨_, _, _, blog, plog, st1, by rw [List.map_append, List.map_cons], Stateful.AllFail.mapVal_iff.2 hf,
        Stateful.mapVal_some.2 ⟨v, hv, rfl⟩, rfl⟩
  · rw [Stateful.firstOf_none, Stateful.AllFail.mapVal_iff]
  · rw [Stateful.firstOf_err]
    constructor
    · rintro ⟨before, m, after, l, l', st1, he, hf, hm, rfl⟩
      obtain ⟨qs, p, rest, rfl, rfl, rfl, rfl⟩ := map_split he
      exact ⟨qs, p, rest, _, _, st1, rfl, Stateful.AllFail.mapVal_iff.1 hf, Stateful.mapVal_err.1 hm, rfl⟩
    · rintro ⟨before, p, after, blog, plog, st1, rfl, hf, hv, rfl⟩
      exact ⟨_, _, _, blog, plog, st1, by rw [List.map_append, List.map_cons], Stateful.AllFail.mapVal_iff.2 hf,
        Stateful.mapVal_err.2 hv, rfl⟩
  · rw [Stateful.firstOf_diverge]
    constructor
    · rintro ⟨before, m, after, l, st1, he, hf, hm⟩
      obtain ⟨qs, p, rest, rfl, rfl, rfl, rfl⟩ := map_split he
      exact ⟨qs, p, rest, _, st1, rfl, Stateful.AllFail.mapVal_iff.1 hf, Stateful.mapVal_diverge.1 hm⟩
    · rintro ⟨before, p, after, blog, st1, rfl, hf, hv⟩
      exact ⟨_, _, _, blog, st1, by rw [List.map_append, List.map_cons], Stateful.AllFail.mapVal_iff.2 hf,
        Stateful.mapVal_diverge.2 hv⟩

/-- Every choice that compiles, also those whose recorded indices are wrong (`C60_every_choice`). -/
theorem C75_every_choice [LinearOrder α] (C : Ctx α β) (U : Stateful.Callbacks σ) (ps : List (Parser α))
    (hc : Compiles C (.choice ps)) (is : List (Option Nat)) (hr : Recorded (ps.map (resultFor C)) is) (d : Val)
    (hd : IsDefault C (resultFor C (.choice ps)) d) (s : Span) (st : σ) :
    Stateful.Parse C U (.choice ps) s st = Stateful.firstOf s
      (List.zipWith (Stateful.recordedRun C U (distinct (ps.map (resultFor C))) d s) ps is) st := by
  refine congrFun (f := Stateful.Parse C U (.choice ps) s) ?_ st
  have hlt := hr.lt
  rw [isDefault_iff] at hd
  rw [C60_recorded] at hr
  subst hr
  rw [← resultsFor_eq] at *
  have hok := hc.parse
  simp only [parseOK, Bool.and_eq_true] at hok
  have hd' : defaultVal C (choiceTrait (resultsFor C ps)).ty = some d := by
    rw [choiceTrait_ty, ← resultFor_choice]; exact hd
  rw [Stateful.Parse_choice_general hd' hok.1.2]
  have hU := choiceTrait_unwrapped (resultsFor C ps)
  have hty := choiceTrait_ty (resultsFor C ps)
  unfold choiceType at hty
  congr 1
  rw [zipWith_eq_map, zipWith_eq_map]
  apply List.map_congr_left
  rintro ⟨p, i⟩ hpi
  obtain ⟨n, -, hn⟩ := mem_zip_getElem? hpi
  have hnv : .void ∉ distinct (resultsFor C ps) := fun h => ((mem_distinct _ _).1 h).2 rfl
  generalize distinct (resultsFor C ps) = us at *
  cases i with
  | none => rfl
  | some i =>
    have hlt := hlt n i hn
    simp only [Stateful.altRun, Stateful.recordedRun]
    congr 1
    funext v
    unfold injectAt
    match us, hlt, hU, hty, hnv with
    | [t], hlt, hU, hty, hnv =>
      simp only [List.mem_singleton] at hnv
      simp only at hty
      rw [hU.2 (by simp), if_pos rfl, if_neg (by rw [hty]; exact fun h => hnv h.symm)]
    | a :: b :: us, hlt, hU, hty, hnv =>
      simp only at hty
      have : ¬ (choiceTrait (resultsFor C ps)).unwrapped = true := by rw [hU]; simp
      rw [if_neg this]
      simp only [hty]
      rfl

/-- `maybe` succeeds where its parser succeeds or fails, in the state that left. -/
theorem C75_maybe (C : Ctx α β) (U : Stateful.Callbacks σ) (p : Parser α) (s s' : Span) (st st' : σ)
    (log : List Call) :
    (∀ w, Stateful.Parses C U (.maybe p) s st log w s' st' ↔
      (∃ v, Stateful.Parses C U p s st log v s' st' ∧ w = optionalValue (resultFor C p) (some v)) ∨
      (Stateful.ParseFails C U p s st log s' st' ∧ w = optionalValue (resultFor C p) none)) ∧
    ¬ Stateful.ParseFails C U (.maybe p) s st log s' st' ∧
    (∀ e, Stateful.ParseErr C U (.maybe p) s st log e ↔ Stateful.ParseErr C U p s st log e) ∧
    (Stateful.ParseLoops C U (.maybe p) s st ↔ Stateful.ParseLoops C U p s st) := by
  unfold Stateful.Parses Stateful.ParseFails Stateful.ParseErr Stateful.ParseLoops
  rw [Stateful.Parse_maybe_eq]
  refine ⟨fun w => ?_, ?_, fun e => ?_, ?_⟩
  · refine Stateful.SRun.eq_ok.trans ?_
    constructor
    · rintro ⟨l1, l2, ⟨rv, rr⟩, st1, h1, h2, rfl⟩
      cases h2
      rw [List.append_nil]
      cases rv with
      | none => exact .inr ⟨h1, rfl⟩
      | some v => exact .inl ⟨v, h1, rfl⟩
    · rintro (⟨v, h, rfl⟩ | ⟨h, rfl⟩)
      · exact ⟨log, [], _, _, h, rfl, by simp⟩
      · exact ⟨log, [], _, _, h, rfl, by simp⟩
  · refine fun h0 => ?_
    obtain ⟨l1, l2, ⟨rv, rr⟩, st1, h1, h2, rfl⟩ := Stateful.SRun.eq_ok.1 h0
    cases h2
  · refine Stateful.SRun.eq_err.trans ?_
    exact ⟨fun h => h.resolve_right fun ⟨_, _, _, _, _, h2, _⟩ => (by cases h2), .inl⟩
  · refine Stateful.SRun.eq_diverge.trans ?_
    exact ⟨fun h => h.resolve_right fun ⟨_, _, _, _, h2⟩ => (by cases h2), .inl⟩

/-- The rounds of a repetition run one after the other, and then the attempt that fails, in the
state the last round left.  With state, the rounds may go on for ever at the same place or stop
there. -/
theorem C75_zero_or_more (C : Ctx α β) (U : Stateful.Callbacks σ) (p : Parser α) (s s' : Span) (st st' : σ)
    (log : List Call) :
    (∀ w, Stateful.Parses C U (.zeroOrMore p) s st log w s' st' ↔ ∃ n l l' vs st1,
      Stateful.InTurn (List.replicate n (Stateful.Parse C U p)) s st l vs s' st1 ∧
      Stateful.ParseFails C U p s' st1 l' s' st' ∧ log = l ++ l' ∧ w = vectorValue (resultFor C p) vs) ∧
    ¬ Stateful.ParseFails C U (.zeroOrMore p) s st log s' st' ∧
    (∀ e, Stateful.ParseErr C U (.zeroOrMore p) s st log e ↔ ∃ n l l' vs s1 st1,
      Stateful.InTurn (List.replicate n (Stateful.Parse C U p)) s st l vs s1 st1 ∧
      Stateful.ParseErr C U p s1 st1 l' e ∧ log = l ++ l') ∧
    (Stateful.ParseLoops C U (.zeroOrMore p) s st ↔
      (∃ n l vs s1 st1, Stateful.InTurn (List.replicate n (Stateful.Parse C U p)) s st l vs s1 st1 ∧
        Stateful.ParseLoops C U p s1 st1) ∨
      ∀ n, ∃ l vs s1 st1, Stateful.InTurn (List.replicate n (Stateful.Parse C U p)) s st l vs s1 st1) := by
  unfold Stateful.Parses Stateful.ParseFails Stateful.ParseErr Stateful.ParseLoops
  rw [Stateful.Parse_zeroOrMore_eq]
  refine ⟨fun w => ?_, ?_, fun e => ?_, ?_⟩
  · refine Stateful.SRun.eq_ok.trans ?_
    constructor
    · rintro ⟨l1, l2, ⟨vs, s1⟩, st1, h1, h2, rfl⟩
      cases h2
      obtain ⟨l, l', st2, hc, hn, rfl⟩ := Stateful.repeatAll_ok.1 h1
      obtain ⟨s2, hf⟩ := Stateful.stepOf_none.1 hn
      cases Stateful.Parse_failsBack p _ _ _ _ _ hf
      exact ⟨_, l, l', vs, st2, Stateful.chain_inTurn.1 hc, hf, by simp, rfl⟩
    · rintro ⟨n, l, l', vs, st1, hc, hf, rfl, rfl⟩
      have hn : n = vs.length := (hc.length.trans List.length_replicate).symm
      subst hn
      exact ⟨l ++ l', [], (vs, s'), st', Stateful.repeatAll_ok.2
        ⟨l, l', st1, Stateful.chain_inTurn.2 hc, Stateful.stepOf_none.2 ⟨_, hf⟩, rfl⟩, rfl, by simp⟩
  · refine fun h0 => ?_
    obtain ⟨l1, l2, ⟨vs, s1⟩, st1, h1, h2, rfl⟩ := Stateful.SRun.eq_ok.1 h0
    cases h2
  · refine Stateful.SRun.eq_err.trans ?_
    constructor
    · rintro (h | ⟨_, _, _, _, _, h2, _⟩)
      · obtain ⟨l, l', vs, s1, st1, hc, he, rfl⟩ := Stateful.repeatAll_err.1 h
        exact ⟨_, l, l', vs, s1, st1, Stateful.chain_inTurn.1 hc, Stateful.stepOf_err.1 he, rfl⟩
      · cases h2
    · rintro ⟨n, l, l', vs, s1, st1, hc, he, rfl⟩
      have hn : n = vs.length := (hc.length.trans List.length_replicate).symm
      subst hn
      exact .inl (Stateful.repeatAll_err.2 ⟨l, l', vs, s1, st1, Stateful.chain_inTurn.2 hc, Stateful.stepOf_err.2 he, rfl⟩)
  · refine Stateful.SRun.eq_diverge.trans ?_
    constructor
    · rintro (h | ⟨_, _, _, _, h2⟩)
      · rcases Stateful.repeatAll_diverge.1 h with ⟨l, vs, s1, st1, hc, he⟩ | h
        · exact .inl ⟨_, l, vs, s1, st1, Stateful.chain_inTurn.1 hc, Stateful.stepOf_diverge.1 he⟩
        · refine .inr fun n => ?_
          obtain ⟨l, vs, s1, st1, rfl, hc⟩ := h n
          exact ⟨l, vs, s1, st1, Stateful.chain_inTurn.1 hc⟩
      · cases h2
    · refine fun h => .inl (Stateful.repeatAll_diverge.2 ?_)
      rcases h with ⟨n, l, vs, s1, st1, hc, he⟩ | h
      · have hn : n = vs.length := (hc.length.trans List.length_replicate).symm
        subst hn
        exact .inl ⟨l, vs, s1, st1, Stateful.chain_inTurn.2 hc, Stateful.stepOf_diverge.2 he⟩
      · refine .inr fun n => ?_
        obtain ⟨l, vs, s1, st1, hc⟩ := h n
        have hn : n = vs.length := (hc.length.trans List.length_replicate).symm
        subst hn
        exact ⟨l, vs, s1, st1, rfl, Stateful.chain_inTurn.2 hc⟩

/-- One or more rounds: fails where the first round fails, in the state that left, and otherwise
does what `zeroOrMore` does. -/
theorem C75_one_or_more (C : Ctx α β) (U : Stateful.Callbacks σ) (p : Parser α) (s s' : Span) (st st' : σ)
    (log : List Call) :
    (Stateful.ParseFails C U (.oneOrMore p) s st log s' st' ↔ Stateful.ParseFails C U p s st log s' st') ∧
    ((∀ l s1 st1, ¬ Stateful.ParseFails C U p s st l s1 st1) →
      Stateful.Parse C U (.oneOrMore p) s st = Stateful.Parse C U (.zeroOrMore p) s st) := by
  unfold Stateful.ParseFails
  rw [Stateful.Parse_oneOrMore_eq, Stateful.Parse_zeroOrMore_eq]
  constructor
  · refine Stateful.SRun.eq_ok.trans ?_
    constructor
    · rintro ⟨l1, l2, ⟨vs, s1⟩, st1, h1, h2, rfl⟩
      obtain ⟨l, l', st2, hc, hn, rfl⟩ := Stateful.repeatAll_ok.1 h1
      cases hc with
      | nil =>
        cases h2
        obtain ⟨s2, hf⟩ := Stateful.stepOf_none.1 hn
        cases Stateful.Parse_failsBack p _ _ _ _ _ hf
        simpa using hf
      | cons => cases h2
    · intro h
      cases Stateful.Parse_failsBack p _ _ _ _ _ h
      exact ⟨log, [], ([], s), st', Stateful.repeatAll_ok.2 ⟨[], log, st, .nil, Stateful.stepOf_none.2 ⟨_, h⟩, rfl⟩,
        rfl, by simp⟩
  · intro h
    refine M.bind_congr' fun l x hx => ?_
    obtain ⟨⟨vs, s1⟩, st1⟩ := x
    obtain ⟨l1, l2, st2, hc, hn, rfl⟩ := Stateful.repeatAll_ok.1 hx
    cases hc with
    | nil =>
      obtain ⟨s2, hf⟩ := Stateful.stepOf_none.1 hn
      exact absurd hf (h _ _ _)
    | cons => simp

/-- The same for a fixed number of rounds: there is no further attempt. -/
theorem C75_exactly [LinearOrder α] (C : Ctx α β) (U : Stateful.Callbacks σ) (p : Parser α) (N : Nat)
    (hc : Compiles C (.exactly p N)) (s s' : Span) (st st' : σ) (log : List Call) :
    (∀ w, Stateful.Parses C U (.exactly p N) s st log w s' st' ↔
      ∃ vs, Stateful.InTurn (List.replicate N (Stateful.Parse C U p)) s st log vs s' st' ∧
        w = arrayValue (resultFor C p) vs) ∧
    (Stateful.ParseFails C U (.exactly p N) s st log s' st' ↔ s' = s ∧ ∃ n l l' vs s1 st1, n < N ∧
      Stateful.InTurn (List.replicate n (Stateful.Parse C U p)) s st l vs s1 st1 ∧
      Stateful.ParseFails C U p s1 st1 l' s1 st' ∧ log = l ++ l') ∧
    (∀ e, Stateful.ParseErr C U (.exactly p N) s st log e ↔ ∃ n l l' vs s1 st1, n < N ∧
      Stateful.InTurn (List.replicate n (Stateful.Parse C U p)) s st l vs s1 st1 ∧
      Stateful.ParseErr C U p s1 st1 l' e ∧ log = l ++ l') ∧
    (Stateful.ParseLoops C U (.exactly p N) s st ↔ ∃ n l vs s1 st1, n < N ∧
      Stateful.InTurn (List.replicate n (Stateful.Parse C U p)) s st l vs s1 st1 ∧
      Stateful.ParseLoops C U p s1 st1) := by
  unfold Stateful.Parses Stateful.ParseFails Stateful.ParseErr Stateful.ParseLoops
  rw [Stateful.Parse_exactly_eq hc.parse]
  refine ⟨fun w => ?_, ?_, fun e => ?_, ?_⟩
  · rw [Stateful.allOrNothing_some]
    exact exists_congr fun vs => by rw [Stateful.inOrder_some]
  · rw [Stateful.allOrNothing_none, Stateful.inOrder_none]
    refine and_congr_right fun _ => ?_
    constructor
    · rintro ⟨before, m, after, l, l', vs, s1, s2, st1, he, hi, hm, rfl⟩
      obtain ⟨hn, hb, rfl⟩ := replicate_split he
      cases Stateful.Parse_failsBack p _ _ _ _ _ hm
      rw [hb] at hi
      exact ⟨before.length, l, l', vs, _, st1, hn, hi, hm, rfl⟩
    · rintro ⟨n, l, l', vs, s1, st1, hn, hi, hm, rfl⟩
      exact ⟨_, _, _, l, l', vs, s1, s1, st1, split_replicate hn _, hi, hm, rfl⟩
  · rw [Stateful.allOrNothing_err, Stateful.inOrder_err]
    constructor
    · rintro ⟨before, m, after, l, l', vs, s1, st1, he, hi, hm, rfl⟩
      obtain ⟨hn, hb, rfl⟩ := replicate_split he
      rw [hb] at hi
      exact ⟨before.length, l, l', vs, _, st1, hn, hi, hm, rfl⟩
    · rintro ⟨n, l, l', vs, s1, st1, hn, hi, hm, rfl⟩
      exact ⟨_, _, _, l, l', vs, s1, st1, split_replicate hn _, hi, hm, rfl⟩
  · rw [Stateful.allOrNothing_diverge, Stateful.inOrder_diverge]
    constructor
    · rintro ⟨before, m, after, l, vs, s1, st1, he, hi, hm⟩
      obtain ⟨hn, hb, rfl⟩ := replicate_split he
      rw [hb] at hi
      exact ⟨before.length, l, vs, _, st1, hn, hi, hm⟩
    · rintro ⟨n, l, vs, s1, st1, hn, hi, hm⟩
      exact ⟨_, _, _, l, vs, s1, st1, split_replicate hn _, hi, hm⟩

/-- Elements and delimiters of a delimited list alternate; then comes what ends it, all in the
states left by what was before: also the trailing delimiter that is given back keeps its effects. -/
theorem C75_delimit (C : Ctx α β) (U : Stateful.Callbacks σ) (p d : Parser α) (s s' : Span) (st st' : σ)
    (log : List Call) :
    (∀ w, Stateful.Parses C U (.delimit p d) s st log w s' st' ↔ ∃ l l' vs ds st1,
      Stateful.Delimited (Stateful.Parse C U p) (Stateful.Parse C U d) s st l vs ds s' st1 ∧
      Stateful.NoMore (Stateful.Parse C U p) (Stateful.Parse C U d) s' st1 l' st' ∧ log = l ++ l' ∧
      w = delimitValue (resultFor C p) (resultFor C d) vs ds) ∧
    (Stateful.ParseFails C U (.delimit p d) s st log s' st' ↔ Stateful.ParseFails C U p s st log s' st') ∧
    (∀ e, Stateful.ParseErr C U (.delimit p d) s st log e ↔ Stateful.ParseErr C U p s st log e ∨
      ∃ l l' vs ds s1 st1, Stateful.Delimited (Stateful.Parse C U p) (Stateful.Parse C U d) s st l vs ds s1 st1 ∧
        (Stateful.ParseErr C U d s1 st1 l' e ∨ ∃ l1 l2 v s2 st2, Stateful.Parses C U d s1 st1 l1 v s2 st2 ∧
          Stateful.ParseErr C U p s2 st2 l2 e ∧ l' = l1 ++ l2) ∧ log = l ++ l') ∧
    (Stateful.ParseLoops C U (.delimit p d) s st ↔ Stateful.ParseLoops C U p s st ∨
      (∃ l vs ds s1 st1, Stateful.Delimited (Stateful.Parse C U p) (Stateful.Parse C U d) s st l vs ds s1 st1 ∧
        (Stateful.ParseLoops C U d s1 st1 ∨ ∃ l1 v s2 st2, Stateful.Parses C U d s1 st1 l1 v s2 st2 ∧
          Stateful.ParseLoops C U p s2 st2)) ∨
      ∀ n, ∃ l vs ds s1 st1, ds.length = n ∧
        Stateful.Delimited (Stateful.Parse C U p) (Stateful.Parse C U d) s st l vs ds s1 st1) := by
  unfold Stateful.Parses Stateful.ParseFails Stateful.ParseErr Stateful.ParseLoops
  rw [Stateful.Parse_delimit_eq]
  refine ⟨fun w => ?_, ?_, fun e => ?_, ?_⟩
  · refine Stateful.SRun.eq_ok.trans ?_
    constructor
    · rintro ⟨l1, l2, ⟨rv, rr⟩, st1, h1, h2, rfl⟩
      cases rv with
      | none => cases h2
      | some v =>
        obtain ⟨l3, l4, ⟨xs, s2⟩, st2, h3, h4, rfl⟩ := Stateful.SRun.eq_ok.1 h2
        cases h4
        obtain ⟨l5, l6, st3, hc, hn, rfl⟩ := Stateful.repeatAll_ok.1 h3
        exact ⟨l1 ++ l5, l6, _, _, st3, Stateful.delimited_chain.2 ⟨_, _, _, _, _, _, h1, hc, rfl, rfl, rfl⟩,
          Stateful.stepPair_none.1 hn, by simp, rfl⟩
    · rintro ⟨l, l', vs, ds, st1, hD, hn, rfl, rfl⟩
      obtain ⟨l1, l2, v, xs, s1, st2, h1, hc, rfl, rfl, rfl⟩ := Stateful.delimited_chain.1 hD
      exact ⟨l1, l2 ++ l', _, _, h1, Stateful.SRun.eq_ok.2 ⟨l2 ++ l', [], _, _,
        Stateful.repeatAll_ok.2 ⟨l2, l', _, hc, Stateful.stepPair_none.2 hn, rfl⟩, rfl, by simp⟩, by simp⟩
  · refine Stateful.SRun.eq_ok.trans ?_
    constructor
    · rintro ⟨l1, l2, ⟨rv, rr⟩, st1, h1, h2, rfl⟩
      cases rv with
      | none =>
        cases h2
        cases Stateful.Parse_failsBack p _ _ _ _ _ h1
        simpa using h1
      | some v =>
        obtain ⟨l3, l4, x, st2, h3, h4, rfl⟩ := Stateful.SRun.eq_ok.1 h2
        cases h4
    · intro h
      cases Stateful.Parse_failsBack p _ _ _ _ _ h
      exact ⟨log, [], _, _, h, rfl, by simp⟩
  · refine Stateful.SRun.eq_err.trans ?_
    refine or_congr Iff.rfl ⟨?_, ?_⟩
    · rintro ⟨l1, l2, ⟨rv, rr⟩, st1, h1, h2, rfl⟩
      cases rv with
      | none => cases h2
      | some v =>
        rcases Stateful.SRun.eq_err.1 h2 with h3 | ⟨_, _, _, _, _, h, _⟩
        · obtain ⟨l5, l6, xs, s2, st3, hc, hn, rfl⟩ := Stateful.repeatAll_err.1 h3
          exact ⟨l1 ++ l5, l6, _, _, s2, st3, Stateful.delimited_chain.2 ⟨_, _, _, _, _, _, h1, hc, rfl, rfl, rfl⟩,
            Stateful.stepPair_err.1 hn, by simp⟩
        · cases h
    · rintro ⟨l, l', vs, ds, s1, st1, hD, hn, rfl⟩
      obtain ⟨l1, l2, v, xs, s2, st2, h1, hc, rfl, rfl, rfl⟩ := Stateful.delimited_chain.1 hD
      exact ⟨l1, l2 ++ l', _, _, h1, Stateful.SRun.eq_err.2 (.inl
        (Stateful.repeatAll_err.2 ⟨l2, l', xs, s1, st1, hc, Stateful.stepPair_err.2 hn, rfl⟩)), by simp⟩
  · refine Stateful.SRun.eq_diverge.trans (or_congr Iff.rfl ⟨?_, ?_⟩)
    · rintro ⟨l1, ⟨rv, rr⟩, st1, h1, h2⟩
      cases rv with
      | none => cases h2
      | some v =>
        rcases Stateful.SRun.eq_diverge.1 h2 with h3 | ⟨_, _, _, _, h⟩
        · rcases Stateful.repeatAll_diverge.1 h3 with ⟨l, xs, s2, st3, hc, hn⟩ | h
          · exact .inl ⟨_, _, _, s2, st3, Stateful.delimited_chain.2 ⟨_, _, _, _, _, _, h1, hc, rfl, rfl, rfl⟩,
              Stateful.stepPair_diverge.1 hn⟩
          · refine .inr fun n => ?_
            obtain ⟨l, xs, s2, st3, rfl, hc⟩ := h n
            exact ⟨_, _, _, s2, st3, List.length_map _,
              Stateful.delimited_chain.2 ⟨_, _, _, _, _, _, h1, hc, rfl, rfl, rfl⟩⟩
        · cases h
    · rintro (⟨l, vs, ds, s1, st1, hD, hn⟩ | h)
      · obtain ⟨l1, l2, v, xs, s2, st2, h1, hc, rfl, rfl, rfl⟩ := Stateful.delimited_chain.1 hD
        exact ⟨l1, _, _, h1, Stateful.SRun.eq_diverge.2 (.inl
          (Stateful.repeatAll_diverge.2 (.inl ⟨l2, xs, s1, st1, hc, Stateful.stepPair_diverge.2 hn⟩)))⟩
      · obtain ⟨_, _, _, _, _, -, hD⟩ := h 0
        obtain ⟨l1, l2, v, xs, s2, st2, h1, hc, rfl, rfl, rfl⟩ := Stateful.delimited_chain.1 hD
        refine ⟨l1, _, _, h1, Stateful.SRun.eq_diverge.2 (.inl (Stateful.repeatAll_diverge.2 (.inr fun n => ?_)))⟩
        obtain ⟨_, _, _, s3, st3, hl, hD⟩ := h n
        obtain ⟨l3, l4, v', xs', s4, st4, h1', hc', rfl, rfl, rfl⟩ := Stateful.delimited_chain.1 hD
        rw [h1] at h1'
        cases h1'
        exact ⟨_, xs', s3, st3, by simpa using hl, hc'⟩

/-- `map`: the function is called once, in the state which parsing its argument left; what it
answers there is the value, and an exception it throws there ends the run.  The function object may
be the user's own, a construction, `constant`, `defaulted`, or one of these behind `apply`. -/
theorem C75_map (C : Ctx α β) (U : Stateful.Callbacks σ) (p : Parser α) (f : Fn) (s s' : Span) (st st' : σ)
    (log : List Call) :
    (∀ w, Stateful.Parses C U (.map p f) s st log w s' st' ↔ ∃ l v st1 c x,
      Stateful.Parses C U p s st l v s' st1 ∧ log = l ++ [c] ∧
      Stateful.Called C U f (argsOf (resultFor C p) v) st1 c (.ok x) st' ∧
      w = returned (resultFor C (.map p f)) x) ∧
    (Stateful.ParseFails C U (.map p f) s st log s' st' ↔ Stateful.ParseFails C U p s st log s' st') ∧
    (∀ e, e ≠ .ill → (Stateful.ParseErr C U (.map p f) s st log e ↔ Stateful.ParseErr C U p s st log e ∨
      ∃ l v s1 st1 c x st2, Stateful.Parses C U p s st l v s1 st1 ∧ log = l ++ [c] ∧
        Stateful.Called C U f (argsOf (resultFor C p) v) st1 c (.error x) st2 ∧ e = .exn x)) ∧
    (Stateful.ParseLoops C U (.map p f) s st ↔ Stateful.ParseLoops C U p s st) := by
  simp only [Stateful.Parses, Stateful.ParseFails, Stateful.ParseErr, Stateful.ParseLoops, Stateful.Parse_map_eq,
    M.bind_eq_ok, M.bind_eq_err, M.bind_eq_diverge]
  refine ⟨fun w => ⟨?_, ?_⟩, ⟨?_, ?_⟩, fun e he => or_congr Iff.rfl ⟨?_, ?_⟩, ⟨?_, .inl⟩⟩
  · rintro ⟨l1, l2, ⟨⟨_ | v, t⟩, st1⟩, h1, h2, rfl⟩
    · cases h2
    · obtain ⟨l3, l4, ⟨x, st2⟩, h3, h4, rfl⟩ := M.bind_eq_ok.1 h2
      obtain ⟨c, rfl, h5⟩ := (Stateful.invoke_ok f).1 h3
      cases h4
      exact ⟨l1, v, st1, c, x, h1, by simp, h5, rfl⟩
  · rintro ⟨l, v, st1, c, x, h1, rfl, h2, rfl⟩
    exact ⟨l, _, _, h1, M.bind_eq_ok.2 ⟨_, [], _, (Stateful.invoke_ok f).2 ⟨c, rfl, h2⟩, rfl, rfl⟩, by simp⟩
  · rintro ⟨l1, l2, ⟨⟨_ | v, t⟩, st1⟩, h1, h2, rfl⟩
    · have : t = s := ((Stateful.Parse_good p s st).ok h1).fail rfl
      subst this
      cases h2
      simpa using h1
    · obtain ⟨l3, l4, ⟨x, st2⟩, h3, h4, rfl⟩ := M.bind_eq_ok.1 h2
      cases h4
  · intro h
    have : s' = s := ((Stateful.Parse_good p s st).ok h).fail rfl
    subst this
    exact ⟨log, [], _, h, rfl, by simp⟩
  · rintro ⟨l1, l2, ⟨⟨_ | v, t⟩, st1⟩, h1, h2, rfl⟩
    · cases h2
    · rcases M.bind_eq_err.1 h2 with h3 | ⟨l3, l4, ⟨x, st2⟩, h3, h4, rfl⟩
      · obtain ⟨c, x, st2, rfl, h5, rfl⟩ := (Stateful.invoke_err f he).1 h3
        exact ⟨l1, v, t, st1, c, x, st2, h1, rfl, h5, rfl⟩
      · cases h4
  · rintro ⟨l, v, s1, st1, c, x, st2, h1, rfl, h2, rfl⟩
    exact ⟨l, _, _, h1, M.bind_eq_err.2 (.inl ((Stateful.invoke_err f he).2 ⟨c, x, st2, rfl, h2, rfl⟩)), rfl⟩
  · rintro (h | ⟨l1, ⟨⟨_ | v, t⟩, st1⟩, h1, h2⟩)
    · exact h
    · cases h2
    · rcases M.bind_eq_diverge.1 h2 with h3 | ⟨l3, ⟨x, st2⟩, h3, h4⟩
      · exact absurd h3 (Stateful.invoke_diverge f)
      · cases h4

/-- `filter`: the predicate is called once, in the state which parsing its argument left, and
its answer in that state decides; what it did to the state stays done if it rejects. -/
theorem C75_filter (C : Ctx α β) (U : Stateful.Callbacks σ) (p : Parser α) (f : Fn) (s s' : Span) (st st' : σ)
    (log : List Call) :
    (∀ v, Stateful.Parses C U (.filter p f) s st log v s' st' ↔ ∃ l st1 c x,
      Stateful.Parses C U p s st l v s' st1 ∧ log = l ++ [c] ∧
      Stateful.Called C U f (argsOf (resultFor C p) v) st1 c (.ok x) st' ∧ C.truthy x = true) ∧
    (Stateful.ParseFails C U (.filter p f) s st log s' st' ↔ s' = s ∧
      (Stateful.ParseFails C U p s st log s st' ∨ ∃ l v s1 st1 c x,
        Stateful.Parses C U p s st l v s1 st1 ∧ log = l ++ [c] ∧
        Stateful.Called C U f (argsOf (resultFor C p) v) st1 c (.ok x) st' ∧ C.truthy x = false)) ∧
    (∀ e, e ≠ .ill → (Stateful.ParseErr C U (.filter p f) s st log e ↔ Stateful.ParseErr C U p s st log e ∨
      ∃ l v s1 st1 c x st2, Stateful.Parses C U p s st l v s1 st1 ∧ log = l ++ [c] ∧
        Stateful.Called C U f (argsOf (resultFor C p) v) st1 c (.error x) st2 ∧ e = .exn x)) ∧
    (Stateful.ParseLoops C U (.filter p f) s st ↔ Stateful.ParseLoops C U p s st) := by
  simp only [Stateful.Parses, Stateful.ParseFails, Stateful.ParseErr, Stateful.ParseLoops, Stateful.Parse_filter_eq,
    M.bind_eq_ok, M.bind_eq_err, M.bind_eq_diverge]
  refine ⟨fun w => ⟨?_, ?_⟩, ⟨?_, ?_⟩, fun e he => or_congr Iff.rfl ⟨?_, ?_⟩, ⟨?_, .inl⟩⟩
  · rintro ⟨l1, l2, ⟨⟨_ | v, t⟩, st1⟩, h1, h2, rfl⟩
    · cases h2
    · obtain ⟨l3, l4, ⟨x, st2⟩, h3, h4, rfl⟩ := M.bind_eq_ok.1 h2
      obtain ⟨c, rfl, h5⟩ := (Stateful.invoke_ok f).1 h3
      by_cases hx : C.truthy x = true
      · simp only [hx, if_true] at h4
        cases h4
        exact ⟨l1, st1, c, x, h1, by simp, h5, hx⟩
      · simp only [hx] at h4
        cases h4
  · rintro ⟨l, st1, c, x, h1, rfl, h2, h3⟩
    exact ⟨l, _, _, h1, M.bind_eq_ok.2 ⟨_, [], _, (Stateful.invoke_ok f).2 ⟨c, rfl, h2⟩, by simp [h3, M.pure], rfl⟩, by simp⟩
  · rintro ⟨l1, l2, ⟨⟨_ | v, t⟩, st1⟩, h1, h2, rfl⟩
    · have : t = s := ((Stateful.Parse_good p s st).ok h1).fail rfl
      subst this
      cases h2
      exact ⟨rfl, .inl (by simpa using h1)⟩
    · obtain ⟨l3, l4, ⟨x, st2⟩, h3, h4, rfl⟩ := M.bind_eq_ok.1 h2
      obtain ⟨c, rfl, h5⟩ := (Stateful.invoke_ok f).1 h3
      by_cases hx : C.truthy x = true
      · simp only [hx, if_true] at h4
        cases h4
      · simp only [hx] at h4
        cases h4
        exact ⟨rfl, .inr ⟨l1, v, t, st1, c, x, h1, by simp, h5, by simpa using hx⟩⟩
  · rintro ⟨rfl, h | ⟨l, v, s1, st1, c, x, h1, rfl, h2, h3⟩⟩
    · exact ⟨log, [], _, h, rfl, by simp⟩
    · exact ⟨l, _, _, h1, M.bind_eq_ok.2 ⟨_, [], _, (Stateful.invoke_ok f).2 ⟨c, rfl, h2⟩,
        by simp [h3, M.pure, R.failure], rfl⟩, by simp⟩
  · rintro ⟨l1, l2, ⟨⟨_ | v, t⟩, st1⟩, h1, h2, rfl⟩
    · cases h2
    · rcases M.bind_eq_err.1 h2 with h3 | ⟨l3, l4, ⟨x, st2⟩, h3, h4, rfl⟩
      · obtain ⟨c, x, st2, rfl, h5, rfl⟩ := (Stateful.invoke_err f he).1 h3
        exact ⟨l1, v, t, st1, c, x, st2, h1, rfl, h5, rfl⟩
      · split at h4 <;> cases h4
  · rintro ⟨l, v, s1, st1, c, x, st2, h1, rfl, h2, rfl⟩
    exact ⟨l, _, _, h1, M.bind_eq_err.2 (.inl ((Stateful.invoke_err f he).2 ⟨c, x, st2, rfl, h2, rfl⟩)), rfl⟩
  · rintro (h | ⟨l1, ⟨⟨_ | v, t⟩, st1⟩, h1, h2⟩)
    · exact h
    · cases h2
    · rcases M.bind_eq_diverge.1 h2 with h3 | ⟨l3, ⟨x, st2⟩, h3, h4⟩
      · exact absurd h3 (Stateful.invoke_diverge f)
      · split at h4 <;> cases h4

/-- The parsers hand the state on and never look at it.  Two programs whose callbacks keep different kinds of state, in
which every function that `p` maps or filters with answers the same and keeps the states in step, get the same outcome
from the same calls, in states that are still in step. -/
theorem C75_same_answers {τ : Type} (C : Ctx α β) (U : Stateful.Callbacks σ) (W : Stateful.Callbacks τ) (S : σ → τ → Prop)
    (p : Parser α)
    (hf : ∀ q f, ParseReach C p (.map q f) ∨ ParseReach C p (.filter q f) → Stateful.Corresponds S U W f)
    (s : Span) (st : σ) (st' : τ) (hs : S st st') (log : List Call) :
    (∀ v s1 st1, Stateful.Parses C U p s st log v s1 st1 → ∃ st2, Stateful.Parses C W p s st' log v s1 st2 ∧ S st1 st2) ∧
    (∀ v s1 st2, Stateful.Parses C W p s st' log v s1 st2 → ∃ st1, Stateful.Parses C U p s st log v s1 st1 ∧ S st1 st2) ∧
    (∀ s1 st1, Stateful.ParseFails C U p s st log s1 st1 → ∃ st2, Stateful.ParseFails C W p s st' log s1 st2 ∧ S st1 st2) ∧
    (∀ s1 st2, Stateful.ParseFails C W p s st' log s1 st2 → ∃ st1, Stateful.ParseFails C U p s st log s1 st1 ∧ S st1 st2) ∧
    (∀ e, Stateful.ParseErr C U p s st log e ↔ Stateful.ParseErr C W p s st' log e) ∧
    (Stateful.ParseLoops C U p s st ↔ Stateful.ParseLoops C W p s st') := by
  have h := Stateful.Parse_rel (C := C) hf s st st' hs
  unfold Stateful.Parses Stateful.ParseFails Stateful.ParseErr Stateful.ParseLoops
  revert h
  generalize Stateful.Parse C U p s st = x; generalize Stateful.Parse C W p s st' = y
  intro h
  cases h with
  | diverge => exact ⟨nofun, nofun, nofun, nofun, fun _ => ⟨nofun, nofun⟩, ⟨fun _ => rfl, fun _ => rfl⟩⟩
  | err =>
    refine ⟨nofun, nofun, nofun, nofun, fun e => ?_, ⟨nofun, nofun⟩⟩
    constructor <;> (rintro ⟨⟩; rfl)
  | ok h1 =>
    refine ⟨?_, ?_, ?_, ?_, fun e => ⟨nofun, nofun⟩, ⟨nofun, nofun⟩⟩
    · rintro v s1 st1 ⟨⟩; exact ⟨_, rfl, h1⟩
    · rintro v s1 st1 ⟨⟩; exact ⟨_, rfl, h1⟩
    · rintro s1 st1 ⟨⟩; exact ⟨_, rfl, h1⟩
    · rintro s1 st1 ⟨⟩; exact ⟨_, rfl, h1⟩

/-- Callbacks that `p` never maps or filters with have no influence on it, nor their use of the state. -/
theorem C75_used (C : Ctx α β) (U W : Stateful.Callbacks σ) (p : Parser α)
    (hf : ∀ q f, ParseReach C p (.map q f) ∨ ParseReach C p (.filter q f) →
      (∀ k, f.Calls k → U.fnCall k = W.fnCall k) ∧ ∀ t, f.Constructs t → U.ctor t = W.ctor t) (s : Span) :
    Stateful.Parse C U p s = Stateful.Parse C W p s := by
  have key : ∀ f : Fn, (∀ k, f.Calls k → U.fnCall k = W.fnCall k) → (∀ t, f.Constructs t → U.ctor t = W.ctor t) →
      Stateful.Corresponds Eq U W f := by
    intro f
    induction f with
    | user k => rintro h - args st _ rfl; rw [h k rfl]; exact ⟨rfl, rfl⟩
    | apply f ih => exact ih
    | const => intros; trivial
    | construct t => rintro - h args st _ rfl; rw [h t rfl]; exact ⟨rfl, rfl⟩
    | deflt => intros; trivial
  funext st
  have h := Stateful.Parse_rel (C := C) (fun q f hr => key f (hf q f hr).1 (hf q f hr).2) s st st rfl
  revert h
  generalize Stateful.Parse C U p s st = x; generalize Stateful.Parse C W p s st = y
  intro h
  cases h with
  | diverge => rfl
  | err => rfl
  | ok h => rw [h]

/-- A parser that neither maps nor filters, other than below `ignore`, runs as if there were no state: nothing is called,
and the state stays. -/
theorem C75_no_callbacks (C : Ctx α β) (U : Stateful.Callbacks σ) (p : Parser α)
    (hp : ∀ q f, ¬ ParseReach C p (.map q f) ∧ ¬ ParseReach C p (.filter q f)) (s s' : Span) (st st' : σ) (log : List Call) :
    (∀ v, Stateful.Parses C U p s st log v s' st' ↔ Parses C p s log v s' ∧ st' = st) ∧
    (Stateful.ParseFails C U p s st log s' st' ↔ ParseFails C p s log s' ∧ st' = st) ∧
    (∀ e, Stateful.ParseErr C U p s st log e ↔ ParseErr C p s log e) ∧
    (Stateful.ParseLoops C U p s st ↔ ParseLoops C p s) := by
  have h : Stateful.Parse C U p s = Stateful.Parse C (.ofCtx C) p s :=
    C75_used C U (.ofCtx C) p (fun q f hr => (hr.elim (hp q f).1 (hp q f).2).elim) s
  unfold Stateful.Parses Stateful.ParseFails Stateful.ParseErr Stateful.ParseLoops
  rw [h]
  exact C75_stateless C p s s' st st' log

/-- The basic parsers have nothing to do with the state. -/
theorem C75_basic (C : Ctx α β) (U : Stateful.Callbacks σ) (p : Parser α)
    (hp : p = .anything ∨ p = .epsilon ∨ ∃ arr, p = .anyOf arr ∨ p = .noneOf arr ∨ p = .allOf arr) (s : Span) (st : σ) :
    Stateful.Parse C U p s st = M.bind (Parse C p s) fun r => M.pure (r, st) := by
  have h : ∀ n, Stateful.sem C U n p = Stateful.sem C (.ofCtx C) n p := fun n => by
    cases n with
    | zero => rfl
    | succ n => obtain rfl | rfl | ⟨arr, rfl | rfl | rfl⟩ := hp <;> rfl
  trans Stateful.Parse C (.ofCtx C) p s st
  · unfold Stateful.Parse; simp only [h]
  · exact congrFun (Stateful.Parse_lift C p s) st

/-- `ignore`: its argument is only looked ahead; no callback is called and the state stays. -/
theorem C75_ignore (C : Ctx α β) (U : Stateful.Callbacks σ) (p : Parser α) (s s' : Span) (st st' : σ) (log : List Call) :
    (∀ w, Stateful.Parses C U (.ignore p) s st log w s' st' ↔ Looks C p s log s' ∧ w = .unit ∧ log = [] ∧ st' = st) ∧
    (Stateful.ParseFails C U (.ignore p) s st log s' st' ↔ LookFails C p s log s' ∧ s' = s ∧ log = [] ∧ st' = st) ∧
    (∀ e, Stateful.ParseErr C U (.ignore p) s st log e ↔ LookErr C p s log e) ∧
    (Stateful.ParseLoops C U (.ignore p) s st ↔ LookLoops C p s) := by
  have key : Stateful.Parse C U (.ignore p) s st = M.bind (Parse C (.ignore p) s) fun r => M.pure (r, st) := by
    rw [Stateful.Parse_ignore, Stateful.Look_lift, Parse_ignore]; rfl
  obtain ⟨h1, h2, h3, h4, -⟩ := C26_ignore C p s s' log
  refine ⟨fun w => ?_, ?_, fun e => ?_, ?_⟩
  · rw [Stateful.Parses, key, M.bind_eq_ok]
    constructor
    · rintro ⟨l1, l2, r, h, h', rfl⟩
      cases h'
      rw [List.append_nil] at *
      obtain ⟨ha, hb, hc⟩ := (h1 w).1 h
      exact ⟨ha, hb, hc, rfl⟩
    · rintro ⟨ha, hb, hc, rfl⟩
      exact ⟨log, [], _, (h1 w).2 ⟨ha, hb, hc⟩, rfl, by simp⟩
  · rw [Stateful.ParseFails, key, M.bind_eq_ok]
    constructor
    · rintro ⟨l1, l2, r, h, h', rfl⟩
      cases h'
      rw [List.append_nil] at *
      obtain ⟨ha, hb, hc⟩ := h2.1 h
      exact ⟨ha, hb, hc, rfl⟩
    · rintro ⟨ha, hb, hc, rfl⟩
      exact ⟨log, [], _, h2.2 ⟨ha, hb, hc⟩, rfl, by simp⟩
  · rw [Stateful.ParseErr, key, bind_pure_err]; exact h3 e
  · rw [Stateful.ParseLoops, key, bind_pure_diverge]; exact h4

/-- `complete`: a success which leaves input is turned into a failure; the state stays as the argument left it. -/
theorem C75_complete (C : Ctx α β) (U : Stateful.Callbacks σ) (p : Parser α) (s s' : Span) (st st' : σ) (log : List Call) :
    (∀ w, Stateful.Parses C U (.complete p) s st log w s' st' ↔ Stateful.Parses C U p s st log w s' st' ∧ s'.len = 0) ∧
    (Stateful.ParseFails C U (.complete p) s st log s' st' ↔ s' = s ∧ (Stateful.ParseFails C U p s st log s st' ∨
      ∃ v s1, Stateful.Parses C U p s st log v s1 st' ∧ s1.len ≠ 0)) ∧
    (∀ e, Stateful.ParseErr C U (.complete p) s st log e ↔ Stateful.ParseErr C U p s st log e) ∧
    (Stateful.ParseLoops C U (.complete p) s st ↔ Stateful.ParseLoops C U p s st) := by
  refine ⟨fun w => ?_, ?_, fun e => ?_, ?_⟩
  · rw [Stateful.Parses, Stateful.Parse_complete_eq, M.bind_eq_ok]
    constructor
    · rintro ⟨l1, l2, ⟨⟨rv, rr⟩, st1⟩, h1, h2, rfl⟩
      simp only [M.pure_eq_ok] at h2
      split at h2
      · rename_i h
        obtain ⟨rfl, h2⟩ := h2
        cases h2
        rw [List.append_nil]
        exact ⟨h1, h.2⟩
      · simp [R.failure] at h2
    · rintro ⟨h, h0⟩
      exact ⟨log, [], _, h, by simp [h0], by simp⟩
  · rw [Stateful.ParseFails, Stateful.Parse_complete_eq, M.bind_eq_ok]
    constructor
    · rintro ⟨l1, l2, ⟨⟨rv, rr⟩, st1⟩, h1, h2, rfl⟩
      simp only [M.pure_eq_ok] at h2
      split at h2
      · rename_i h
        obtain ⟨rfl, h2⟩ := h2
        cases h2
        simp at h
      · rename_i h
        obtain ⟨rfl, h2⟩ := h2
        cases h2
        rw [List.append_nil]
        refine ⟨rfl, ?_⟩
        cases rv with
        | none =>
          have : rr = s := ((Stateful.Parse_good p s st).ok h1).fail rfl
          subst this
          exact .inl h1
        | some v => exact .inr ⟨v, rr, h1, by simpa using h⟩
    · rintro ⟨rfl, h | ⟨v, s1, h, h0⟩⟩
      · exact ⟨log, [], _, h, by simp [R.failure], by simp⟩
      · exact ⟨log, [], _, h, by simp [h0, R.failure], by simp⟩
  · rw [Stateful.ParseErr, Stateful.Parse_complete_eq, bind_pure_err]; rfl
  · rw [Stateful.ParseLoops, Stateful.Parse_complete_eq, bind_pure_diverge]; rfl

/-- `join`: the text its argument's value covers, if that is one piece; the state stays as the argument left it.  An
argument that no function object in it can make up spans for (`SpanLocal`), whatever the state. -/
theorem C75_join [LinearOrder α] (C : Ctx α β) (U : Stateful.Callbacks σ) (p : Parser α) (hc : Compiles C (.join p))
    (ht : ∀ st, (Stateful.freeze C U st).Typed) (hl : ∀ st, SpanLocal (Stateful.freeze C U st) p) (s s' : Span)
    (hs : s.Valid C.mem) (st st' : σ) (log : List Call) :
    (∀ w, Stateful.Parses C U (.join p) s st log w s' st' ↔ ∃ v, Stateful.Parses C U p s st log v s' st' ∧
      Contiguous (nonEmpty (joinLeaves C v)) ∧ w = .span (cover s' (nonEmpty (joinLeaves C v)))) ∧
    (Stateful.ParseFails C U (.join p) s st log s' st' ↔ s' = s ∧ (Stateful.ParseFails C U p s st log s st' ∨
      ∃ v s1, Stateful.Parses C U p s st log v s1 st' ∧ ¬ Contiguous (nonEmpty (joinLeaves C v)))) ∧
    (∀ e, Stateful.ParseErr C U (.join p) s st log e ↔ Stateful.ParseErr C U p s st log e) ∧
    (Stateful.ParseLoops C U (.join p) s st ↔ Stateful.ParseLoops C U p s st) := by
  have hok : tyOK C p = true ∧ parseOK C p = true ∧ joinable C (resultFor C p) = true := by
    have := hc.parse
    simp only [parseOK, Bool.and_eq_true] at this
    exact ⟨this.1.1, this.1.2, this.2⟩
  have hcp : Compiles C p := ⟨hc.ctx, by simpa [Parser.wf] using hc.wf, hok.1, hok.2.1⟩
  have hsat := Stateful.Parse_typed hcp ht s
  have hL : C.Local := ⟨(hl st).ctx.conv, (hl st).ctx.convOpt, (hl st).ctx.dflt, (hl st).ctx.toSpan⟩
  classical
  have key : Stateful.Parse C U (.join p) s st = M.bind (Stateful.Parse C U p s st) fun x => M.pure (match x.1.val with
      | none => ⟨none, s⟩
      | some v => if Contiguous (nonEmpty (joinLeaves C v)) then
          ⟨some (.span (cover x.1.rem (nonEmpty (joinLeaves C v)))), x.1.rem⟩ else ⟨none, s⟩, x.2) := by
    rw [Stateful.Parse_join]
    show M.bind (Stateful.Parse C U p s st) _ = _
    refine M.bind_congr' fun l x hx => ?_
    obtain ⟨⟨rv, rr⟩, st1⟩ := x
    cases rv with
    | none => rfl
    | some v =>
      have hg := (hsat st).ok hx
      have hv := hg.val v rfl
      obtain ⟨h1, h2⟩ := joinExecutor_spec hok.2.2 hv.ty hs hg.suffix hL fun y hy => hv.spans y hy hl
      show ((Stateful.SRun.lift (joinExecutor C ⟨some v, rr⟩) : Stateful.SRun σ _) >>= _ : Stateful.SRun σ R) st1 =
        M.pure (if Contiguous (nonEmpty (joinLeaves C v)) then
          ⟨some (.span (cover rr (nonEmpty (joinLeaves C v)))), rr⟩ else ⟨none, s⟩, st1)
      by_cases hcon : Contiguous (nonEmpty (joinLeaves C v))
      · rw [if_pos hcon, h1 hcon]; rfl
      · rw [if_neg hcon, h2 hcon]; rfl
  refine ⟨fun w => ?_, ?_, fun e => ?_, ?_⟩
  · rw [Stateful.Parses, key, M.bind_eq_ok]
    constructor
    · rintro ⟨l1, l2, ⟨⟨rv, rr⟩, st1⟩, h1, h2, rfl⟩
      simp only [M.pure_eq_ok] at h2
      obtain ⟨rfl, h2⟩ := h2
      rw [List.append_nil]
      cases rv with
      | none => simp at h2
      | some v =>
        simp only at h2
        split at h2
        · rename_i hcon
          cases h2
          exact ⟨v, h1, hcon, rfl⟩
        · simp at h2
    · rintro ⟨v, h, hcon, rfl⟩
      exact ⟨log, [], _, h, by simp [hcon], by simp⟩
  · rw [Stateful.ParseFails, key, M.bind_eq_ok]
    constructor
    · rintro ⟨l1, l2, ⟨⟨rv, rr⟩, st1⟩, h1, h2, rfl⟩
      simp only [M.pure_eq_ok] at h2
      obtain ⟨rfl, h2⟩ := h2
      rw [List.append_nil]
      cases rv with
      | none =>
        have : rr = s := ((Stateful.Parse_good p s st).ok h1).fail rfl
        subst this
        cases h2
        exact ⟨rfl, .inl h1⟩
      | some v =>
        simp only at h2
        split at h2
        · cases h2
        · rename_i hcon
          cases h2
          exact ⟨rfl, .inr ⟨v, rr, h1, hcon⟩⟩
    · rintro ⟨rfl, h | ⟨v, s1, h, hcon⟩⟩
      · exact ⟨log, [], _, h, rfl, by simp⟩
      · exact ⟨log, [], _, h, by simp [hcon], by simp⟩
  · rw [Stateful.ParseErr, key, bind_pure_err]; rfl
  · rw [Stateful.ParseLoops, key, bind_pure_diverge]; rfl

/-- A custom parser and a named one: what the body does to the state, and when, is all they do to it.  The value is
converted to the declared type as without state (`C41_custom`). -/
theorem C75_custom [LinearOrder α] (C : Ctx α β) (U : Stateful.Callbacks σ) (k : Nat) (hc : Compiles C (.custom k))
    (s : Span) :
    let body := (C.custom k).body
    ((C.custom k).ty = resultFor C body → Stateful.Parse C U (.custom k) s = Stateful.Parse C U body s) ∧
    ((C.custom k).ty ≠ resultFor C body → ¬ Pretends C k → ∃ g, C.conv (resultFor C body) (C.custom k).ty = some g ∧
      Stateful.Parse C U (.custom k) s = Stateful.mapVal g (Stateful.Parse C U body s)) ∧
    (Pretends C k → ∃ g, fromOptional C (resultFor C body) (C.custom k).ty = some g ∧
      ∀ st, Stateful.Parse C U (.custom k) s st =
        M.bind (Stateful.Parse C U body s st) fun x => M.pure (⟨some (g x.1.val), x.1.rem⟩, x.2)) ∧
    ∀ (p : Parser α) (n : Name), Stateful.Parse C U (.named p n) s = Stateful.Parse C U p s := by
  intro body
  have hrun : ∀ st, Stateful.Parse C U (.custom k) s st = M.bind (Stateful.Parse C U body s st) fun x =>
      M.bind (convertResult C (resultFor C body) (C.custom k).ty x.1) fun r => M.pure (r, x.2) := fun st => by
    rw [Stateful.Parse_custom]; rfl
  have hnv : (C.custom k).ty ≠ resultFor C body → resultFor C body ≠ .void ∧ (C.custom k).ty ≠ .void ∧
      ((fromOptional C (resultFor C body) (C.custom k).ty).isSome = true ∨
        (C.conv (resultFor C body) (C.custom k).ty).isSome = true) := fun h => by
    have hp := hc.parse
    simp only [parseOK, Bool.or_eq_true, decide_eq_true_eq, Bool.and_eq_true, bne_iff_ne] at hp
    rcases hp with hp | hp
    · exact absurd hp.symm h
    · exact ⟨hp.1.1, hp.1.2, hp.2⟩
  refine ⟨fun h => ?_, fun h hn => ?_, fun hn => ?_, fun p n => Stateful.Parse_named p n s⟩
  · funext st
    rw [hrun]
    trans M.bind (Stateful.Parse C U body s st) M.pure
    · refine M.bind_congr fun x => ?_
      rw [convertResult, if_pos (by exact h.symm)]; rfl
    · rw [M.bind_pure]
  · obtain ⟨h1, h2, h3⟩ := hnv h
    have hf : fromOptional C (resultFor C body) (C.custom k).ty = none := by
      by_contra hf
      exact hn ⟨fun e => h e.symm, by rwa [Option.isSome_iff_ne_none]⟩
    rw [hf] at h3
    obtain ⟨g, hg⟩ := Option.isSome_iff_exists.1 (h3.resolve_left nofun)
    refine ⟨g, hg, ?_⟩
    funext st
    rw [hrun]
    show _ = M.bind (Stateful.Parse C U body s st) _
    refine M.bind_congr fun x => ?_
    obtain ⟨⟨rv, rr⟩, st1⟩ := x
    rw [convertResult, if_neg (by exact fun e => h e.symm), if_neg (by simp [h1, h2]), hf]
    cases rv with
    | none => rfl
    | some v =>
      simp only [M.bind_eq]
      rw [convert, if_neg (fun e => h e.symm), hg]; simp; rfl
  · obtain ⟨h, hs⟩ := hn
    obtain ⟨h1, h2, -⟩ := hnv (fun e => h e.symm)
    obtain ⟨g, hg⟩ := Option.isSome_iff_exists.1 hs
    refine ⟨g, hg, fun st => ?_⟩
    rw [hrun]
    refine M.bind_congr fun x => ?_
    obtain ⟨⟨rv, rr⟩, st1⟩ := x
    rw [convertResult, if_neg (by exact h), if_neg (by simp [h1, h2]), hg]
    rfl

/-- A productive grammar returns on every readable input, from every state. -/
theorem C75_returns (C : Ctx α β) (U : Stateful.Callbacks σ) (p : Parser α) (hp : Stateful.Productive C U p) (s : Span)
    (hs : s.Valid C.mem) (st : σ) : ¬ Stateful.ParseLoops C U p s st := (Stateful.productive_rets hp p .self s hs).1 st

/-- The check that looks at the grammar only is enough, whatever the callbacks do. -/
theorem C75_checked (C : Ctx α β) (U : Stateful.Callbacks σ) (p : Parser α) (ks : List Nat) (null : Nat → Bool)
    (rank : Nat → Nat) (hp : productive C ks null rank p = true) (s : Span) (hs : s.Valid C.mem) (st : σ) :
    ¬ Stateful.ParseLoops C U p s st := C75_returns C U p (Stateful.productive_sound hp) s hs st

/-- Without `filter`, `join` and conversions of a failing result, the callbacks have no say in
the verdict: where `parse` does not end with an exception, it accepts, rejects or does not return
as `lookahead` does, which calls none of them. -/
theorem C75_verdict (C : Ctx α β) (U : Stateful.Callbacks σ) (p : Parser α) (hp : Plain C p) (s : Span) (st : σ) :
    (∀ log v s' st', Stateful.Parses C U p s st log v s' st' → Looks C p s [] s') ∧
    (∀ log s' st', Stateful.ParseFails C U p s st log s' st' → LookFails C p s [] s') ∧
    (Stateful.ParseLoops C U p s st → LookLoops C p s) := by
  have h := Stateful.Look_follows (U := U) hp s st
  simp only [Stateful.Parses, Stateful.ParseFails, Stateful.ParseLoops, Looks, LookFails, LookLoops]
  refine ⟨fun l v s' st' e => ?_, fun l s' st' e => ?_, fun e => ?_⟩ <;> rw [e] at h
  · obtain ⟨⟨v', t⟩, h1, h2, h3⟩ := h
    cases h2; cases h3; exact h1
  · obtain ⟨⟨v', t⟩, h1, h2, h3⟩ := h
    cases h2; cases h3; exact h1
  · exact h

/-- So two runs, with any callbacks in any states, that end without an exception end alike. -/
theorem C75_same_verdict {τ : Type} (C : Ctx α β) (U : Stateful.Callbacks σ) (W : Stateful.Callbacks τ) (p : Parser α)
    (hp : Plain C p) (s : Span) (st : σ) (tt : τ) {log log' : List Call} {s' s'' : Span} {st' : σ} {tt' : τ} {v v' : Option Val}
    (h : Stateful.Parse C U p s st = .done log (.ok (⟨v, s'⟩, st')))
    (h' : Stateful.Parse C W p s tt = .done log' (.ok (⟨v', s''⟩, tt'))) : v.isSome = v'.isSome ∧ s' = s'' := by
  obtain ⟨r, h1, h2, h3⟩ := h ▸ Stateful.Look_follows (U := U) hp s st
  obtain ⟨r', h1', h2', h3'⟩ := h' ▸ Stateful.Look_follows (U := W) hp s tt
  rw [h1] at h1'
  cases h1'
  refine ⟨?_, h3.symm.trans h3'⟩
  have := congrArg Option.isSome (h2.symm.trans h2')
  simpa using this

/-! ### Examples -/

namespace Ex

/-- Function 0 returns how many calls there were before it, function 1 accepts if there were less
than two, function 3 throws from the third call on. -/
def counting : Stateful.Callbacks Nat where
  fnCall k vs n := match k with
    | 0 => (.ok (.user 0 n vs), n + 1)
    | 3 => (if n < 2 then .ok (.user 0 n vs) else .error 7, n + 1)
    | 1 | 2 => (.ok (.user 1 (if n < 2 then 1 else 0) []), n + 1)
    | _ => (.ok (.span ⟨.at 1 0, 3⟩), n + 1)
  ctor t vs n := ((ctx "").ctor t vs, n + 1)

theorem sparses {α β : Type} {C : Ctx α β} {U : Stateful.Callbacks Nat} {p : Parser α} {s : Span} {st : Nat} {l r} (n : Nat)
    (h : (Stateful.sem C U n p).parse s st = .done l r) : Stateful.Parse C U p s st = .done l r :=
  Stateful.Parse_eq_done.2 ⟨n, h⟩

/-- the `i`-th character -/
def char (i : Nat) : Val := .span ⟨.at 0 i, 1⟩

/-- equal calls with different answers: a repetition ended by its predicate, not by the input -/
example : Stateful.Parses (ctx "aaaa") counting (.zeroOrMore (.filter (all "a") (.user 1))) (input "aaaa") 0
    [⟨.user 1, [char 0]⟩, ⟨.user 1, [char 1]⟩, ⟨.user 1, [char 2]⟩] (.vec [char 0, char 1]) ⟨.at 0 2, 2⟩ 3 :=
  sparses 5 rfl
/-- the same parser on the same input, from another state -/
example : Stateful.Parses (ctx "aaaa") counting (.zeroOrMore (.filter (all "a") (.user 1))) (input "aaaa") 2
    [⟨.user 1, [char 0]⟩] (.vec []) (input "aaaa") 3 := sparses 5 rfl
/-- what an alternative did before it failed is seen by the next one -/
example : Stateful.Parses (ctx "ab") counting
    (.choice [.sequence [.map (all "a") (.user 0), all "c"], .sequence [.map (all "a") (.user 0), all "b"]])
    (input "ab") 0 [⟨.user 0, [char 0]⟩, ⟨.user 0, [char 0]⟩] (.tup [.user 0 1 [char 0], char 1]) ⟨.at 0 2, 0⟩ 2 :=
  sparses 6 rfl
/-- an exception in the third call -/
example : Stateful.ParseErr (ctx "aaaa") counting (.oneOrMore (.map (all "a") (.user 3))) (input "aaaa") 0
    [⟨.user 3, [char 0]⟩, ⟨.user 3, [char 1]⟩, ⟨.user 3, [char 2]⟩] (.exn 7) := sparses 5 rfl
/-- a repetition of nothing that its predicate ends, in the third round -/
example : Stateful.Parses (ctx "a") counting (.zeroOrMore (.filter .epsilon (.user 1))) (input "a") 0
    [⟨.user 1, []⟩, ⟨.user 1, []⟩, ⟨.user 1, []⟩] .unit (input "a") 3 := sparses 5 rfl
/-- the second element is rejected in the state the delimiter left; the delimiter is given back -/
example : Stateful.Parses (ctx "a,a,a") counting (.delimit (.filter (all "a") (.user 1)) (.map (all ",") (.user 0)))
    (input "a,a,a") 0 [⟨.user 1, [char 0]⟩, ⟨.user 0, [char 1]⟩, ⟨.user 1, [char 2]⟩]
    (.pair (.vec [char 0]) (.vec [])) ⟨.at 0 1, 4⟩ 3 := sparses 6 rfl
/-- `complete` turns a success down after its function has run -/
example : Stateful.ParseFails (ctx "ab") counting (.complete (.map (all "a") (.user 0))) (input "ab") 0
    [⟨.user 0, [char 0]⟩] (input "ab") 1 := sparses 4 rfl
/-- below `ignore` nothing is called -/
example : Stateful.Parses (ctx "ab") counting (.ignore (.map (all "a") (.user 0))) (input "ab") 0 [] .unit ⟨.at 0 1, 1⟩ 0 :=
  sparses 4 rfl
/-- a joined text whose end is found by a predicate with state -/
example : Stateful.Parses (ctx "aaaa") counting (.join (.oneOrMore (.filter (all "a") (.user 1)))) (input "aaaa") 0
    [⟨.user 1, [char 0]⟩, ⟨.user 1, [char 1]⟩, ⟨.user 1, [char 2]⟩] (.span ⟨.at 0 0, 2⟩) ⟨.at 0 2, 2⟩ 3 := sparses 6 rfl
/-- `apply` and `constant` -/
example : Stateful.Called (ctx "ab") counting (.apply (.user 0)) [.tup [char 0, char 1]] 5 ⟨.user 0, [char 0, char 1]⟩
      (.ok (.user 0 5 [char 0, char 1])) 6 ∧
    Stateful.Called (ctx "ab") counting (.const 0) [char 0] 5 ⟨.const 0, [char 0]⟩ (.ok ((ctx "ab").constVal 0)) 5 :=
  ⟨.apply .tup (.user rfl), .const⟩
/-- the hypotheses of `C75_choice`, `C75_every_choice`, `C75_sequence` and `C75_exactly` -/
example (text : String) : Compiles (ctx text) (.choice [.map (all "a") (.user 0), all "b", .ignore (all "c")]) ∧
    Indexable ([.map (all "a") (.user 0), all "b", .ignore (all "c")].map (resultFor (ctx text))) ∧
    Recorded ([.map (all "a") (.user 0), all "b", .ignore (all "c")].map (resultFor (ctx text))) [some 0, some 1, Option.none] ∧
    Compiles (ctx text) (.sequence [.map (all "a") (.user 0), .ignore (all ","), .filter (all "b") (.user 1)]) ∧
    Compiles (ctx text) (.exactly (.filter (all "a") (.user 1)) 3) :=
  ⟨⟨ctx_ok _, rfl, rfl, rfl⟩, C12_indexable_of _ (.inl (show [Ty.user 0, .span, .void].Nodup by decide)), by rw [C60_recorded]; rfl, ⟨ctx_ok _, rfl, rfl, rfl⟩, ⟨ctx_ok _, rfl, rfl, rfl⟩⟩
theorem counting_typed (text : String) (n : Nat) : (Stateful.freeze (ctx text) counting n).Typed := by
  have h := ctx_typed text
  refine ⟨?_, h.const, h.ctor, h.dflt, h.conv, h.convOpt⟩
  intro k ts t args v h1 h2 h3
  match k with
  | 0 => cases h1; cases h3; exact ⟨_, _, rfl⟩
  | 1 => cases h1; cases h3; exact ⟨_, _, rfl⟩
  | 2 => cases h1; cases h3; exact ⟨_, _, rfl⟩
  | 3 =>
    cases h1
    simp only [Stateful.freeze, counting] at h3
    split at h3 <;> cases h3
    exact ⟨_, _, rfl⟩
  | k + 4 => exact h.fn (k + 4) ts t args v h1 h2 h3

/-- the hypotheses of `C75_safe` -/
example : Compiles (ctx "ab") (.choice [.sequence [.map (all "a") (.user 0), all "c"],
      .sequence [.map (all "a") (.user 0), all "b"]]) ∧
    ∀ n, (Stateful.freeze (ctx "ab") counting n).Typed := ⟨⟨ctx_ok _, rfl, rfl, rfl⟩, counting_typed _⟩
/-- the hypotheses of `C75_custom`, with and without conversion -/
example (text : String) : Compiles (ctx text) (.custom 0) ∧ ((ctx text).custom 0).ty ≠ resultFor (ctx text) ((ctx text).custom 0).body ∧
    ¬ Pretends (ctx text) 0 ∧ Compiles (ctx text) (.custom 1) ∧
    ((ctx text).custom 1).ty = resultFor (ctx text) ((ctx text).custom 1).body :=
  ⟨⟨ctx_ok _, rfl, rfl, rfl⟩, (by show Ty.user 2 ≠ .tup [.span, .opt (.user 2), .span]; nofun), (ctx_plain 0).2,
    ⟨ctx_ok _, rfl, rfl, rfl⟩, rfl⟩
/-- the hypotheses of `C75_join` -/
example (text : String) : Compiles (ctx text) (.join (.oneOrMore (.filter (all "a") (.user 1)))) ∧
    (∀ n, (Stateful.freeze (ctx text) counting n).Typed) ∧
    (∀ n, SpanLocal (Stateful.freeze (ctx text) counting n) (.oneOrMore (.filter (all "a") (.user 1)))) ∧
    (input text).Valid (ctx text).mem := by
  have h := ctx_local text
  refine ⟨⟨ctx_ok _, rfl, rfl, rfl⟩, counting_typed _, fun n => ⟨⟨h.conv, h.convOpt, h.dflt, h.toSpan⟩, ?_⟩, input_valid _⟩
  intro q f hr
  cases hr with
  | step h1 hr =>
    cases h1
    cases hr with
    | step h2 hr =>
      cases h2
      cases hr with
      | step h3 hr => cases h3

/-- a recursive grammar with callbacks in a repetition passes the check of `C75_checked` -/
example (text : String) (st : Nat) : ¬ Stateful.ParseLoops (ctx text) counting
    (.zeroOrMore (.delimit (.choice [.custom 0, .filter (all "a") (.user 1), .map (.oneOrMore (any "bc")) (.user 0)])
      (.maybe (all ",")))) (input text) st :=
  C75_checked _ _ _ [0, 1] (fun _ => false) id rfl _ (input_valid text) st
/-- the hypothesis of `C75_verdict`: a mapped repetition without `filter` and `join` -/
example (text : String) : Plain (ctx text) (.oneOrMore (.choice [.map (all "a") (.user 0), all "b"])) :=
  plain_of ctx_plain rfl
/-- the callbacks of `counting`, which also write down what they were called with: `C75_same_answers` relates the two by
leaving out the notes -/
def noting : Stateful.Callbacks (Nat × List (List Val)) where
  fnCall k args st := ((counting.fnCall k args st.1).1, (counting.fnCall k args st.1).2, args :: st.2)
  ctor t args st := ((counting.ctor t args st.1).1, (counting.ctor t args st.1).2, st.2)
theorem noting_counts (f : Fn) : Stateful.Corresponds (fun st st' => st = st'.1) counting noting f := by
  induction f with
  | user k => rintro args _ st' rfl; exact ⟨rfl, rfl⟩
  | apply f ih => exact ih
  | const => trivial
  | construct t => rintro args _ st' rfl; exact ⟨rfl, rfl⟩
  | deflt => trivial
example : ∃ st, Stateful.Parses (ctx "aaaa") noting (.join (.oneOrMore (.filter (all "a") (.user 1)))) (input "aaaa") (0, [])
    [⟨.user 1, [char 0]⟩, ⟨.user 1, [char 1]⟩, ⟨.user 1, [char 2]⟩] (.span ⟨.at 0 0, 2⟩) ⟨.at 0 2, 2⟩ st ∧ 3 = st.1 :=
  (C75_same_answers _ counting noting (fun st st' => st = st'.1) _ (fun _ f _ => noting_counts f) _ 0 (0, []) rfl _).1 _ _ _
    (sparses 6 rfl)
/-- the hypothesis of `C75_no_callbacks`: a callback below `ignore` does no harm -/
example (text : String) (q : Parser Nat) (f : Fn) :
    ¬ ParseReach (ctx text) (.zeroOrMore (.choice [all "a", .ignore (.map (all "b") (.user 0))])) (.map q f) ∧
    ¬ ParseReach (ctx text) (.zeroOrMore (.choice [all "a", .ignore (.map (all "b") (.user 0))])) (.filter q f) := by
  have key : ∀ r, ParseReach (ctx text) (.zeroOrMore (.choice [all "a", .ignore (.map (all "b") (.user 0))])) r →
      r ≠ .map q f ∧ r ≠ .filter q f := by
    intro r hr
    cases hr with
    | refl => exact ⟨nofun, nofun⟩
    | step h1 hr =>
      cases h1
      cases hr with
      | refl => exact ⟨nofun, nofun⟩
      | step h2 hr =>
        cases h2 with
        | choice hm =>
          simp only [List.mem_cons, List.not_mem_nil, or_false] at hm
          rcases hm with rfl | rfl
          · cases hr with
            | refl => exact ⟨nofun, nofun⟩
            | step h3 _ => cases h3
          · cases hr with
            | refl => exact ⟨nofun, nofun⟩
            | step h3 _ => cases h3
  exact ⟨fun h => (key _ h).1 rfl, fun h => (key _ h).2 rfl⟩
/-- the hypothesis of `C75_used`: only callback 0 is used, so callback 1 may be anything -/
example (text : String) (g : List Val → Nat → Except Nat Val × Nat) (q : Parser Nat) (f : Fn)
    (hr : ParseReach (ctx text) (.oneOrMore (.map (all "a") (.user 0))) (.map q f) ∨
      ParseReach (ctx text) (.oneOrMore (.map (all "a") (.user 0))) (.filter q f)) :
    (∀ k, f.Calls k → counting.fnCall k =
      ({ counting with fnCall := fun k => if k = 1 then g else counting.fnCall k } : Stateful.Callbacks Nat).fnCall k) ∧
    ∀ t, f.Constructs t → counting.ctor t = counting.ctor t := by
  have : f = .user 0 := by
    rcases hr with hr | hr
    · cases hr with
      | step h1 hr =>
        cases h1
        cases hr with
        | refl => rfl
        | step h2 hr => cases h2; cases hr with | step h3 _ => cases h3
    · cases hr with
      | step h1 hr =>
        cases h1
        cases hr with
        | step h2 hr => cases h2; cases hr with | step h3 _ => cases h3
  subst this
  exact ⟨fun k hk => by cases hk; rfl, fun _ _ => rfl⟩
/-- with `filter` the state has a say: the same parser and input, accepted from one state and
rejected from another -/
example : Stateful.Parses (ctx "a") counting (.filter (all "a") (.user 1)) (input "a") 0 [⟨.user 1, [char 0]⟩]
      (char 0) ⟨.at 0 1, 0⟩ 1 ∧
    Stateful.ParseFails (ctx "a") counting (.filter (all "a") (.user 1)) (input "a") 2 [⟨.user 1, [char 0]⟩]
      (input "a") 3 := ⟨sparses 3 rfl, sparses 3 rfl⟩

end Ex

end Tok3n
