import Verif.Proof.Agree
import Verif.Proof.Equations
import Verif.Proof.Join
import Verif.Proof.Basic
import Verif.Spec.Lookahead
import Verif.Spec.Example
/-
C05: what `lookahead()` says about `parse()`.
-/

namespace Tok3n

variable {α β : Type}

/-- Without `filter` and `join` (other than below `ignore`): whatever `parse` returns,
`lookahead` returns without running any callback: success for success, failure for
failure, the same remaining input.  If `parse` runs forever, so does `lookahead`.
Conversely what `lookahead` reports is what `parse` returns, unless a callback throws.

Missing from the full C05: `filter` and `join`, for which it is false (below). -/
theorem C05_lookahead_partial (C : Ctx α β) (p : Parser α) (hp : Plain C p) (s : Span) :
    (∀ log v s', Parses C p s log v s' → Looks C p s [] s') ∧
    (∀ log s', ParseFails C p s log s' → LookFails C p s [] s') ∧
    (ParseLoops C p s → LookLoops C p s) ∧
    ((∀ log e, ¬ ParseErr C p s log e) → ∀ s',
      ((∃ log v, Parses C p s log v s') ↔ ∃ log, Looks C p s log s') ∧
      ((∃ log, ParseFails C p s log s') ↔ ∃ log, LookFails C p s log s')) := by
  have h := Look_follows hp s
  simp only [Parses, ParseFails, ParseLoops, ParseErr, Looks, LookFails, LookLoops]
  cases hm : Parse C p s with
  | diverge => rw [hm] at h; simp [show Look C p s = .diverge from h]
  | done l r =>
    rw [hm] at h
    cases r with
    | err e => simp
    | ok r =>
      obtain ⟨⟨rv', rr'⟩, hl, hv, hr⟩ := h
      obtain ⟨rv, rr⟩ := r
      simp only at hv hr
      subst hr hv
      cases rv <;> simp [hl]

-- a parser with a choice, a repetition, a map and a custom parser meets the hypothesis
example : Plain (Ex.ctx "((x") (.map (.oneOrMore (.choice [.ignore (.filter (Ex.all "(") (.user 2)), Ex.any "x"]))
    (.user 0)) := plain_of Ex.ctx_plain rfl

theorem ParseReach.trans {C : Ctx α β} {p q r : Parser α} (h : ParseReach C p q) (h' : ParseReach C q r) :
    ParseReach C p r := by
  induction h with
  | refl => exact h'
  | step hc _ ih => exact .step hc (ih h')

/-- `filter` and `join` spoil this only by rejecting something: `lookahead` tells what `parse` does, for `p` and
every parser `p.parse` may call, exactly if no `filter` and no `join` in `p` ever fails where the parser in it
succeeds.

Missing from the full C05: it is false for the other parsers, as this shows. -/
theorem C05_never_rejects_partial (C : Ctx α β) (p : Parser α) :
    (∀ q, ParseReach C p q → LookaheadTells C q) ↔ NeverOverrules C p := by
  constructor
  · refine fun h => ⟨?_, fun k hk s hs log s' h1 log' v s'' h2 => ?_⟩
    · rintro q hq r hr s hs log v s' h1 log' s'' h2
      have hch : ParseReach C p r := by
        have : ParseChild C q r := by
          rcases hr with rfl | ⟨f, rfl⟩
          · exact .join
          · exact .filter
        exact hq.trans (.step this .refl)
      have hl : Look C q s = Look C r s := by
        rcases hr with rfl | ⟨f, rfl⟩
        · exact Look_join_eq r s
        · exact Look_filter s r f
      have e1 := (h r hch).success s hs log v s' h1
      have e2 := (h q hq).failure s hs log' s'' h2
      unfold Looks at e1
      unfold LookFails at e2
      rw [hl, e1] at e2
      simp at e2
    · have e1 := (h _ (hk.trans (.step .custom .refl))).failure s hs log s' h1
      have e2 := (h _ hk).success s hs log' v s'' h2
      unfold LookFails at e1
      unfold Looks at e2
      rw [Look_custom, e1] at e2
      simp at e2
  · intro h q hq
    have hn : NeverOverrules C q :=
      ⟨fun r hr => h.rejects r (hq.trans hr), fun k hk => h.pretends k (hq.trans hk)⟩
    have key : ∀ s, s.Valid C.mem → Follows SameButValue (Parse C q s) (Look C q s) :=
      Look_follows_on (fun h h' => h'.valid h) ⟨hn.rejects, hn.pretends⟩
    refine ⟨fun s hs log v s' h1 => ?_, fun s hs log s' h1 => ?_, fun s hs h1 => ?_⟩
    · have := key s hs
      rw [show Parse C q s = _ from h1] at this
      obtain ⟨⟨rv, rr⟩, hl, hv, hr⟩ := this
      simp only [Option.map_some] at hv hr
      subst hv hr
      exact hl
    · have := key s hs
      rw [show Parse C q s = _ from h1] at this
      obtain ⟨⟨rv, rr⟩, hl, hv, hr⟩ := this
      simp only [Option.map_none] at hv hr
      subst hv hr
      exact hl
    · have := key s hs
      rw [show Parse C q s = _ from h1] at this
      exact this

/-- Then, unless a callback throws, `parse` and `lookahead` succeed and fail on the same inputs with the same
remaining input. -/
theorem C05_same_verdict_partial (C : Ctx α β) (p : Parser α) (hp : NeverOverrules C p) (s : Span)
    (hs : s.Valid C.mem) (he : ∀ log e, ¬ ParseErr C p s log e) (s' : Span) :
    ((∃ log v, Parses C p s log v s') ↔ ∃ log, Looks C p s log s') ∧
    ((∃ log, ParseFails C p s log s') ↔ ∃ log, LookFails C p s log s') := by
  obtain ⟨h1, h2, h3⟩ := (C05_never_rejects_partial C p).2 hp p .refl
  have h1 := h1 s hs; have h2 := h2 s hs; have h3 := h3 s hs
  refine ⟨⟨fun ⟨l, v, h⟩ => ⟨_, h1 l v s' h⟩, fun ⟨l, h⟩ => ?_⟩, ⟨fun ⟨l, h⟩ => ⟨_, h2 l s' h⟩, fun ⟨l, h⟩ => ?_⟩⟩
  all_goals
    cases hm : Parse C p s with
    | diverge =>
      have := h3 hm
      unfold LookLoops at this
      simp only [Looks, LookFails, this] at h
      cases h
    | done l' r =>
      cases r with
      | err e => exact absurd hm (he l' e)
      | ok r =>
        obtain ⟨rv, rr⟩ := r
        cases rv with
        | none =>
          have := h2 l' rr hm
          simp only [LookFails] at this
          simp only [Looks, LookFails, this] at h
          cases h
          try exact ⟨_, hm⟩
        | some v =>
          have := h1 l' v rr hm
          simp only [Looks] at this
          simp only [Looks, LookFails, this] at h
          cases h
          try exact ⟨_, _, hm⟩

/-- With a filter it is false: `filter<false>("a")` rejects "a" but its `lookahead`
accepts. -/
theorem C05_refuted_filter :
    ParseFails (Ex.ctx "a") (.filter (Ex.all "a") (.user 2)) (Ex.input "a") [⟨.user 2, [.span ⟨.at 0 0, 1⟩]⟩]
      (Ex.input "a") ∧
    Looks (Ex.ctx "a") (.filter (Ex.all "a") (.user 2)) (Ex.input "a") [] ⟨.at 0 1, 0⟩ :=
  ⟨Ex.parses _ 3 rfl, Ex.looks _ 3 rfl⟩

/-- … nor can one conclude from a failing `lookahead`:
`(filter<false>("a") | "ab") >> "c"` accepts "abc" although its `lookahead` does not. -/
theorem C05_refuted_lookahead_fails :
    let p := .sequence [.choice [.filter (Ex.all "a") (.user 2), Ex.all "ab"], Ex.all "c"]
    (∃ log v, Parses (Ex.ctx "abc") p (Ex.input "abc") log v ⟨.at 0 3, 0⟩) ∧
    LookFails (Ex.ctx "abc") p (Ex.input "abc") [] (Ex.input "abc") :=
  ⟨⟨_, _, Ex.parses _ 5 rfl⟩, Ex.looks _ 5 rfl⟩

/-- With `join` it is false: `join("a" >> ignore("b") >> "c")` rejects "abc", its
`lookahead` accepts. -/
theorem C05_refuted_join :
    let p := .join (.sequence [Ex.all "a", .ignore (Ex.all "b"), Ex.all "c"])
    ParseFails (Ex.ctx "abc") p (Ex.input "abc") [] (Ex.input "abc") ∧
    Looks (Ex.ctx "abc") p (Ex.input "abc") [] ⟨.at 0 3, 0⟩ :=
  ⟨Ex.parses _ 5 rfl, Ex.looks _ 5 rfl⟩

end Tok3n
