import Verif.Proof.Peg
import Verif.Props.Lookahead
/-
C45: as a recogniser a parser is a parsing expression grammar.
-/

namespace Tok3n

variable {α β : Type}

/-- On a readable input `s`, `lookahead` succeeds with `k` elements consumed exactly if the grammar
derives a match of the first `k` elements of `s`, fails (with `s` remaining) exactly if the grammar
derives a failure, runs forever exactly if the grammar derives neither, and does nothing else. -/
theorem C45_lookahead (C : Ctx α β) (p : Parser α) (s : Span) (hs : s.Valid C.mem) :
    (∀ log s', Looks C p s log s' ↔
      log = [] ∧ ∃ k, Peg C.eqv (fun k => (C.custom k).body) p (s.elems C.mem) (some k) ∧ s.Advanced k s') ∧
    (∀ log s', LookFails C p s log s' ↔
      log = [] ∧ s' = s ∧ Peg C.eqv (fun k => (C.custom k).body) p (s.elems C.mem) none) ∧
    (LookLoops C p s ↔ ∀ o, ¬ Peg C.eqv (fun k => (C.custom k).body) p (s.elems C.mem) o) ∧
    (∀ log e, ¬ LookErr C p s log e) := by
  have hsat := Look_peg p s hs
  have hq := Look_quiet (C := C) p s
  have hof : ∀ o, PegC C p (s.elems C.mem) o → Look C p s = M.pure (pegResult s o) :=
    fun o h => h.look s hs rfl
  refine ⟨fun log s' => ⟨fun h => ?_, ?_⟩, fun log s' => ⟨fun h => ?_, ?_⟩, ⟨fun h o ho => ?_, fun h => ?_⟩,
    fun log e h => ?_⟩
  · unfold Looks at h
    rw [h] at hsat hq
    have hsat : PegOut C p s ⟨some .unit, s'⟩ := hsat
    refine ⟨hq.1, ?_⟩
    generalize hr : (⟨some .unit, s'⟩ : R) = r at hsat
    cases hsat with
    | hit hk hp => cases hr; exact ⟨_, hp, hs.advanced hk⟩
    | miss => cases hr
  · rintro ⟨rfl, k, hp, ha⟩
    unfold Looks
    rw [hof _ hp, ha.eq_drop]; rfl
  · unfold LookFails at h
    rw [h] at hsat hq
    have hsat : PegOut C p s ⟨none, s'⟩ := hsat
    refine ⟨hq.1, ?_⟩
    generalize hr : (⟨none, s'⟩ : R) = r at hsat
    cases hsat with
    | hit hk hp => cases hr
    | miss hp => cases hr; exact ⟨rfl, hp⟩
  · rintro ⟨rfl, rfl, hp⟩
    exact hof _ hp
  · unfold LookLoops at h
    rw [hof o ho] at h; cases h
  · unfold LookLoops
    cases hm : Look C p s with
    | diverge => rfl
    | done l r =>
      rw [hm] at hsat hq
      cases r with
      | ok r =>
        have hsat : PegOut C p s r := hsat
        cases hsat with
        | hit _ hp => exact (h _ hp).elim
        | miss hp => exact (h _ hp).elim
      | err e => exact (hq.2.2 hs).elim
  · unfold LookErr at h
    rw [h] at hq
    exact hq.2.2 hs

/-- The grammar has at most one outcome on every list of elements. -/
theorem C45_deterministic (eqv : α → β → Bool) (body : Nat → Parser α) (p : Parser α) (xs : List β)
    (o o' : Option Nat) (h : Peg eqv body p xs o) (h' : Peg eqv body p xs o') : o = o' := by
  -- any context with this equality and these bodies, and `xs` in memory
  let C : Ctx α β :=
    { eqv := eqv, mem := fun _ => xs, toolchain := .gnuRuntime, relaxedTtp := true, ptrEq := fun _ _ => false,
      fnRet := fun _ _ => none, fnCall := fun _ _ => .error 0, constTy := fun k => .user k,
      constVal := fun k => .user k 0 [], ctorOk := fun _ _ => false, ctor := fun _ _ => .error 0,
      userDefault := fun k => some (.user k 0 []), conv := fun _ _ => none, convOpt := fun _ _ => none, userSpan := fun _ => none,
      boolTy := fun _ => false, truthy := fun _ => false, custom := fun k => ⟨body k, false, .void⟩ }
  have hs : (⟨.at 0 0, xs.length⟩ : Span).Valid C.mem := by show 0 + _ ≤ _; simp [C]
  have hx : (⟨.at 0 0, xs.length⟩ : Span).elems C.mem = xs := by simp [Span.elems, C]
  have h1 := Peg.look (C := C) h _ hs hx
  have h2 := Peg.look (C := C) h' _ hs hx
  rw [h1] at h2
  have hl := h.le
  have hl' := h'.le
  cases o <;> cases o' <;>
    simp_all [M.pure, pegResult, R.failure, R.successVoid, Span.drop, Ptr.shift]

/-- For a parser without `filter` and `join` (other than below `ignore`) whose callbacks do not throw,
`parse` recognises the same grammar. -/
theorem C45_parse_plain (C : Ctx α β) (p : Parser α) (hp : Plain C p) (s : Span) (hs : s.Valid C.mem)
    (herr : ∀ log e, ¬ ParseErr C p s log e) (s' : Span) :
    ((∃ log v, Parses C p s log v s') ↔
      ∃ k, Peg C.eqv (fun k => (C.custom k).body) p (s.elems C.mem) (some k) ∧ s.Advanced k s') ∧
    ((∃ log, ParseFails C p s log s') ↔
      s' = s ∧ Peg C.eqv (fun k => (C.custom k).body) p (s.elems C.mem) none) := by
  obtain ⟨h1, h2⟩ := (C05_lookahead_partial C p hp s).2.2.2 herr s'
  obtain ⟨h3, h4, -⟩ := C45_lookahead C p s hs
  rw [h1, h2]
  simp only [h3, h4]
  simp

/-- The same for every parser in which no `filter` and no `join` ever rejects what the parser in it matched, and no
custom parser succeeds where its body fails. -/
theorem C45_parse (C : Ctx α β) (p : Parser α) (hp : NeverOverrules C p) (s : Span) (hs : s.Valid C.mem)
    (herr : ∀ log e, ¬ ParseErr C p s log e) (s' : Span) :
    ((∃ log v, Parses C p s log v s') ↔
      ∃ k, Peg C.eqv (fun k => (C.custom k).body) p (s.elems C.mem) (some k) ∧ s.Advanced k s') ∧
    ((∃ log, ParseFails C p s log s') ↔
      s' = s ∧ Peg C.eqv (fun k => (C.custom k).body) p (s.elems C.mem) none) := by
  obtain ⟨h1, h2⟩ := C05_same_verdict_partial C p hp s hs herr s'
  obtain ⟨h3, h4, -⟩ := C45_lookahead C p s hs
  rw [h1, h2]
  simp only [h3, h4]
  simp

/-- `"(" >> ~P >> ")"` for the custom parser `P` of the example context matches "(())" of "(())x", and
fails on "(()x". -/
example : Peg (fun a b : Nat => a == b) (fun k => ((Ex.ctx "").custom k).body) (.custom 0) (Ex.str "(())x")
    (some 4) := by
  have h := ((C45_lookahead (Ex.ctx "(())x") (.custom 0) (Ex.input "(())x") (Ex.input_valid _)).1 []
    ⟨.at 0 4, 1⟩).1 (Ex.looks _ 10 rfl)
  obtain ⟨-, k, h, hk⟩ := h
  have : k = 4 := by have := hk.size; simpa [Ex.input] using this
  subst this
  exact h

example : Peg (fun a b : Nat => a == b) (fun k => ((Ex.ctx "").custom k).body) (.custom 0) (Ex.str "(()x") none := by
  have h := ((C45_lookahead (Ex.ctx "(()x") (.custom 0) (Ex.input "(()x") (Ex.input_valid _)).2.1 []
    (Ex.input "(()x")).1 (Ex.looks _ 10 rfl)
  exact h.2.2

/-- The endless `*(~"a")` has no outcome. -/
example (o : Option Nat) :
    ¬ Peg (fun a b : Nat => a == b) (fun k => ((Ex.ctx "").custom k).body) (.zeroOrMore (.maybe (Ex.all "a"))) [] o := by
  intro h
  have key : ∀ {p xs o}, Peg (fun a b : Nat => a == b) (fun k => ((Ex.ctx "").custom k).body) p xs o →
      p ≠ .zeroOrMore (.maybe (Ex.all "a")) := by
    intro p xs o h
    induction h with
    | zeroStop h ih =>
      rintro ⟨⟩
      cases h with
      | miss hb => exact hb
    | hit hb | miss hb => rintro rfl; exact hb
    | zeroMore h1 h2 ih1 ih2 => intro hp; exact ih2 hp
    | _ => nofun
  exact key h rfl

end Tok3n
