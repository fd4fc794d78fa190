import Verif.Proof.PegCalls
import Verif.Props.Effort
import Verif.Props.Trim
/-
C65: exactly how many calls a lookahead makes, and how many a parse.
-/

namespace Tok3n

variable {α β : Type}

/-- The rules of `PegCalls` count: `lookahead` ends after one call more than the number they give for the elements of
the input, and does not end if they give none. -/
theorem C65_lookahead_exact (C : Ctx α β) (p : Parser α) (s : Span) (hs : s.Valid C.mem) (N : Nat) :
    LookCalls C p s N ↔ ∃ n o, PegCalls C p (s.elems C.mem) n o ∧ N = n + 1 := by
  have ends : ∀ {n o}, PegCalls C p (s.elems C.mem) n o → ∃ log r, CountedLook C p s = .done log (.ok r) ∧
      log.length = n + 1 := by
    intro n o h
    have h1 := CountedLook_erases (C := C) p s
    rw [h.peg.look s hs rfl] at h1
    obtain ⟨log, h2, h3⟩ := erase_eq_done.1 h1
    refine ⟨log, _, h2, ?_⟩
    rw [← ((h.counts.2.look s hs rfl).on _ _ h2).2.1 ⟨_, rfl⟩, marks]
    rw [unmarked, List.filter_eq_nil_iff] at h3
    rw [List.filter_eq_self.2 fun c hc => by simpa using h3 c hc]
  constructor
  · rintro ⟨log, r, h, rfl⟩
    have h1 := CountedLook_erases (C := C) p s
    rw [h] at h1
    have h2 := C45_lookahead C p s hs
    obtain ⟨o, ho⟩ : ∃ o, PegC C p (s.elems C.mem) o := by
      by_contra hc
      have := h2.2.2.1.2 fun o ho => hc ⟨o, ho⟩
      rw [LookLoops, ← h1] at this
      cases this
    obtain ⟨n, hn⟩ := ho.calls
    obtain ⟨log', r', h3, h4⟩ := ends hn
    rw [h] at h3
    cases h3
    exact ⟨n, o, hn, h4⟩
  · rintro ⟨n, o, h, rfl⟩
    obtain ⟨log, r, h1, h2⟩ := ends h
    exact ⟨log, _, h1, h2⟩

/-- A parser whose `parse` never overrules its `lookahead`: a parse that no callback and no constructor interrupts calls
`parse` and `lookahead` exactly as often as the lookahead does; one that is interrupted, at most as often. -/
theorem C65_parse_exact (C : Ctx α β) (p : Parser α) (hp : NeverOverrules C p) (s : Span) (hs : s.Valid C.mem)
    (n : Nat) (h : LookCalls C p s n) (log : List Call) (r : Res R) (hr : CountedParse C p s = .done log r) :
    marks log ≤ n ∧ ((∃ x, r = .ok x) → marks log = n) := by
  obtain ⟨m, o, h1, rfl⟩ := (C65_lookahead_exact C p s hs n).1 h
  have := (h1.counts.2.parse hp s hs rfl).on _ _ hr
  exact ⟨this.1, this.2.1⟩

/-- So with the calls of callbacks, of which each call of `parse` makes at most one, there are at most twice as many. -/
theorem C65_parse_within (C : Ctx α β) (p : Parser α) (hp : NeverOverrules C p) (s : Span) (hs : s.Valid C.mem)
    (n : Nat) (h : LookCalls C p s n) (N : Nat) (hN : ParseCalls C p s N) : N ≤ 2 * n := by
  obtain ⟨m, o, h1, rfl⟩ := (C65_lookahead_exact C p s hs n).1 h
  obtain ⟨log, r, hr, rfl⟩ := hN
  have := (h1.counts.2.parse hp s hs rfl).on _ _ hr
  omega

/-! The hypotheses are met -/

theorem Ex.hit_a (text : String) (xs : List Nat) : PegCalls (Ex.ctx text) (Ex.all "a") (97 :: xs) 0 (some 1) :=
  .hit trivial ⟨rfl, [97], xs, rfl, .cons rfl .nil⟩
theorem Ex.miss_a (text : String) : PegCalls (Ex.ctx text) (Ex.all "a") [98] 0 Option.none :=
  .miss trivial (by
    rintro k ⟨-, front, rest, e, hf⟩
    cases hf with
    | cons h1 h2 =>
      rw [List.cons_append, List.cons.injEq] at e
      rw [← e.1] at h1
      cases h1)
theorem Ex.aab : PegCalls (Ex.ctx "aab") (.oneOrMore (Ex.all "a")) [97, 97, 98] 3 (some 2) :=
  .oneMore (k := 1) (j := 1) (Ex.hit_a _ _) (.zeroMore (k := 1) (j := 0) (Ex.hit_a _ _) (.zeroStop (Ex.miss_a _)))

/-- `+"a"` on `aab`: itself, and `"a"` three times, in `lookahead` and in `parse`. -/
example : LookCalls (Ex.ctx "aab") (.oneOrMore (Ex.all "a")) (Ex.input "aab") 4 :=
  (C65_lookahead_exact _ _ _ (Ex.input_valid _) 4).2 ⟨3, some 2, Ex.aab, rfl⟩

/-- The same in a callback, `into<T>`: 5 calls of `lookahead`; `parse` calls the callback once more. -/
example : ∀ N, ParseCalls (Ex.ctx "aab") (.map (.oneOrMore (Ex.all "a")) (.user 0)) (Ex.input "aab") N → N ≤ 10 := by
  refine C65_parse_within _ _ ?_ _ (Ex.input_valid _) 5 ((C65_lookahead_exact _ _ _ (Ex.input_valid _) 5).2 ⟨4, some 2, .map Ex.aab, rfl⟩)
  refine (C30_lookahead_checked _ _ (Ex.ctx_ok _) (Ex.ctx_typed _) (Ex.ctx_local _) (fun k => ?_) rfl).1
  rcases k with _ | _ | k <;> rfl

end Tok3n
