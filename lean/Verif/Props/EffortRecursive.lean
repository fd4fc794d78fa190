import Verif.Proof.EffortReturns
import Verif.Props.Effort
import Verif.Props.Terminate
import Verif.Props.Stack
/-
C65: how many calls a parse with a grammar that recurses makes.
-/

namespace Tok3n

variable {α β : Type}

/-- Whatever the grammar, left recursive or not: a parse or lookahead that ends has made at most exponentially many
calls in the length of the input.  The base `c` depends on the grammar only, that is on the expression and the bodies
of the custom parsers: it is the same for all memories, callbacks and types. -/
theorem C65_recursive (C : Ctx α β) (p : Parser α) (hfin : ∃ ks : List Nat, ∀ k, Uses C p (.custom k) → k ∈ ks) :
    ∃ c, ∀ C' : Ctx α β, C'.custom = C.custom →
      ∀ (s : Span) (n : Nat), s.Valid C'.mem → ParseCalls C' p s n ∨ LookCalls C' p s n → n ≤ c ^ (s.len + 1) := by
  obtain ⟨ks, hks⟩ := hfin
  refine ⟨growth C ks p, fun C' hC s n hs hn => ?_⟩
  obtain ⟨h1, h2⟩ := counted_exponential (fun k hk => hks k (hk.of_custom hC)) s hs
  rw [growth_custom hC] at h1 h2
  rcases hn with ⟨log, r, hl, rfl⟩ | ⟨log, r, hl, rfl⟩
  · exact h1.on _ _ hl
  · exact h2.on _ _ hl

/-- In a productive grammar every parse and every lookahead ends after at most that many calls. -/
theorem C65_productive (C : Ctx α β) (p : Parser α) (hp : Productive C p) :
    ∃ c, ∀ s : Span, s.Valid C.mem →
      (∃ n ≤ c ^ (s.len + 1), ParseCalls C p s n) ∧ (∃ n ≤ c ^ (s.len + 1), LookCalls C p s n) := by
  obtain ⟨c, hc⟩ := C65_recursive C p hp.finite
  refine ⟨c, fun s hs => ?_⟩
  obtain ⟨h1, h2⟩ := C39_returns C p hp s hs
  have hb := fun n => hc C rfl s n hs
  constructor
  · cases h : Parse C p s with
    | diverge => exact absurd h h1
    | done log r =>
      obtain ⟨log', h', -⟩ := (C65_counts C p s log r).1.1 h
      have hn : ParseCalls C p s log'.length := ⟨log', r, h', rfl⟩
      exact ⟨_, hb _ (.inl hn), hn⟩
  · cases h : Look C p s with
    | diverge => exact absurd h h2
    | done log r =>
      obtain ⟨log', h', -⟩ := (C65_counts C p s log r).2.1 h
      have hn : LookCalls C p s log'.length := ⟨log', r, h', rfl⟩
      exact ⟨_, hb _ (.inr hn), hn⟩

/-! The hypotheses are met -/

/-- The custom parser `"(" >> ~custom >> ")"`. -/
example (text : String) : ∃ c, ∀ s : Span, s.Valid (Ex.ctx text).mem →
    (∃ n ≤ c ^ (s.len + 1), ParseCalls (Ex.ctx text) (.custom 0) s n) ∧
      (∃ n ≤ c ^ (s.len + 1), LookCalls (Ex.ctx text) (.custom 0) s n) :=
  C65_productive _ _ (productive_sound (ks := [0]) (null := fun _ => false) (rank := fun _ => 0) rfl)

/-- `("a" >> custom >> "b") | ("a" >> custom)`, which does take at least `2 ^ n` calls on `n` times `a`
(`C65_exponential`), takes at most `c ^ (n + 1)`. -/
example (text : String) : let C := { Ex.ctx text with
      custom := fun _ => ⟨.choice [.sequence [Ex.all "a", .custom 0, Ex.all "b"], .sequence [Ex.all "a", .custom 0]],
        true, .user 2⟩ }
    ∃ c, ∀ s : Span, s.Valid C.mem → (∃ n ≤ c ^ (s.len + 1), ParseCalls C (.custom 0) s n) ∧
      (∃ n ≤ c ^ (s.len + 1), LookCalls C (.custom 0) s n) :=
  C65_productive _ _ (productive_sound (ks := [0]) (null := fun _ => false) (rank := fun _ => 0) rfl)

/-- A left recursive grammar: where it ends, it has made at most `c ^ (n + 1)` calls. -/
example : ∃ c, ∀ (text : String) (s : Span) (n : Nat), s.Valid (Ex.leftRec text).mem →
    ParseCalls (Ex.leftRec text) (.custom 0) s n ∨ LookCalls (Ex.leftRec text) (.custom 0) s n → n ≤ c ^ (s.len + 1) := by
  obtain ⟨c, h⟩ := C65_recursive (Ex.leftRec "") (.custom 0) (Ex.leftRec_finite "")
  exact ⟨c, fun text => h (Ex.leftRec text) rfl⟩
example : ∃ n, ParseCalls (Ex.leftRec "ab") (.custom 0) (Ex.input "ab") n :=
  ⟨_, _, _, CountedParse_eq_done.2 ⟨6, rfl⟩, rfl⟩

end Tok3n
