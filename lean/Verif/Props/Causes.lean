import Verif.Proof.Causes
import Verif.Props.Safety
import Verif.Props.Stack
import Verif.Props.Exact
/-
C73: why a parse does not return.
-/

namespace Tok3n

open Relation (ReflTransGen TransGen)

variable {α β : Type}

/-- A compiling `p.parse(s)` does not return exactly if, among the calls it makes, there is a repetition that gets to a
place where what it repeats succeeds without consuming anything, or a custom parser that is entered again, by the same
function and at the same place, while it runs. -/
theorem C73_parse [LinearOrder α] (C : Ctx α β) (p : Parser α) (hc : Compiles C p) (ht : C.Typed)
    (hfin : ∃ ks : List Nat, ∀ k, Uses C p (.custom k) → k ∈ ks) (s : Span) :
    ParseLoops C p s ↔ ∃ w, ReflTransGen (Tries C) ⟨true, p, s⟩ w ∧ (Spins C w ∨ Reenters C w) := by
  refine ⟨fun h => loops_cause hfin h, ?_⟩
  rintro ⟨w, hw, h⟩
  rcases cause_dead hw h with h | ⟨l, h⟩
  · exact h
  · exact absurd rfl ((Parse_typed hc ht s).err h).1

/-- The same for `p.lookahead(s)`. -/
theorem C73_lookahead (C : Ctx α β) (p : Parser α) (hfin : ∃ ks : List Nat, ∀ k, Uses C p (.custom k) → k ∈ ks)
    (s : Span) (hs : s.Valid C.mem) :
    LookLoops C p s ↔ ∃ w, ReflTransGen (Tries C) ⟨false, p, s⟩ w ∧ (Spins C w ∨ Reenters C w) := by
  refine ⟨fun h => loops_cause hfin h, ?_⟩
  rintro ⟨w, hw, h⟩
  rcases cause_dead hw h with h | ⟨l, h⟩
  · exact h
  · exact absurd h (C03_lookahead_memory_safe C p s hs l .ill)

theorem uses_no_custom {C : Ctx α β} {p q : Parser α} (h : p.customs (fun _ => false) = true) (hu : Uses C p q) (k : Nat) :
    q ≠ .custom k := by
  induction hu with
  | self => rintro rfl; simp [Parser.customs] at h
  | part hm _ ih => exact ih (customs_part h hm)
  | custom _ _ => simp [Parser.customs] at h

/-- Without custom parsers only a repetition can go on for ever. -/
theorem C73_expression [LinearOrder α] (C : Ctx α β) (p : Parser α) (hp : p.customs (fun _ => false) = true)
    (hc : Compiles C p) (ht : C.Typed) (s : Span) :
    ParseLoops C p s ↔ ∃ w, ReflTransGen (Tries C) ⟨true, p, s⟩ w ∧ Spins C w := by
  have hno := fun q (h : Uses C p q) k => uses_no_custom hp h k
  rw [C73_parse C p hc ht ⟨[], fun k hk => absurd rfl (hno _ hk k)⟩]
  refine exists_congr fun w => and_congr_right fun hw => or_iff_left ?_
  rintro ⟨⟨k, hk⟩, -⟩
  exact hno _ (tries_uses hw) k hk

/-- Without repetitions only recursion can go on for ever. -/
theorem C73_recursion [LinearOrder α] (C : Ctx α β) (p : Parser α)
    (hp : ∀ q, Uses C p q → (∀ r, q ≠ .oneOrMore r ∧ q ≠ .zeroOrMore r) ∧ ∀ r d, q ≠ .delimit r d)
    (hc : Compiles C p) (ht : C.Typed) (hfin : ∃ ks : List Nat, ∀ k, Uses C p (.custom k) → k ∈ ks) (s : Span) :
    ParseLoops C p s ↔ ∃ w, ReflTransGen (Tries C) ⟨true, p, s⟩ w ∧ Reenters C w := by
  rw [C73_parse C p hc ht hfin]
  refine exists_congr fun w => and_congr_right fun hw => or_iff_right fun h => ?_
  have := hp _ (tries_uses hw)
  cases h with
  | oneOrMore => exact (this.1 _).1 rfl
  | zeroOrMore => exact (this.1 _).2 rfl
  | delimit => exact this.2 _ _ rfl

/-- custom parsers each of which is the next one -/
def Ex.endless : Ctx Nat Nat := { Ex.ctx "" with custom := fun k => ⟨.custom (k + 1), true, .void⟩ }

/-- Having finitely many custom parsers is needed: without end, `custom 0` calls `custom 1`, that calls `custom 2`, …
(No program has infinitely many.) -/
theorem C73_needs_finite : ∃ (C : Ctx Nat Nat) (p : Parser Nat) (s : Span), s.Valid C.mem ∧ LookLoops C p s ∧
    ¬ ∃ w, ReflTransGen (Tries C) ⟨false, p, s⟩ w ∧ (Spins C w ∨ Reenters C w) := by
  refine ⟨Ex.endless, .custom 0, Ex.input "", Ex.input_valid _, ?_, ?_⟩
  · have : ∀ n k, (sem Ex.endless n (.custom k)).look (Ex.input "") = .diverge := by
      intro n
      induction n with
      | zero => exact fun _ => rfl
      | succ n ih => exact fun k => ih (k + 1)
    exact Look_eq_diverge.2 fun n => this n 0
  · have one : ∀ {v w : Visit Nat} {j : Nat}, v.what = .custom j → Tries Ex.endless v w → w.what = .custom (j + 1) := by
      rintro ⟨m, q, s⟩ w j rfl h
      cases h
      rfl
    have many : ∀ {v w : Visit Nat} {j : Nat}, v.what = .custom j → TransGen (Tries Ex.endless) v w →
        ∃ i, j < i ∧ w.what = .custom i := by
      intro v w j hv h
      induction h with
      | single h => exact ⟨_, by omega, one hv h⟩
      | tail _ h ih =>
        obtain ⟨i, hi, hw⟩ := ih
        exact ⟨i + 1, by omega, one hw h⟩
    rintro ⟨w, hw, h⟩
    obtain ⟨j, hj⟩ : ∃ j, w.what = .custom j := by
      rcases Relation.reflTransGen_iff_eq_or_transGen.1 hw with rfl | hw
      · exact ⟨0, rfl⟩
      · obtain ⟨i, -, hi⟩ := many rfl hw
        exact ⟨i, hi⟩
    rcases h with h | ⟨-, h⟩
    · cases h <;> cases hj
    · obtain ⟨i, hi, hw⟩ := many hj h
      rw [hj] at hw
      cases hw
      omega

/-! ### Examples -/

/-- `+(~"a")` on `ab`: behind the `a` nothing more is consumed, and the repetition goes on. -/
example : ParseLoops (Ex.ctx "ab") (.oneOrMore (.maybe (Ex.all "a"))) (Ex.input "ab") := by
  refine (C73_expression _ _ rfl ⟨Ex.ctx_ok _, rfl, rfl, rfl⟩ (Ex.ctx_typed _) _).2 ⟨_, .refl, ?_⟩
  exact .oneOrMore (t := ⟨.at 0 1, 1⟩) (.single ⟨_, _, Ex.parses _ 3 rfl⟩) ⟨_, _, Ex.parses _ 3 rfl⟩

/-- `complete("a" >> *"")` on `a`: the repetition is tried behind the `a`. -/
example : ParseLoops (Ex.ctx "a") (.complete (.sequence [Ex.all "a", .zeroOrMore (Ex.all "")])) (Ex.input "a") := by
  refine (C73_expression _ _ rfl ⟨Ex.ctx_ok _, rfl, rfl, rfl⟩ (Ex.ctx_typed _) _).2 ⟨⟨true, .zeroOrMore (Ex.all ""), ⟨.at 0 1, 0⟩⟩, ?_, ?_⟩
  · refine .head .complete (.single (.sequence (before := [(true, Ex.all "a")]) (after := []) rfl ?_))
    exact .cons ⟨_, _, Ex.parses _ 3 rfl⟩ .nil
  · exact .zeroOrMore .refl ⟨_, _, Ex.parses _ 3 rfl⟩

/-- The left recursive `ignore("a" | custom >> "b")` on `b`: the first alternative fails, so it is entered again. -/
example : LookLoops (Ex.leftRec "b") (.custom 0) (Ex.input "b") := by
  refine (C73_lookahead (Ex.leftRec "b") (.custom 0) ?_ (Ex.input "b") (Ex.input_valid _)).2
    ⟨⟨false, .custom 0, Ex.input "b"⟩, .refl, .inr ⟨⟨0, rfl⟩, ?_⟩⟩
  · exact Ex.leftRec_finite _
  · refine .head .custom (.head .ignore (.head (.choice (is := [some 0, some 0]) (before := [(false, Ex.all "a")]) (after := []) ?_ rfl ?_)
      (.single (.sequence (before := []) (after := [(false, Ex.all "b")]) rfl .nil))))
    · exact (C60_recorded _ _).2 rfl
    · rintro x hx
      cases List.mem_singleton.1 hx
      exact ⟨_, _, Ex.looks _ 2 rfl⟩

/-- a custom parser that only ignores its own value -/
def Ex.itself (text : String) : Ctx Nat Nat := { Ex.ctx text with custom := fun _ => ⟨.ignore (.custom 0), true, .void⟩ }

theorem Ex.itself_uses {text : String} {x q : Parser Nat} (h : Uses (Ex.itself text) x q)
    (hx : x = .custom 0 ∨ x = .ignore (.custom 0)) : q = .custom 0 ∨ q = .ignore (.custom 0) := by
  induction h with
  | self => exact hx
  | part hm _ ih =>
    refine ih ?_
    rcases hx with rfl | rfl <;> simp [Parser.parts] at hm
    exact .inl hm
  | custom _ ih => exact ih (.inr rfl)

/-- It is looked ahead while it is parsed (which is no reason to go on), and then again while it is looked ahead. -/
example (text : String) : ParseLoops (Ex.itself text) (.custom 0) (Ex.input text) := by
  have ht := Ex.ctx_typed text
  refine (C73_recursion (Ex.itself text) (.custom 0) (fun q hq => ?_)
    ⟨⟨fun _ => rfl, fun _ => rfl, fun _ => rfl, fun _ => nofun⟩, rfl, rfl, rfl⟩
    ⟨ht.1, ht.2, ht.3, ht.4, ht.5, ht.6⟩ ⟨[0], fun k hk => ?_⟩ _).2
    ⟨⟨false, .custom 0, Ex.input text⟩, .head .custom (.single .ignore), ⟨0, rfl⟩, .head .custom (.single .ignore)⟩
  · rcases Ex.itself_uses hq (.inl rfl) with rfl | rfl <;> exact ⟨fun _ => ⟨nofun, nofun⟩, fun _ _ => nofun⟩
  · rcases Ex.itself_uses hk (.inl rfl) with h | h <;> cases h
    simp

end Tok3n
