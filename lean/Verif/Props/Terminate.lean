import Verif.Proof.Productive
import Verif.Spec.Example
/-
C39: productive grammars always return.
-/

namespace Tok3n

variable {α β : Type}

/-- If the grammar of `p` is productive, `parse` and `lookahead` return on every readable input. -/
theorem C39_returns (C : Ctx α β) (p : Parser α) (hp : Productive C p) (s : Span) (hs : s.Valid C.mem) :
    ¬ ParseLoops C p s ∧ ¬ LookLoops C p s := productive_rets hp p .self s hs

/-- The check that looks at the grammar only is enough. -/
theorem C39_checked (C : Ctx α β) (p : Parser α) (ks : List Nat) (null : Nat → Bool) (rank : Nat → Nat)
    (hp : productive C ks null rank p = true) (s : Span) (hs : s.Valid C.mem) :
    ¬ ParseLoops C p s ∧ ¬ LookLoops C p s := C39_returns C p (productive_sound hp) s hs

/-- A grammar without custom parsers needs no ranking: it returns if no repetition body is nullable. -/
theorem C39_closed (C : Ctx α β) (p : Parser α) (hc : p.customs (fun _ => false) = true)
    (hr : p.repeatsOK (fun _ => true) = true) (s : Span) (hs : s.Valid C.mem) :
    ¬ ParseLoops C p s ∧ ¬ LookLoops C p s := by
  refine C39_checked C p [] (fun _ => true) (fun _ => 0) ?_ s hs
  have e : (([] : List Nat).contains) = fun _ => false := by funext k; rfl
  have e' : (fun k => !([] : List Nat).contains k || true) = fun _ => true := by funext k; simp
  simp only [productive, e, e', hc, hr]; rfl

/-- The condition on recursion is needed: a custom parser that starts with itself never returns. -/
theorem C39_left_recursion (C : Ctx α β) (k : Nat) (rest : List (Parser α))
    (hb : (C.custom k).body = .sequence (.custom k :: rest)) (s : Span) : LookLoops C (.custom k) s := by
  have key : ∀ n, (sem C n (.custom k)).look s = .diverge ∧ (sem C n (C.custom k).body).look s = .diverge := by
    intro n
    induction n with
    | zero => exact ⟨rfl, rfl⟩
    | succ n ih =>
      refine ⟨ih.2, ?_⟩
      rw [hb]
      have e : ∀ tr es, lookSequence C tr (⟨sem C n (.custom k), resultFor C (.custom k), none⟩ :: es) s = .diverge := by
        intro tr es
        simp only [lookSequence, foldAnd, execute, M.bind_eq]
        rw [ih.1]; rfl
      exact e _ _
  unfold LookLoops
  cases h : Look C (.custom k) s with
  | diverge => rfl
  | done l r =>
    obtain ⟨n, hn⟩ := Look_eq_done.1 h
    rw [(key n).1] at hn; cases hn

/-! ### Examples -/

/-- The recursive `"(" >> ~custom >> ")"`, repeated and separated, passes the check. -/
example (text : String) : productive (Ex.ctx text) [0, 1] (fun _ => false) id
    (.zeroOrMore (.delimit (.choice [.custom 0, .custom 1, .join (.oneOrMore (Ex.any "ab"))]) (.maybe (Ex.all ",")))) = true := by
  rfl

/-- So it returns, whatever the text. -/
example (text : String) : ¬ ParseLoops (Ex.ctx text)
    (.zeroOrMore (.delimit (.choice [.custom 0, .custom 1, .join (.oneOrMore (Ex.any "ab"))]) (.maybe (Ex.all ","))))
    (Ex.input text) :=
  (C39_checked (Ex.ctx text) _ [0, 1] (fun _ => false) id rfl _ (Ex.input_valid text)).1

/-- The check rejects a repetition of something that can match nothing. -/
example (text : String) : productive (Ex.ctx text) [] (fun _ => false) id (.zeroOrMore (.maybe (Ex.all "a"))) = false := by
  rfl

/-- A left recursive grammar is not productive. -/
example : ∃ C : Ctx Nat Nat, ¬ Productive C (.custom 0) := by
  refine ⟨{ Ex.ctx "x" with custom := fun _ => ⟨.sequence [.custom 0, Ex.all "x"], false, .span⟩ }, fun h => ?_⟩
  exact h.recursion 0 .self (.single (.sequence (qs := []) (nofun) .custom))

/-- Such a grammar does not return: `list = list >> "x"`. -/
example (s : Span) : LookLoops { Ex.ctx "x" with custom := fun _ => ⟨.sequence [.custom 0, Ex.all "x"], false, .span⟩ }
    (.custom 0) s := C39_left_recursion _ 0 [Ex.all "x"] rfl s

end Tok3n
