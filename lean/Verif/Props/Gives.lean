import Verif.Proof.Gives
import Verif.Spec.Example
import Verif.Props.Repetition
/-
Property C84: what `parse` does, as rules.
-/

namespace Tok3n

variable {α β : Type}

/-- What `parse` does is what the rules of `Spec/Gives.lean` say, for every parser that compiles, over user code that
keeps its types and does not invent the spans that are joined, on every readable input: it makes the calls `log` and
returns the value `v` and the rest `s'` exactly if that can be derived; it fails, leaving its input, exactly if that can be
derived; it ends with an exception exactly if that can be derived; and it runs forever exactly if nothing can be derived. -/
theorem C84_parse [LinearOrder α] (C : Ctx α β) (p : Parser α) (hc : Compiles C p) (ht : C.Typed) (hj : JoinSafe C p)
    (s : Span) (hs : s.Valid C.mem) :
    (∀ log v s', Parses C p s log v s' ↔ Gives C p s log (.ok v s')) ∧
    (∀ log s', ParseFails C p s log s' ↔ s' = s ∧ Gives C p s log .no) ∧
    (∀ log e, ParseErr C p s log e ↔ ∃ x, e = .exn x ∧ Gives C p s log (.throws x)) ∧
    (ParseLoops C p s ↔ ∀ log o, ¬ Gives C p s log o) := by
  have hf : Fit C p := ⟨hc, hj⟩
  have hrun : ∀ {log o}, Gives C p s log o → Parse C p s = .done log (o.out s) := fun h => h.run ht hf hs
  have hend : ∀ {log r}, Parse C p s = .done log r → ∃ o, Gives C p s log o ∧ r = o.out s := fun {log r} h => by
    obtain ⟨log', o, ho⟩ := gives_of_ends ht hf hs (by rw [h]; nofun)
    have := hrun ho
    rw [h] at this
    cases this
    exact ⟨o, ho, rfl⟩
  refine ⟨fun log v s' => ⟨fun h => ?_, fun h => hrun h⟩, fun log s' => ⟨fun h => ?_, ?_⟩,
    fun log e => ⟨fun h => ?_, ?_⟩, ⟨fun h log o ho => ?_, fun h => ?_⟩⟩
  · obtain ⟨o, ho, hr⟩ := hend h
    cases o <;> cases hr
    exact ho
  · obtain ⟨o, ho, hr⟩ := hend h
    cases o <;> cases hr
    exact ⟨rfl, ho⟩
  · rintro ⟨rfl, h⟩; exact hrun h
  · obtain ⟨o, ho, hr⟩ := hend h
    cases o <;> cases hr
    exact ⟨_, rfl, ho⟩
  · rintro ⟨x, rfl, h⟩; exact hrun h
  · rw [ParseLoops, hrun ho] at h; cases h
  · by_contra hn
    obtain ⟨log, o, ho⟩ := gives_of_ends ht hf hs hn
    exact h log o ho

/-- No two things can be derived. -/
theorem C84_deterministic [LinearOrder α] (C : Ctx α β) (p : Parser α) (hc : Compiles C p) (ht : C.Typed)
    (hj : JoinSafe C p) (s : Span) (hs : s.Valid C.mem) (log log' : List Call) (o o' : Ending Val)
    (h : Gives C p s log o) (h' : Gives C p s log' o') : log = log' ∧ o = o' := by
  have h1 := h.run ht ⟨hc, hj⟩ hs
  have h2 := h'.run ht ⟨hc, hj⟩ hs
  rw [h1] at h2
  cases o <;> cases o' <;> cases h2 <;> exact ⟨rfl, rfl⟩

/-- a parser without `join` -/
theorem Plain.joinSafe {C : Ctx α β} {p : Parser α} (h : Plain C p) : JoinSafe C p :=
  fun q hq => absurd rfl ((h _ hq).2.1 q)

/-! ### Concrete cases -/

/-- "ab" of "abc" as a mapped "a" and an ignored "b": one call, and the value of the one part that has one -/
example : Gives (Ex.ctx "abc") (.sequence [.map (Ex.all "a") (.user 0), .ignore (Ex.all "b")]) (Ex.input "abc")
    [⟨.user 0, [.span ⟨.at 0 0, 1⟩]⟩] (.ok (.user 0 0 [.span ⟨.at 0 0, 1⟩]) ⟨.at 0 2, 1⟩) :=
  ((C84_parse _ _ ⟨Ex.ctx_ok _, rfl, rfl, rfl⟩ (Ex.ctx_typed _) (plain_of Ex.ctx_plain rfl).joinSafe _
    (Ex.input_valid _)).1 _ _ _).1 (Ex.parses _ 9 rfl)

/-- the callback of the second part throws: both calls were made -/
example : Gives (Ex.ctx "abc") (.sequence [.map (Ex.all "a") (.user 0), .map (Ex.all "b") (.user 3), Ex.all "c"])
    (Ex.input "abc") [⟨.user 0, [.span ⟨.at 0 0, 1⟩]⟩, ⟨.user 3, [.span ⟨.at 0 1, 1⟩]⟩] (.throws 7) := by
  have h0 : ParseErr (Ex.ctx "abc")
      (.sequence [.map (Ex.all "a") (.user 0), .map (Ex.all "b") (.user 3), Ex.all "c"]) (Ex.input "abc")
      [⟨.user 0, [.span ⟨.at 0 0, 1⟩]⟩, ⟨.user 3, [.span ⟨.at 0 1, 1⟩]⟩] (.exn 7) := Ex.parses _ 9 rfl
  obtain ⟨x, hx, h⟩ := ((C84_parse _ _ ⟨Ex.ctx_ok _, rfl, rfl, rfl⟩ (Ex.ctx_typed _)
    (plain_of Ex.ctx_plain rfl).joinSafe _ (Ex.input_valid _)).2.2.1 _ _).1 h0
  cases hx
  exact h

/-- `delimit_keep` gives back the last delimiter of "a,a,b" -/
example : Gives (Ex.ctx "a,a,b") (.delimit (Ex.all "a") (Ex.all ",")) (Ex.input "a,a,b") []
    (.ok (.pair (.vec [.span ⟨.at 0 0, 1⟩, .span ⟨.at 0 2, 1⟩]) (.vec [.span ⟨.at 0 1, 1⟩])) ⟨.at 0 3, 2⟩) :=
  ((C84_parse _ _ ⟨Ex.ctx_ok _, rfl, rfl, rfl⟩ (Ex.ctx_typed _) (plain_of Ex.ctx_plain rfl).joinSafe _
    (Ex.input_valid _)).1 _ _ _).1 (Ex.parses _ 9 rfl)

/-- what is left out cannot be joined over -/
example : Gives (Ex.ctx "abc") (.join (.sequence [Ex.all "a", .ignore (Ex.all "b"), Ex.all "c"])) (Ex.input "abc")
    [] .no := by
  refine (((C84_parse _ _ ⟨Ex.ctx_ok _, rfl, rfl, rfl⟩ (Ex.ctx_typed _) ?_ _ (Ex.input_valid _)).2.1 _ _).1
    (Ex.parses _ 9 rfl)).2
  intro q hq
  refine ⟨Ex.ctx_local _, fun r f hr => ?_⟩
  have hp : Plain (Ex.ctx "abc") (.sequence [Ex.all "a", .ignore (Ex.all "b"), Ex.all "c"]) :=
    plain_of Ex.ctx_plain rfl
  have hq' : q = .sequence [Ex.all "a", .ignore (Ex.all "b"), Ex.all "c"] := by
    cases hq with
    | refl => rfl
    | step hc h => cases hc; exact absurd rfl ((hp _ h).2.1 q)
  subst hq'
  cases hr with
  | step hc h =>
    cases hc with
    | sequence hm =>
      simp only [List.mem_cons, List.not_mem_nil, or_false] at hm
      rcases hm with rfl | rfl | rfl <;>
        · cases h with
          | step hc _ => cases hc

/-- nothing can be derived for `+(~"a")` on "aab": the repetition goes on for ever behind the `a`s -/
example : ∀ log o, ¬ Gives (Ex.ctx "aab") (.oneOrMore (.maybe (Ex.all "a"))) (Ex.input "aab") log o := by
  have h : InTurn (List.replicate 2 (Parse (Ex.ctx "aab") (.maybe (Ex.all "a")))) (Ex.input "aab") []
      [.opt (some (.span ⟨.at 0 0, 1⟩)), .opt (some (.span ⟨.at 0 1, 1⟩))] ⟨.at 0 2, 1⟩ :=
    .cons (l := []) (s' := ⟨.at 0 1, 2⟩) (Ex.parses _ 5 rfl) (.cons (l := []) (Ex.parses _ 5 rfl) .nil)
  exact (C84_parse _ _ ⟨Ex.ctx_ok _, rfl, rfl, rfl⟩ (Ex.ctx_typed _) (plain_of Ex.ctx_plain rfl).joinSafe _
    (Ex.input_valid _)).2.2.2.1 (C40_repetition _ _ 2 _ _ [] [] _ (.opt none) h (Ex.parses _ 5 rfl)).2

end Tok3n
