import Verif.Spec.Calls
import Verif.Spec.Example
import Verif.Proof.Closed
/-
Property C49: exceptions come from the user's callbacks, and from nowhere else.
-/

namespace Tok3n

variable {α β : Type} {C : Ctx α β}

/-- Only the last call may throw, and it does exactly if the run ends with its exception. -/
def Blames (C : Ctx α β) (A : Type) : Run A → Prop
  | .diverge => True
  | .done log (.err (.exn e)) => ∃ l c, log = l ++ [c] ∧ C.throws c = some e ∧ ∀ c ∈ l, C.throws c = none
  | .done log _ => ∀ c ∈ log, C.throws c = none

theorem blames_after {A : Type} {m : Run A} {l : List Call} (hl : ∀ c ∈ l, C.throws c = none) (h : Blames C A m) :
    Blames C A (m.after l) := by
  cases m with
  | diverge => trivial
  | done l' r =>
    have hap : ∀ l', (∀ c ∈ l', C.throws c = none) → ∀ c ∈ l ++ l', C.throws c = none := by
      intro l' h c hc
      rcases List.mem_append.1 hc with hc | hc
      · exact hl c hc
      · exact h c hc
    cases r with
    | ok a => exact hap _ h
    | err e =>
      cases e with
      | ub => exact hap _ h
      | ill => exact hap _ h
      | exn e =>
        obtain ⟨l2, c, rfl, h1, h2⟩ := h
        exact ⟨l ++ l2, c, by simp, h1, hap _ h2⟩

theorem blames_closed : Closed (Blames C) where
  diverge _ := trivial
  pure _ _ := by nofun
  ub _ := by nofun
  ill _ := by nofun
  bind A B m f hm hf := by
    cases m with
    | diverge => trivial
    | done l r =>
      cases r with
      | ok a => exact blames_after hm (hf a)
      | err e => cases e <;> exact hm

theorem blames_invoke (f : Fn) (args : List Val) : Blames C _ (invoke C f args) := by
  induction f generalizing args with
  | user k =>
    simp only [invoke, M.bind_eq, M.log, M.ok_bind, liftCall]
    cases h : C.fnCall k args with
    | ok v => intro c hc; rw [List.mem_singleton.1 hc]; simp [Ctx.throws, h]
    | error e => exact ⟨[], _, rfl, by simp [Ctx.throws, h], nofun⟩
  | apply f ih =>
    simp only [invoke]
    split
    · split
      · exact ih _
      · nofun
    · nofun
  | const k =>
    simp only [invoke, M.bind_eq, M.log, M.ok_bind]
    intro c hc; rw [List.mem_singleton.1 hc]; rfl
  | construct t =>
    simp only [invoke, M.bind_eq, M.log, M.ok_bind, liftCall]
    cases h : C.ctor t args with
    | ok v => intro c hc; rw [List.mem_singleton.1 hc]; simp [Ctx.throws, h]
    | error e => exact ⟨[], _, rfl, by simp [Ctx.throws, h], nofun⟩
  | deflt t =>
    simp only [invoke, M.bind_eq, M.log, M.ok_bind, M.ofOption]
    cases h : defaultVal C t with
    | some v => intro c hc; rw [List.mem_singleton.1 hc]; rfl
    | none => intro c hc; rw [List.mem_singleton.1 hc]; rfl

/-- An exception leaves `parse` only if the last callback that was invoked threw it, all the ones
before having returned; and if a callback throws, it is the last one invoked and `parse` ends with
its exception, whatever comes after it in the grammar. -/
theorem C49_exceptions (C : Ctx α β) (p : Parser α) (s : Span) (log : List Call) :
    (∀ e, Parse C p s = .done log (.err (.exn e)) →
      ∃ before last, log = before ++ [last] ∧ C.throws last = some e ∧ ∀ c ∈ before, C.throws c = none) ∧
    (∀ c ∈ log, ∀ e, C.throws c = some e → ∀ r, Parse C p s = .done log r → r = .err (.exn e)) := by
  have hb : Blames C _ (Parse C p s) :=
    Parse_closed blames_closed p (fun _ f _ args => blames_invoke f args) s
  refine ⟨fun e h => by rw [h] at hb; exact hb, fun c hc e he r h => ?_⟩
  rw [h] at hb
  cases r with
  | ok a => rw [hb c hc] at he; cases he
  | err e' =>
    cases e' with
    | ub => rw [hb c hc] at he; cases he
    | ill => rw [hb c hc] at he; cases he
    | exn e' =>
      obtain ⟨l, c', rfl, h1, h2⟩ := hb
      rcases List.mem_append.1 hc with hc | hc
      · rw [h2 c hc] at he; cases he
      · rw [List.mem_singleton.1 hc, h1] at he; cases he; rfl

/-- So with callbacks that do not throw `parse` returns normally: every parser that compiles, on
every readable input, either returns a result or does not return. -/
theorem C49_no_throw (C : Ctx α β) (p : Parser α) (s : Span) (log : List Call) (e : Nat)
    (h : ∀ c, C.throws c = none) : Parse C p s ≠ .done log (.err (.exn e)) := by
  intro hp
  obtain ⟨_, c, _, hc, _⟩ := (C49_exceptions C p s log).1 e hp
  rw [h c] at hc; cases hc

/-- `lookahead` never throws. -/
theorem C49_lookahead (C : Ctx α β) (p : Parser α) (s : Span) (log : List Call) (e : Nat) :
    Look C p s ≠ .done log (.err (.exn e)) := by
  let Q : ∀ A : Type, Run A → Prop := fun A m => ∀ l e, m ≠ .done l (.err (.exn e))
  have hQ : Closed Q := {
    diverge := fun _ _ _ => by nofun
    pure := fun _ _ _ _ => by nofun
    ub := fun _ _ _ h => by cases h
    ill := fun _ _ _ h => by cases h
    bind := by
      intro A B m f hm hf l e h
      rcases M.bind_eq_err.1 h with h | ⟨l1, l2, a, h1, h2, -⟩
      · exact hm _ _ h
      · exact hf a _ _ h2 }
  exact Look_closed hQ p s log e

/-- Same arguments, same outcome: the model of `parse` is a function of the parser, the memory and
the callbacks' behaviour, and a run that ended cannot also have ended otherwise or not at all. -/
theorem C49_deterministic (C : Ctx α β) (p : Parser α) (s : Span) {l l' : List Call} {r r' : Res R} {n n' : Nat}
    (h : (sem C n p).parse s = .done l r) (h' : (sem C n' p).parse s = .done l' r') : l = l' ∧ r = r' := by
  have h1 := Parse_eq_done.2 ⟨n, h⟩
  rw [Parse_eq_done.2 ⟨n', h'⟩] at h1
  cases h1; exact ⟨rfl, rfl⟩

/-- the callback of the second part throws after that of the first part has returned; the third is
not called -/
example : Parse (Ex.ctx "abc") (.sequence [.map (Ex.all "a") (.user 0), .map (Ex.all "b") (.user 3),
      .map (Ex.all "c") (.user 0)]) (Ex.input "abc") =
    .done [⟨.user 0, [.span ⟨.at 0 0, 1⟩]⟩, ⟨.user 3, [.span ⟨.at 0 1, 1⟩]⟩] (.err (.exn 7)) ∧
    (Ex.ctx "abc").throws ⟨.user 3, [.span ⟨.at 0 1, 1⟩]⟩ = some 7 := ⟨Ex.parses _ 9 rfl, rfl⟩

end Tok3n
