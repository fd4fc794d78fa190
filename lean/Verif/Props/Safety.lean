import Verif.Spec.Example
/-
C01, C02, C03, C04, C06, C43: what every `parse()` and `lookahead()` guarantees.
-/

namespace Tok3n

variable {α β : Type}

/-! ## C01 Failure gives the input back -/

/-- Whenever `parse` or `lookahead` fails, `remaining()` is the input: for every context,
parser and input (no assumption at all). -/
theorem C01_failure_restores_input (C : Ctx α β) (p : Parser α) (s s' : Span) (log : List Call) :
    (ParseFails C p s log s' → s' = s) ∧ (LookFails C p s log s' → s' = s) :=
  ⟨fun h => ((Parse_good p s).ok h).fail rfl, fun h => ((Look_good p s).ok h).fail rfl⟩

-- a failure in the third part of a sequence, after two parts have consumed
example : ParseFails (Ex.ctx "abx") (.sequence [Ex.all "a", Ex.all "b", Ex.all "c"])
    (Ex.input "abx") [] (Ex.input "abx") := Ex.parses _ 5 rfl

/-! ## C02 Success consumes a prefix -/

theorem C02_success_consumes_prefix (C : Ctx α β) (p : Parser α) (s s' : Span) (log : List Call) (v : Val) :
    (Parses C p s log v s' → s'.SuffixOf s) ∧ (Looks C p s log s' → s'.SuffixOf s) :=
  ⟨fun h => ((Parse_good p s).ok h).suffix, fun h => ((Look_good p s).ok h).suffix⟩

example : Parses (Ex.ctx "aab") (.oneOrMore (Ex.all "a")) (Ex.input "aab") []
    (.vec [.span ⟨.at 0 0, 1⟩, .span ⟨.at 0 1, 1⟩]) ⟨.at 0 2, 1⟩ := Ex.parses _ 5 rfl

/-! ## C03 Memory safety -/

/-- On a readable input `parse` never ends with undefined behaviour (`ub`: a read outside an
array, an out-of-range pointer, a wrapping size, a violated precondition of `front`,
`first`, `subspan`, `operator*`), provided no function mapped below a `join` invents
spans; in fact it can only end normally or with an exception. -/
theorem C03_memory_safe [LinearOrder α] (C : Ctx α β) (p : Parser α) (s : Span)
    (hc : Compiles C p) (ht : C.Typed) (hj : JoinSafe C p) (hs : s.Valid C.mem)
    (log : List Call) (e : Err) (h : ParseErr C p s log e) : ∃ x, e = .exn x := by
  have := (Parse_typed hc ht s).err h
  cases e with
  | ub => exact absurd ⟨hs, hj⟩ (this.2 rfl)
  | exn x => exact ⟨x, rfl⟩
  | ill => exact absurd rfl this.1

/-- `lookahead` needs no assumption but a readable input. -/
theorem C03_lookahead_memory_safe (C : Ctx α β) (p : Parser α) (s : Span) (hs : s.Valid C.mem)
    (log : List Call) (e : Err) : ¬ LookErr C p s log e :=
  fun h => ((Look_quiet p s).sat.err h).2 hs

/-- The condition on `join` is needed: joining a span of the input with one of another
buffer, supplied by a callback, subtracts unrelated pointers (finding 6). -/
theorem C03_foreign_join_undefined : ∃ (C : Ctx Nat Nat) (p : Parser Nat) (s : Span) (log : List Call),
    Compiles C p ∧ C.Typed ∧ s.Valid C.mem ∧ ParseErr C p s log .ub :=
  ⟨Ex.ctx "ab", .join (.sequence [Ex.all "a", .map (Ex.all "b") (.user 4)]), Ex.input "ab", _,
    ⟨Ex.ctx_ok _, rfl, rfl, rfl⟩, Ex.ctx_typed _, Ex.input_valid _, Ex.parses _ 5 rfl⟩

/-- a recursive grammar with callbacks and a join satisfies the hypotheses -/
example : let p : Parser Nat := .sequence [.custom 0, .map (.join (.sequence [Ex.all "a", Ex.any "bc"])) (.user 0)]
    Compiles (Ex.ctx "(())ab") p ∧ (Ex.ctx "(())ab").Typed ∧ JoinSafe (Ex.ctx "(())ab") p := by
  refine ⟨⟨Ex.ctx_ok _, rfl, rfl, rfl⟩, Ex.ctx_typed _, fun q hq => ⟨Ex.ctx_local _, fun r f hr => ?_⟩⟩
  -- no map is reachable below a join
  have noJoin : ∀ {p q : Parser Nat}, ParseReach (Ex.ctx "(())ab") p q →
      (p = .custom 0 ∨ p = .sequence [Ex.all "(", .maybe (.custom 0), Ex.all ")"] ∨
        p = .maybe (.custom 0) ∨ (∃ x, p = .allOf x) ∨ ∃ x, p = .anyOf x) →
      (∀ r, q ≠ .join r) ∧ ∀ r f, q ≠ .map r f := by
    intro p q h
    induction h with
    | refl => rintro (rfl | rfl | rfl | ⟨x, rfl⟩ | ⟨x, rfl⟩) <;> exact ⟨nofun, nofun⟩
    | step hc _ ih =>
      rintro (rfl | rfl | rfl | ⟨x, rfl⟩ | ⟨x, rfl⟩)
      · cases hc; exact ih (.inr (.inl rfl))
      · cases hc with
        | sequence h =>
          simp only [List.mem_cons, List.not_mem_nil, or_false] at h
          rcases h with rfl | rfl | rfl
          · exact ih (.inr (.inr (.inr (.inl ⟨_, rfl⟩))))
          · exact ih (.inr (.inr (.inl rfl)))
          · exact ih (.inr (.inr (.inr (.inl ⟨_, rfl⟩))))
      · cases hc; exact ih (.inl rfl)
      · cases hc
      · cases hc
  have key : ∀ {q : Parser Nat}, ParseReach (Ex.ctx "(())ab")
      (.join (.sequence [Ex.all "a", Ex.any "bc"])) (.join q) → q = .sequence [Ex.all "a", Ex.any "bc"] := by
    intro q h
    cases h with
    | refl => rfl
    | step hc h =>
      cases hc
      cases h with
      | step hc h =>
        cases hc with
        | sequence hm =>
          simp only [List.mem_cons, List.not_mem_nil, or_false] at hm
          rcases hm with rfl | rfl <;> exact absurd rfl ((noJoin h (by simp)).1 q)
  have hq' : q = .sequence [Ex.all "a", Ex.any "bc"] := by
    cases hq with
    | step hc h =>
      cases hc with
      | sequence hm =>
        simp only [List.mem_cons, List.not_mem_nil, or_false] at hm
        rcases hm with rfl | rfl
        · exact absurd rfl ((noJoin h (by simp)).1 q)
        · cases h with
          | step hc h => cases hc; exact key h
  subst hq'
  cases hr with
  | step hc h =>
    cases hc with
    | sequence hm =>
      simp only [List.mem_cons, List.not_mem_nil, or_false] at hm
      rcases hm with rfl | rfl <;> exact absurd rfl ((noJoin h (by simp)).2 r f)

/-! ## C04 Zero-copy results stay inside the consumed text -/

/-- Every span in the result lies in the consumed part of the input, or is a default
constructed one — for parsers whose callbacks invent no spans, in particular for
callback-free parsers. -/
theorem C04_spans_in_consumed_text [LinearOrder α] (C : Ctx α β) (p : Parser α) (s s' : Span)
    (hc : Compiles C p) (ht : C.Typed) (hl : SpanLocal C p) (log : List Call) (v : Val)
    (h : Parses C p s log v s') : ∀ t ∈ v.spans, InRegion s s' t :=
  fun t hv => (((Parse_typed hc ht s).ok h).val v rfl).spans t hv hl

/-- a callback-free parser -/
example : let p : Parser Nat := .sequence [.zeroOrMore (Ex.any "ab"), .maybe (Ex.all "cd")]
    SpanLocal (Ex.ctx "abcd") p ∧ Compiles (Ex.ctx "abcd") p ∧
    Parses (Ex.ctx "abcd") p (Ex.input "abcd") []
      (.tup [.vec [.span ⟨.at 0 0, 1⟩, .span ⟨.at 0 1, 1⟩], .opt (some (.span ⟨.at 0 2, 2⟩))]) ⟨.at 0 4, 0⟩ := by
  refine ⟨⟨Ex.ctx_local _, fun q f h => ?_⟩, ⟨Ex.ctx_ok _, rfl, rfl, rfl⟩, Ex.parses _ 6 rfl⟩
  cases h with
  | step hc h =>
    cases hc with
    | sequence hm =>
      simp only [List.mem_cons, List.not_mem_nil, or_false] at hm
      rcases hm with rfl | rfl
      · cases h with
        | step hc h => cases hc; cases h with | step hc h => cases hc
      · cases h with
        | step hc h => cases hc; cases h with | step hc h => cases hc

/-! ## C06 `lookahead` runs no user code -/

/-- However `lookahead` ends, it ran no callback; it throws nothing; it ends with an error
only if the input is not readable memory. -/
theorem C06_lookahead_runs_no_user_code (C : Ctx α β) (p : Parser α) (s : Span) (log : List Call) :
    (∀ r, Look C p s = .done log r → log = []) ∧
    (∀ x, ¬ LookErr C p s log (.exn x)) ∧
    (s.Valid C.mem → LookLoops C p s ∨ (∃ s', Looks C p s [] s') ∨ LookFails C p s [] s) := by
  refine ⟨fun r h => (Look_quiet p s).log h, fun x h => ?_, fun hs => ?_⟩
  · exact absurd ((Look_quiet p s).sat.err h).1 nofun
  · cases h : Look C p s with
    | diverge => exact .inl h
    | done l r =>
      have hl := (Look_quiet p s).log h
      subst hl
      cases r with
      | err e => exact absurd hs ((Look_quiet p s).sat.err h).2
      | ok r =>
        have hr := (Look_quiet p s).sat.ok h
        obtain ⟨v, s'⟩ := r
        cases v with
        | none => have := hr.fail rfl; simp only at this; subst this; exact .inr (.inr h)
        | some v => have := hr.unit v rfl; subst this; exact .inr (.inl ⟨s', h⟩)

-- a parser whose `parse` throws
example : ParseErr (Ex.ctx "a") (.map (Ex.all "a") (.user 3)) (Ex.input "a")
      [⟨.user 3, [.span ⟨.at 0 0, 1⟩]⟩] (.exn 7) ∧
    Looks (Ex.ctx "a") (.map (Ex.all "a") (.user 3)) (Ex.input "a") [] ⟨.at 0 1, 0⟩ :=
  ⟨Ex.parses _ 3 rfl, Ex.looks _ 3 rfl⟩

/-! ## C43 The value has the documented type -/

theorem C43_value_has_type [LinearOrder α] (C : Ctx α β) (p : Parser α) (s s' : Span)
    (hc : Compiles C p) (ht : C.Typed) (log : List Call) (v : Val)
    (h : Parses C p s log v s') : HasTy (resultFor C p) v :=
  (((Parse_typed hc ht s).ok h).val v rfl).ty

/-- the documented types -/
theorem C43_documented_types (C : Ctx α β) (p d : Parser α) (n : Nat) (arr : List α)
    (hp : resultFor C p ≠ .void) (hd : resultFor C d ≠ .void) :
    resultFor C (.anyOf arr) = .span ∧ resultFor C (.noneOf arr) = .span ∧
    resultFor C (.allOf arr) = .span ∧ resultFor C (.anything : Parser α) = .span ∧
    resultFor C (.epsilon : Parser α) = .void ∧ resultFor C (.join p) = .span ∧
    resultFor C (.ignore p) = .void ∧ resultFor C (.zeroOrMore p) = .vec (resultFor C p) ∧
    resultFor C (.oneOrMore p) = .vec (resultFor C p) ∧
    resultFor C (.exactly p n) = .arr (resultFor C p) n ∧
    resultFor C (.maybe p) = .opt (resultFor C p) ∧
    resultFor C (.delimit p d) = .pair (.vec (resultFor C p)) (.vec (resultFor C d)) ∧
    resultFor C (.delimit p (.ignore d)) = .vec (resultFor C p) ∧
    resultFor C (.sequence [p, d]) = .tup [resultFor C p, resultFor C d] ∧
    resultFor C (.sequence [p, .ignore d]) = resultFor C p := by
  refine ⟨rfl, rfl, rfl, rfl, rfl, rfl, rfl, ?_, ?_, ?_, ?_, ?_, ?_, ?_, ?_⟩
  · simp [resultFor, voidOr, hp]
  · simp [resultFor, voidOr, hp]
  · simp [resultFor, voidOr, hp]
  · simp [resultFor, voidOr, hp]
  · simp [resultFor, delimitTy, hp, hd]
  · simp [resultFor, delimitTy, hp]
  · simp [resultFor, resultsFor, sequenceTrait, compoundTrait, filterOutVoid, filterWithIndex, isNotVoid, hp, hd]
  · simp [resultFor, resultsFor, sequenceTrait, compoundTrait, filterOutVoid, filterWithIndex, isNotVoid, hp]

example : Compiles (Ex.ctx "(())x") (.custom 0) ∧ (Ex.ctx "(())x").Typed ∧
    resultFor (Ex.ctx "(())x") (.custom 0 : Parser Nat) = .user 2 :=
  ⟨⟨Ex.ctx_ok _, rfl, rfl, rfl⟩, Ex.ctx_typed _, rfl⟩

end Tok3n
