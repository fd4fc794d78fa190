import Verif.Proof.Repeat
import Verif.Props.Sequence
import Verif.Model.BasicApi
import Verif.Model.Modifiers
/-
Properties C18–C25 and C40: optional, repeated and delimited parsers.

`InTurn (List.replicate n (Parse C p)) s l vs s'`: `n` successful parses of `p`, each
starting where the one before stopped, from `s` to `s'`; callbacks `l`, values `vs`
(Spec/Combinators.lean).
-/

namespace Tok3n

variable {α β : Type}

/-! ## C18 maybe -/

/-- `~p` succeeds with the value and the remaining input of `p` if `p` succeeds, and with an
empty optional and the input untouched if `p` fails; it never fails; it throws or runs
forever exactly if `p` does.  For all parsers. -/
theorem C18_maybe (C : Ctx α β) (p : Parser α) (s s' : Span) (log : List Call) :
    (∀ w, Parses C (.maybe p) s log w s' ↔
      (∃ v, Parses C p s log v s' ∧ w = optionalValue (resultFor C p) (some v)) ∨
      (ParseFails C p s log s ∧ s' = s ∧ w = optionalValue (resultFor C p) none)) ∧
    ¬ ParseFails C (.maybe p) s log s' ∧
    (∀ e, ParseErr C (.maybe p) s log e ↔ ParseErr C p s log e) ∧
    (ParseLoops C (.maybe p) s ↔ ParseLoops C p s) := by
  refine ⟨fun w => ?_, fun h => ?_, fun e => ?_, ?_⟩
  · rw [Parses, Parse_maybe_eq, M.bind_eq_ok]
    constructor
    · rintro ⟨l1, l2, ⟨rv, rr⟩, h1, h2, rfl⟩
      simp only [M.pure_eq_ok, R.mk.injEq, Option.some.injEq] at h2
      obtain ⟨rfl, rfl, rfl⟩ := h2
      rw [List.append_nil]
      cases rv with
      | some v => exact .inl ⟨v, h1, rfl⟩
      | none => cases Parse_failsBack p _ _ _ h1; exact .inr ⟨h1, rfl, rfl⟩
    · rintro (⟨v, h, rfl⟩ | ⟨h, rfl, rfl⟩)
      · exact ⟨log, [], _, h, rfl, by simp⟩
      · exact ⟨log, [], _, h, rfl, by simp⟩
  · rw [ParseFails, Parse_maybe_eq, M.bind_eq_ok] at h
    obtain ⟨l1, l2, r, h1, h2, rfl⟩ := h
    simp at h2
  · rw [ParseErr, Parse_maybe_eq, bind_pure_err]; rfl
  · rw [ParseLoops, Parse_maybe_eq, bind_pure_diverge]; rfl

/-- The same for `lookahead`. -/
theorem C18_lookahead (C : Ctx α β) (p : Parser α) (s s' : Span) (log : List Call) :
    (Looks C (.maybe p) s log s' ↔ Looks C p s log s' ∨ (LookFails C p s log s ∧ s' = s)) ∧
    ¬ LookFails C (.maybe p) s log s' ∧
    (∀ e, LookErr C (.maybe p) s log e ↔ LookErr C p s log e) ∧
    (LookLoops C (.maybe p) s ↔ LookLoops C p s) := by
  refine ⟨?_, fun h => ?_, fun e => ?_, ?_⟩
  · rw [Looks, Look_maybe_eq, M.bind_eq_ok]
    constructor
    · rintro ⟨l1, l2, ⟨rv, rr⟩, h1, h2, rfl⟩
      simp only [M.pure_eq_ok, R.mk.injEq, true_and] at h2
      obtain ⟨rfl, rfl⟩ := h2
      rw [List.append_nil]
      rcases (Look_unit h1).2 with ⟨h, rfl⟩ | h
      · cases h; exact .inr ⟨h1, rfl⟩
      · cases h; exact .inl h1
    · rintro (h | ⟨h, rfl⟩)
      · exact ⟨log, [], _, h, rfl, by simp⟩
      · exact ⟨log, [], _, h, rfl, by simp⟩
  · rw [LookFails, Look_maybe_eq, M.bind_eq_ok] at h
    obtain ⟨l1, l2, r, h1, h2, rfl⟩ := h
    simp at h2
  · rw [LookErr, Look_maybe_eq, bind_pure_err]; rfl
  · rw [LookLoops, Look_maybe_eq, bind_pure_diverge]; rfl

-- ~f("ab") on "abc" and on "ac"
example : Parses (Ex.ctx "abc") (.maybe (.map (Ex.all "ab") (.user 0))) (Ex.input "abc")
    [⟨.user 0, [.span ⟨.at 0 0, 2⟩]⟩] (.opt (some (.user 0 0 [.span ⟨.at 0 0, 2⟩]))) ⟨.at 0 2, 1⟩ := Ex.parses _ 4 rfl
example : Parses (Ex.ctx "ac") (.maybe (.map (Ex.all "ab") (.user 0))) (Ex.input "ac") [] (.opt none) (Ex.input "ac") :=
  Ex.parses _ 4 rfl

/-! ## C19 zero_or_more -/

/-- `*p` succeeds with the values of the longest run of successful parses of `p`, leaving
what is left where `p` fails for the first time; it never fails; it throws exactly if after
some successful parses `p` throws; it runs forever exactly if after some successful parses
`p` does, or if `p` succeeds forever.  For all parsers. -/
theorem C19_zero_or_more (C : Ctx α β) (p : Parser α) (s s' : Span) (log : List Call) :
    (∀ w, Parses C (.zeroOrMore p) s log w s' ↔
      ∃ n l vs, InTurn (List.replicate n (Parse C p)) s l vs s' ∧
        ∃ l', ParseFails C p s' l' s' ∧ log = l ++ l' ∧ w = vectorValue (resultFor C p) vs) ∧
    ¬ ParseFails C (.zeroOrMore p) s log s' ∧
    (∀ e, ParseErr C (.zeroOrMore p) s log e ↔
      ∃ n l l' vs s1, InTurn (List.replicate n (Parse C p)) s l vs s1 ∧ ParseErr C p s1 l' e ∧ log = l ++ l') ∧
    (ParseLoops C (.zeroOrMore p) s ↔
      (∃ n l vs s1, InTurn (List.replicate n (Parse C p)) s l vs s1 ∧ ParseLoops C p s1) ∨
      ∀ n, ∃ l vs s1, InTurn (List.replicate n (Parse C p)) s l vs s1) := by
  refine ⟨fun w => ?_, fun h => ?_, fun e => ?_, ?_⟩
  · rw [Parses_zeroOrMore, ← exists_chain]
    constructor
    · rintro ⟨l, l', vs, h1, h2, h3, h4⟩; exact ⟨l, vs, h1, l', h2, h3, h4⟩
    · rintro ⟨l, vs, h1, l', h2, h3, h4⟩; exact ⟨l, l', vs, h1, h2, h3, h4⟩
  · rw [ParseFails, Parse_zeroOrMore_eq, M.bind_eq_ok] at h
    obtain ⟨l1, l2, r, h1, h2, rfl⟩ := h
    simp at h2
  · rw [ParseErr, Parse_zeroOrMore_eq, bind_pure_err, repeatAll_stepOf_err]; rfl
  · rw [ParseLoops, Parse_zeroOrMore_eq, bind_pure_diverge, repeatAll_stepOf_diverge]; rfl

/-- The same for `lookahead`. -/
theorem C19_lookahead (C : Ctx α β) (p : Parser α) (s s' : Span) (log : List Call) :
    (Looks C (.zeroOrMore p) s log s' ↔
      ∃ n l vs, InTurn (List.replicate n (Look C p)) s l vs s' ∧ ∃ l', LookFails C p s' l' s' ∧ log = l ++ l') ∧
    ¬ LookFails C (.zeroOrMore p) s log s' ∧
    (∀ e, LookErr C (.zeroOrMore p) s log e ↔
      ∃ n l l' vs s1, InTurn (List.replicate n (Look C p)) s l vs s1 ∧ LookErr C p s1 l' e ∧ log = l ++ l') ∧
    (LookLoops C (.zeroOrMore p) s ↔
      (∃ n l vs s1, InTurn (List.replicate n (Look C p)) s l vs s1 ∧ LookLoops C p s1) ∨
      ∀ n, ∃ l vs s1, InTurn (List.replicate n (Look C p)) s l vs s1) := by
  refine ⟨?_, fun h => ?_, fun e => ?_, ?_⟩
  · rw [Looks_zeroOrMore, ← exists_chain]
    constructor
    · rintro ⟨l, l', vs, h1, h2, h3⟩; exact ⟨l, vs, h1, l', h2, h3⟩
    · rintro ⟨l, vs, h1, l', h2, h3⟩; exact ⟨l, l', vs, h1, h2, h3⟩
  · rw [LookFails, Look_zeroOrMore_eq, M.bind_eq_ok] at h
    obtain ⟨l1, l2, r, h1, h2, rfl⟩ := h
    simp at h2
  · rw [LookErr, Look_zeroOrMore_eq, bind_pure_err, repeatAll_stepOf_err]; rfl
  · rw [LookLoops, Look_zeroOrMore_eq, bind_pure_diverge, repeatAll_stepOf_diverge]; rfl

-- *f("a") on "aab": two values, two calls; a callback that throws
example : Parses (Ex.ctx "aab") (.zeroOrMore (.map (Ex.all "a") (.user 0))) (Ex.input "aab")
    [⟨.user 0, [.span ⟨.at 0 0, 1⟩]⟩, ⟨.user 0, [.span ⟨.at 0 1, 1⟩]⟩]
    (.vec [.user 0 0 [.span ⟨.at 0 0, 1⟩], .user 0 0 [.span ⟨.at 0 1, 1⟩]]) ⟨.at 0 2, 1⟩ := Ex.parses _ 5 rfl
example : ParseErr (Ex.ctx "aab") (.zeroOrMore (.map (Ex.all "b") (.user 3))) ⟨.at 0 2, 1⟩
    [⟨.user 3, [.span ⟨.at 0 2, 1⟩]⟩] (.exn 7) := Ex.parses _ 5 rfl

/-! ## C20 one_or_more -/

/-- `+p` fails exactly if `p` fails; otherwise it is `*p`, whose vector is then not empty.
For all parsers. -/
theorem C20_one_or_more (C : Ctx α β) (p : Parser α) (s s' : Span) (log : List Call) :
    (ParseFails C (.oneOrMore p) s log s' ↔ ParseFails C p s log s') ∧
    ((∀ l s1, ¬ ParseFails C p s l s1) → Parse C (.oneOrMore p) s = Parse C (.zeroOrMore p) s) ∧
    (∀ w, Parses C (.oneOrMore p) s log w s' → ∃ v vs, w = vectorValue (resultFor C p) (v :: vs)) := by
  have hp : Parse C (.oneOrMore p) s = _ := Parse_oneOrMore_eq p s
  refine ⟨?_, fun h => ?_, fun w h => ?_⟩
  · rw [ParseFails, hp, M.bind_eq_ok]
    constructor
    · rintro ⟨l1, l2, ⟨vs, s1⟩, h1, h2, rfl⟩
      obtain ⟨l, l', hc, hn, rfl⟩ := repeatAll_ok.1 h1
      cases hc with
      | nil =>
        simp only [↓reduceIte, M.pure_eq_ok, R.mk.injEq, true_and] at h2
        obtain ⟨rfl, rfl⟩ := h2
        obtain ⟨s2, hf⟩ := stepOf_none.1 hn
        cases Parse_failsBack p _ _ _ hf
        simpa [ParseFails] using hf
      | cons => simp at h2
    · intro h
      cases Parse_failsBack p _ _ _ h
      exact ⟨log, [], ([], s), repeatAll_ok.2 ⟨[], log, .nil, stepOf_none.2 ⟨_, h⟩, rfl⟩, by simp [M.pure], by simp⟩
  · rw [hp, Parse_zeroOrMore_eq]
    refine M.bind_congr' fun l x hx => ?_
    obtain ⟨vs, s1⟩ := x
    obtain ⟨l1, l2, hc, hn, rfl⟩ := repeatAll_ok.1 hx
    cases hc with
    | nil =>
      obtain ⟨s2, hf⟩ := stepOf_none.1 hn
      exact absurd hf (h _ _)
    | cons => simp
  · rw [Parses, hp, M.bind_eq_ok] at h
    obtain ⟨l1, l2, ⟨vs, s1⟩, h1, h2, rfl⟩ := h
    cases vs with
    | nil => simp at h2
    | cons v vs =>
      simp only [reduceCtorEq, ↓reduceIte, M.pure_eq_ok, R.mk.injEq, Option.some.injEq] at h2
      exact ⟨v, vs, h2.2.1⟩

/-- The same for `lookahead`. -/
theorem C20_lookahead (C : Ctx α β) (p : Parser α) (s s' : Span) (log : List Call) :
    (LookFails C (.oneOrMore p) s log s' ↔ LookFails C p s log s') ∧
    ((∀ l s1, ¬ LookFails C p s l s1) → Look C (.oneOrMore p) s = Look C (.zeroOrMore p) s) := by
  have hp : Look C (.oneOrMore p) s = _ := Look_oneOrMore_eq p s
  refine ⟨?_, fun h => ?_⟩
  · rw [LookFails, hp, M.bind_eq_ok]
    constructor
    · rintro ⟨l1, l2, ⟨vs, s1⟩, h1, h2, rfl⟩
      obtain ⟨l, l', hc, hn, rfl⟩ := repeatAll_ok.1 h1
      cases hc with
      | nil =>
        simp only [↓reduceIte, M.pure_eq_ok, R.mk.injEq, true_and] at h2
        obtain ⟨rfl, rfl⟩ := h2
        obtain ⟨s2, hf⟩ := stepOf_none.1 hn
        cases Look_failsBack p _ _ _ hf
        simpa [LookFails] using hf
      | cons => simp at h2
    · intro h
      cases Look_failsBack p _ _ _ h
      exact ⟨log, [], ([], s), repeatAll_ok.2 ⟨[], log, .nil, stepOf_none.2 ⟨_, h⟩, rfl⟩, by simp [M.pure], by simp⟩
  · rw [hp, Look_zeroOrMore_eq]
    refine M.bind_congr' fun l x hx => ?_
    obtain ⟨vs, s1⟩ := x
    obtain ⟨l1, l2, hc, hn, rfl⟩ := repeatAll_ok.1 hx
    cases hc with
    | nil =>
      obtain ⟨s2, hf⟩ := stepOf_none.1 hn
      exact absurd hf (h _ _)
    | cons => simp

/-- `+p` accepts (rejects, throws, loops) exactly as `p` followed by `*p`. -/
theorem C20_then (C : Ctx α β) (p : Parser α) (s : Span) :
    parseVerdict C (.oneOrMore p) s = (parseVerdict C p s).andThen (parseVerdict C (.zeroOrMore p)) ∧
    lookVerdict C (.oneOrMore p) s = (lookVerdict C p s).andThen (lookVerdict C (.zeroOrMore p)) := by
  constructor
  · have hz : parseVerdict C (.zeroOrMore p) = fun s => bareV (repeatAll (stepOf (Parse C p)) s) :=
      funext (parseVerdict_zeroOrMore p)
    rw [hz, parseVerdict, parseVerdict, Parse_oneOrMore_eq, verdict_oom (vectorValue _)]
  · have hz : lookVerdict C (.zeroOrMore p) = fun s => bareV (repeatAll (stepOf (Look C p)) s) :=
      funext (lookVerdict_zeroOrMore p)
    rw [hz, lookVerdict, lookVerdict, Look_oneOrMore_eq, verdict_oom fun _ => .unit]

/-- … that is, as the sequence `p >> *p` (a part without value being looked ahead exactly,
see `C15_lookahead_exact`). -/
theorem C20_sequence [LinearOrder α] (C : Ctx α β) (p : Parser α)
    (hc : Compiles C (.sequence [p, .zeroOrMore p])) (hv : resultFor C p = .void → LookaheadExact C p) (s : Span) :
    parseVerdict C (.oneOrMore p) s = parseVerdict C (.sequence [p, .zeroOrMore p]) s := by
  rw [(C20_then C p s).1, C15_parts_parse C _ hc]
  · exact (andThens_pair _ _ _).symm
  · intro q hq
    simp only [List.mem_cons, List.not_mem_nil, or_false] at hq
    rcases hq with rfl | rfl
    · exact hv
    · intro hz
      apply LookaheadExact.zeroOrMore
      apply hv
      rw [resultFor, voidOr] at hz
      split at hz
      · assumption
      · cases hz

example : let p := Parser.map (Ex.all "a") (.user 0)
    Compiles (Ex.ctx "aab") (.sequence [p, .zeroOrMore p]) ∧
    Parses (Ex.ctx "aab") (.oneOrMore p) (Ex.input "aab")
      [⟨.user 0, [.span ⟨.at 0 0, 1⟩]⟩, ⟨.user 0, [.span ⟨.at 0 1, 1⟩]⟩]
      (.vec [.user 0 0 [.span ⟨.at 0 0, 1⟩], .user 0 0 [.span ⟨.at 0 1, 1⟩]]) ⟨.at 0 2, 1⟩ ∧
    ParseFails (Ex.ctx "b") (.oneOrMore p) (Ex.input "b") [] (Ex.input "b") :=
  ⟨⟨Ex.ctx_ok _, rfl, rfl, rfl⟩, Ex.parses _ 5 rfl, Ex.parses _ 5 rfl⟩

-- without that, `+p` and `p >> *p` differ: a filter without value is not asked by the sequence
example : let p := Parser.filter (.ignore (Ex.all "a")) (.user 2)
    Compiles (Ex.ctx "aa") (.sequence [p, .zeroOrMore p]) ∧
    ParseFails (Ex.ctx "aa") (.oneOrMore p) (Ex.input "aa") [⟨.user 2, []⟩] (Ex.input "aa") ∧
    Parses (Ex.ctx "aa") (.sequence [p, .zeroOrMore p]) (Ex.input "aa") [] .unit ⟨.at 0 2, 0⟩ :=
  ⟨⟨Ex.ctx_ok _, rfl, rfl, rfl⟩, Ex.parses _ 6 rfl, Ex.parses _ 6 rfl⟩

/-! ## C21 Simplifications -/

/-- One level of optional or vector removed: an empty optional becomes an empty vector,
vectors in a vector are concatenated. -/
def flatten : Val → Val
  | .opt none => .vec []
  | .opt (some v) => v
  | .vec ws => .vec (ws.flatMap fun | .vec vs => vs | v => [v])
  | v => v

theorem Parse_rewritten {f : Val → Val} {p q : Parser α} {C : Ctx α β} {s : Span}
    {B : Type} {m : Run B} {g h : B → Val} {r : B → Span}
    (hp : Parse C p s = M.bind m fun x => M.pure ⟨some (g x), r x⟩)
    (hq : Parse C q s = M.bind m fun x => M.pure ⟨some (h x), r x⟩) (hf : ∀ x, h x = f (g x)) :
    Parse C q s = mapVal f (Parse C p s) := by
  rw [hp, hq, mapVal, M.bind_assoc]
  exact M.bind_congr fun x => by rw [M.pure_bind, hf]; rfl

/-- `~(~p)` is `~p`: the same run up to the flattened value. -/
theorem C21_maybe_maybe (C : Ctx α β) (p : Parser α) (s : Span) :
    Parse C (maybeOp (.maybe p)) s = mapVal flatten (Parse C (.maybe (.maybe p)) s) := by
  refine Parse_rewritten (m := Parse C p s) (r := fun r => r.rem)
    (g := fun r => optionalValue (resultFor C (.maybe p)) (some (optionalValue (resultFor C p) r.val)))
    (h := fun r => optionalValue (resultFor C p) r.val) ?_ (Parse_maybe_eq p s) fun x => ?_
  · rw [Parse_maybe_eq, Parse_maybe_eq, M.bind_assoc]
    exact M.bind_congr fun r => by rw [M.pure_bind]
  · rw [resultFor]
    by_cases hv : resultFor C p = .void <;> simp [optionalValue, voidOr, hv, flatten]

/-- `~(+p)` is `*p`. -/
theorem C21_maybe_one_or_more (C : Ctx α β) (p : Parser α) (s : Span) :
    Parse C (maybeOp (.oneOrMore p)) s = mapVal flatten (Parse C (.maybe (.oneOrMore p)) s) := by
  refine Parse_rewritten (m := repeatAll (stepOf (Parse C p)) s) (r := fun x => x.2)
    (g := fun x => optionalValue (resultFor C (.oneOrMore p))
      (if x.1 = [] then none else some (vectorValue (resultFor C p) x.1)))
    (h := fun x => vectorValue (resultFor C p) x.1) ?_ (Parse_zeroOrMore_eq p s) fun x => ?_
  · rw [Parse_maybe_eq, Parse_oneOrMore_eq, M.bind_assoc]
    exact M.bind_congr fun r => by rw [M.pure_bind]
  · rw [resultFor]
    by_cases hv : resultFor C p = .void
    · simp [optionalValue, vectorValue, voidOr, hv, flatten]
    · by_cases hx : x.1 = [] <;> simp [optionalValue, vectorValue, voidOr, hv, hx, flatten]

/-- `~(*p)` is `*p`. -/
theorem C21_maybe_zero_or_more (C : Ctx α β) (p : Parser α) (s : Span) :
    Parse C (maybeOp (.zeroOrMore p)) s = mapVal flatten (Parse C (.maybe (.zeroOrMore p)) s) := by
  refine Parse_rewritten (m := repeatAll (stepOf (Parse C p)) s) (r := fun x => x.2)
    (g := fun x => optionalValue (resultFor C (.zeroOrMore p)) (some (vectorValue (resultFor C p) x.1)))
    (h := fun x => vectorValue (resultFor C p) x.1) ?_ (Parse_zeroOrMore_eq p s) fun x => ?_
  · rw [Parse_maybe_eq, Parse_zeroOrMore_eq, M.bind_assoc]
    exact M.bind_congr fun r => by rw [M.pure_bind]
  · rw [resultFor]
    by_cases hv : resultFor C p = .void <;> simp [optionalValue, vectorValue, voidOr, hv, flatten]

/-- the repetition of `+p`: one round at most, then `p` fails once more -/
theorem repeat_oneOrMore (C : Ctx α β) (p : Parser α) (s : Span) :
    repeatAll (stepOf (Parse C (.oneOrMore p))) s =
      M.bind (repeatAll (stepOf (Parse C p)) s) fun x =>
        if x.1 = [] then M.pure ([], x.2)
        else M.bind (Parse C p x.2) fun _ => M.pure ([vectorValue (resultFor C p) x.1], x.2) := by
  rw [repeatAll_eq, stepOf, Parse_oneOrMore_eq, M.bind_assoc, M.bind_assoc]
  refine M.bind_congr' fun l x hx => ?_
  obtain ⟨vs, s1⟩ := x
  rw [M.pure_bind]
  obtain ⟨l1, l2, hc, hn, rfl⟩ := repeatAll_ok.1 hx
  obtain ⟨s2, hf⟩ := stepOf_none.1 hn
  cases Parse_failsBack p _ _ _ hf
  cases hc with
  | nil => simp [M.pure_bind]
  | cons hx ht =>
    simp only [reduceCtorEq, ↓reduceIte, Option.map_some, M.pure_bind]
    have h0 : repeatAll (stepOf (Parse C p)) s1 = .done l2 (.ok ([], s1)) :=
      repeatAll_ok.2 ⟨[], l2, .nil, hn, rfl⟩
    have h1 : repeatAll (stepOf (Parse C (.oneOrMore p))) s1 = .done l2 (.ok ([], s1)) := by
      refine repeatAll_ok.2 ⟨[], l2, .nil, stepOf_none.2 ⟨s1, ?_⟩, rfl⟩
      rw [Parse_oneOrMore_eq, h0]
      simp [M.pure]
    rw [h1, hf]
    rfl

/-- `*(+p)` is `*p`: the same verdict; the same value, flattened; the literal `*(+p)` only
runs `p` once more where it fails. -/
theorem C21_zero_or_more_one_or_more (C : Ctx α β) (p : Parser α) (s : Span) :
    parseVerdict C (zeroOrMoreOp (.oneOrMore p)) s = parseVerdict C (.zeroOrMore (.oneOrMore p)) s ∧
    ∀ log w s', Parses C (.zeroOrMore (.oneOrMore p)) s log w s' →
      ∃ l l', Parses C (zeroOrMoreOp (.oneOrMore p)) s l (flatten w) s' ∧ log = l ++ l' ∧
        (l' = [] ∨ ParseFails C p s' l' s') := by
  have hT : resultFor C (.oneOrMore p) = voidOr .vec (resultFor C p) := by rw [resultFor]
  constructor
  · show parseVerdict C (.zeroOrMore p) s = _
    rw [parseVerdict_zeroOrMore, parseVerdict_zeroOrMore, repeat_oneOrMore]
    cases hr : repeatAll (stepOf (Parse C p)) s with
    | diverge => rfl
    | done l r =>
      cases r with
      | err e => rfl
      | ok x =>
        obtain ⟨vs, s1⟩ := x
        obtain ⟨l1, l2, hc, hn, rfl⟩ := repeatAll_ok.1 hr
        obtain ⟨s2, hf⟩ := stepOf_none.1 hn
        simp only [M.ok_bind]
        rw [bareV_after]
        split
        · rfl
        · rw [hf, M.ok_bind]; rfl
  · intro log w s' h
    rw [Parses, Parse_zeroOrMore_eq, repeat_oneOrMore, M.bind_assoc, M.bind_eq_ok] at h
    obtain ⟨l1, l2, ⟨vs, s1⟩, h1, h2, rfl⟩ := h
    have hz := Parse_zeroOrMore_eq (C := C) p s
    rw [h1] at hz
    obtain ⟨k1, k2, hc, hn, rfl⟩ := repeatAll_ok.1 h1
    obtain ⟨s2, hf⟩ := stepOf_none.1 hn
    cases Parse_failsBack p _ _ _ hf
    simp only at h2
    split at h2
    · next he =>
      subst he
      rw [M.pure_bind] at h2
      simp only [M.pure_eq_ok, R.mk.injEq, Option.some.injEq] at h2
      obtain ⟨rfl, rfl, rfl⟩ := h2
      refine ⟨_, [], ?_, rfl, .inl rfl⟩
      show Parse C (.zeroOrMore p) s = _
      rw [hz]
      by_cases hv : resultFor C p = .void <;> simp [hT, voidOr, vectorValue, flatten, hv, M.pure]
    · next he =>
      rw [hf, M.bind_assoc, M.ok_bind, M.pure_bind] at h2
      simp only [M.pure, M.after_done, List.append_nil, M.done.injEq, Res.ok.injEq, R.mk.injEq,
        Option.some.injEq] at h2
      obtain ⟨rfl, rfl, rfl⟩ := h2
      refine ⟨_, k2, ?_, rfl, .inr hf⟩
      show Parse C (.zeroOrMore p) s = _
      rw [hz]
      by_cases hv : resultFor C p = .void <;> simp [hT, voidOr, vectorValue, flatten, hv, M.pure]

/-- `+(+p)` is `+p`, likewise. -/
theorem C21_one_or_more_one_or_more (C : Ctx α β) (p : Parser α) (s : Span) :
    parseVerdict C (oneOrMoreOp (.oneOrMore p)) s = parseVerdict C (.oneOrMore (.oneOrMore p)) s ∧
    ∀ log w s', Parses C (.oneOrMore (.oneOrMore p)) s log w s' →
      ∃ l l', Parses C (oneOrMoreOp (.oneOrMore p)) s l (flatten w) s' ∧ log = l ++ l' ∧
        ParseFails C p s' l' s' := by
  have hT : resultFor C (.oneOrMore p) = voidOr .vec (resultFor C p) := by rw [resultFor]
  constructor
  · show parseVerdict C (.oneOrMore p) s = _
    rw [parseVerdict, parseVerdict, Parse_oneOrMore_eq (.oneOrMore p), Parse_oneOrMore_eq, repeat_oneOrMore,
      M.bind_assoc]
    cases hr : repeatAll (stepOf (Parse C p)) s with
    | diverge => rfl
    | done l r =>
      cases r with
      | err e => rfl
      | ok x =>
        obtain ⟨vs, s1⟩ := x
        obtain ⟨l1, l2, hc, hn, rfl⟩ := repeatAll_ok.1 hr
        obtain ⟨s2, hf⟩ := stepOf_none.1 hn
        rw [verdict_bind_ok, verdict_bind_ok]
        simp only
        split
        · rw [M.pure_bind]; rfl
        · rw [hf, M.bind_assoc, verdict_bind_ok, M.pure_bind]; rfl
  · intro log w s' h
    rw [Parses, Parse_oneOrMore_eq, repeat_oneOrMore, M.bind_assoc, M.bind_eq_ok] at h
    obtain ⟨l1, l2, ⟨vs, s1⟩, h1, h2, rfl⟩ := h
    have hz := Parse_oneOrMore_eq (C := C) p s
    rw [h1] at hz
    obtain ⟨k1, k2, hc, hn, rfl⟩ := repeatAll_ok.1 h1
    obtain ⟨s2, hf⟩ := stepOf_none.1 hn
    cases Parse_failsBack p _ _ _ hf
    simp only at h2
    split at h2
    · rw [M.pure_bind] at h2
      simp at h2
    · next he =>
      rw [hf, M.bind_assoc, M.ok_bind, M.pure_bind] at h2
      simp only [M.pure, M.after_done, List.append_nil, M.done.injEq, Res.ok.injEq, R.mk.injEq,
        Option.some.injEq, reduceCtorEq, ↓reduceIte] at h2
      obtain ⟨rfl, rfl, rfl⟩ := h2
      refine ⟨_, k2, ?_, rfl, hf⟩
      show Parse C (.oneOrMore p) s = _
      rw [hz]
      by_cases hv : resultFor C p = .void <;> simp [hT, voidOr, vectorValue, flatten, hv, he, M.pure]

-- the literal *(+"a") on "aab" has the value [[a, a]]
example : Parses (Ex.ctx "aab") (.zeroOrMore (.oneOrMore (Ex.all "a"))) (Ex.input "aab") []
      (.vec [.vec [.span ⟨.at 0 0, 1⟩, .span ⟨.at 0 1, 1⟩]]) ⟨.at 0 2, 1⟩ ∧
    Parses (Ex.ctx "aab") (zeroOrMoreOp (oneOrMoreOp (Ex.all "a"))) (Ex.input "aab") []
      (.vec [.span ⟨.at 0 0, 1⟩, .span ⟨.at 0 1, 1⟩]) ⟨.at 0 2, 1⟩ := ⟨Ex.parses _ 7 rfl, Ex.parses _ 7 rfl⟩
example : Parses (Ex.ctx "b") (.maybe (.oneOrMore (Ex.all "a"))) (Ex.input "b") [] (.opt none) (Ex.input "b") ∧
    Parses (Ex.ctx "b") (maybeOp (oneOrMoreOp (Ex.all "a"))) (Ex.input "b") [] (.vec []) (Ex.input "b") :=
  ⟨Ex.parses _ 7 rfl, Ex.parses _ 7 rfl⟩

/-! ## C22 Endless loops removed -/

/-- The repetition of something that cannot fail does not return normally. -/
theorem repeat_no_return {run : Span → Run R} (h : ∀ s l s', run s ≠ .done l (.ok ⟨none, s'⟩)) (s : Span)
    (l : List Call) (x : List Val × Span) : repeatAll (stepOf run) s ≠ .done l (.ok x) := by
  obtain ⟨vs, s'⟩ := x
  intro hr
  obtain ⟨_, _, _, hn, _⟩ := repeatAll_ok.1 hr
  obtain ⟨_, hf⟩ := stepOf_none.1 hn
  exact h _ _ _ hf

/-- Neither `parse` nor `lookahead` of `+p` and `*p` returns normally if `p` cannot fail. -/
theorem no_return {C : Ctx α β} {p : Parser α} (hp : ∀ s l s', ¬ ParseFails C p s l s')
    (hl : ∀ s l s', ¬ LookFails C p s l s') (s : Span) (log : List Call) (r : R) :
    Parse C (.oneOrMore p) s ≠ .done log (.ok r) ∧ Look C (.oneOrMore p) s ≠ .done log (.ok r) ∧
    Parse C (.zeroOrMore p) s ≠ .done log (.ok r) ∧ Look C (.zeroOrMore p) s ≠ .done log (.ok r) := by
  rw [Parse_oneOrMore_eq, Parse_zeroOrMore_eq, Look_oneOrMore_eq, Look_zeroOrMore_eq]
  refine ⟨?_, ?_, ?_, ?_⟩ <;>
  · intro h
    obtain ⟨l1, l2, x, h1, _⟩ := M.bind_eq_ok.1 h
    first
    | exact repeat_no_return hp _ _ _ h1
    | exact repeat_no_return hl _ _ _ h1

/-- The literal `+(~p)`, `*(~p)`, `+(*p)`, `*(*p)` never return normally. -/
theorem C22_endless (C : Ctx α β) (p q : Parser α) (hq : q = .maybe p ∨ q = .zeroOrMore p) (s : Span)
    (log : List Call) (r : R) :
    Parse C (.oneOrMore q) s ≠ .done log (.ok r) ∧ Look C (.oneOrMore q) s ≠ .done log (.ok r) ∧
    Parse C (.zeroOrMore q) s ≠ .done log (.ok r) ∧ Look C (.zeroOrMore q) s ≠ .done log (.ok r) := by
  rcases hq with rfl | rfl
  · exact no_return (fun s l s' => (C18_maybe C p s s' l).2.1) (fun s l s' => (C18_lookahead C p s s' l).2.1) s log r
  · exact no_return (fun s l s' => (C19_zero_or_more C p s s' l).2.1)
      (fun s l s' => (C19_lookahead C p s s' l).2.1) s log r

/-- The operators build `*p` instead. -/
theorem C22_operators (p : Parser α) :
    oneOrMoreOp (.maybe p) = .zeroOrMore p ∧ zeroOrMoreOp (.maybe p) = .zeroOrMore p ∧
    oneOrMoreOp (.zeroOrMore p) = .zeroOrMore p ∧ zeroOrMoreOp (.zeroOrMore p) = .zeroOrMore p :=
  ⟨rfl, rfl, rfl, rfl⟩

/-- No operator introduces one of the four: operands that contain none give results that
contain none. -/
theorem C22_never_built [LinearOrder α] (p q : Parser α) (hp : p.noEndless = true) (hq : q.noEndless = true) :
    (maybeOp p).noEndless = true ∧ (oneOrMoreOp p).noEndless = true ∧ (zeroOrMoreOp p).noEndless = true ∧
    (choiceOp p q).noEndless = true ∧ (sequenceOp p q).noEndless = true ∧
    (∀ r, notOp p = some r → r.noEndless = true) ∧ (orEps p).noEndless = true := by
  have hch : ∀ p q : Parser α, p.noEndless = true → q.noEndless = true → (choiceOp p q).noEndless = true := by
    intro p q hp hq
    have h := choiceOp_case p q
    generalize hr : choiceOp p q = r at h
    cases h with
    | cls h1 h2 =>
      cases p with
      | anyOf l =>
        cases q with
        | anyOf r => rw [choiceOp]; split <;> rfl
        | noneOf r => rw [choiceOp]; split <;> rfl
        | _ => exact h2.elim
      | noneOf l =>
        cases q with
        | anyOf r => rw [choiceOp]; split <;> rfl
        | noneOf r => rw [choiceOp]; split <;> rfl
        | _ => exact h2.elim
      | _ => exact h1.elim
    | same => exact hp
    | both h1 h2 => subst h1 h2; simp_all [Parser.noEndless, noEndlesses_append]
    | left h1 => subst h1; simp_all [Parser.noEndless, noEndlesses_append, Parser.noEndlesses]
    | right h1 => subst h1; simp_all [Parser.noEndless, Parser.noEndlesses]
    | plain => simp_all [Parser.noEndless, Parser.noEndlesses]
  refine ⟨?_, ?_, ?_, hch p q hp hq, ?_, ?_, hch p .epsilon hp rfl⟩
  · cases p <;> simp_all [maybeOp, Parser.noEndless, Parser.neverFails]
  · cases p <;> simp_all [oneOrMoreOp, Parser.noEndless, Parser.neverFails]
  · cases p <;> simp_all [zeroOrMoreOp, Parser.noEndless, Parser.neverFails]
  · have h := sequenceOp_case p q
    generalize hr : sequenceOp p q = r at h
    cases h with
    | lit => rfl
    | both h1 h2 => subst h1 h2; simp_all [Parser.noEndless, noEndlesses_append]
    | left h1 => subst h1; simp_all [Parser.noEndless, noEndlesses_append, Parser.noEndlesses]
    | right h1 => subst h1; simp_all [Parser.noEndless, Parser.noEndlesses]
    | plain => simp_all [Parser.noEndless, Parser.noEndlesses]
  · intro r hr
    cases p <;> simp_all [notOp] <;> subst hr <;> rfl

/-- Names defeat the simplification: `+(named(~p))` is not rewritten and never returns
normally. -/
theorem C22_name_defeats (C : Ctx α β) (p : Parser α) (n : Name) (s : Span) (log : List Call) (r : R) :
    oneOrMoreOp (.named (.maybe p) n) = .oneOrMore (.named (.maybe p) n) ∧
    Parse C (oneOrMoreOp (.named (.maybe p) n)) s ≠ .done log (.ok r) := by
  refine ⟨rfl, (no_return (p := .named (.maybe p) n) (fun s l s' => ?_) (fun s l s' => ?_) s log r).1⟩
  · rw [ParseFails, Parse_named]; exact (C18_maybe C p s s' l).2.1
  · rw [LookFails, Look_named]; exact (C18_lookahead C p s s' l).2.1

-- `sub` can build the literal `+(~"a")` as well, since substituting a name drops it:
-- `+((~"a") % name<'n'>) % sub(name<'n'> = sub(name<'m'> = ignore))`
example : subApi (oneOrMoreOp (.named (maybeOp (Ex.all "a")) ⟨0, [1]⟩)) [(⟨0, [1]⟩, .subInner [(⟨0, [2]⟩, .ignore)])] =
    some (.oneOrMore (.maybe (Ex.all "a"))) := rfl

/-! ## C40 Unproductive repetition -/

/-- If the repetition reaches a position where its body succeeds without consuming anything,
it never returns: neither does it stop there, nor fail, nor skip. -/
theorem C40_repetition (C : Ctx α β) (p : Parser α) (n : Nat) (s s1 : Span) (l l1 : List Call) (vs : List Val) (v : Val)
    (hr : InTurn (List.replicate n (Parse C p)) s l vs s1) (hp : Parses C p s1 l1 v s1) :
    ParseLoops C (.zeroOrMore p) s ∧ ParseLoops C (.oneOrMore p) s := by
  have hn := hr.length
  simp only [List.length_replicate] at hn
  subst hn
  have h := repeatAll_stuck (chain_inTurn.2 hr) (stepOf_some.2 hp)
  rw [ParseLoops, ParseLoops, Parse_zeroOrMore_eq, Parse_oneOrMore_eq, h]
  exact ⟨rfl, rfl⟩

theorem C40_lookahead (C : Ctx α β) (p : Parser α) (n : Nat) (s s1 : Span) (l l1 : List Call) (vs : List Val)
    (hr : InTurn (List.replicate n (Look C p)) s l vs s1) (hp : Looks C p s1 l1 s1) :
    LookLoops C (.zeroOrMore p) s ∧ LookLoops C (.oneOrMore p) s := by
  have hn := hr.length
  simp only [List.length_replicate] at hn
  subst hn
  have h := repeatAll_stuck (chain_inTurn.2 hr) (stepOf_some.2 hp)
  rw [LookLoops, LookLoops, Look_zeroOrMore_eq, Look_oneOrMore_eq, h]
  exact ⟨rfl, rfl⟩

/-- Likewise for a delimiter and an element that together consume nothing. -/
theorem C40_delimit (C : Ctx α β) (p d : Parser α) (s s1 s2 : Span) (l l1 l2 : List Call) (vs ds : List Val)
    (v w : Val) (hr : Delimited (Parse C p) (Parse C d) s l vs ds s1) (hd : Parses C d s1 l1 v s2)
    (hp : Parses C p s2 l2 w s1) : ParseLoops C (delimitKeepApi p d) s := by
  obtain ⟨k1, k2, u, xs, s0, h1, hc, -, -, -⟩ := delimited_chain.1 hr
  have h := repeatAll_stuck hc (stepPair_some.2 ⟨_, _, _, hd, hp, rfl⟩)
  show Parse C (.delimit p d) s = _
  rw [Parse_delimit_eq, h1]
  simp only [M.ok_bind]
  rw [h]
  rfl

-- the literal +(~"a") on "aab" does not end, what the operators build does
example : ParseLoops (Ex.ctx "aab") (.oneOrMore (.maybe (Ex.all "a"))) (Ex.input "aab") ∧
    Parses (Ex.ctx "aab") (oneOrMoreOp (maybeOp (Ex.all "a"))) (Ex.input "aab") []
      (.vec [.span ⟨.at 0 0, 1⟩, .span ⟨.at 0 1, 1⟩]) ⟨.at 0 2, 1⟩ := by
  have h : InTurn (List.replicate 2 (Parse (Ex.ctx "aab") (.maybe (Ex.all "a")))) (Ex.input "aab") []
      [.opt (some (.span ⟨.at 0 0, 1⟩)), .opt (some (.span ⟨.at 0 1, 1⟩))] ⟨.at 0 2, 1⟩ :=
    .cons (l := []) (s' := ⟨.at 0 1, 2⟩) (Ex.parses _ 5 rfl) (.cons (l := []) (Ex.parses _ 5 rfl) .nil)
  exact ⟨(C40_repetition _ _ 2 _ _ [] [] _ (.opt none) h (Ex.parses _ 5 rfl)).2, Ex.parses _ 7 rfl⟩
-- "a" % delimit(~",") on "a": nothing is consumed, again and again
example : ParseLoops (Ex.ctx "a") (.delimit (.maybe (Ex.all "b")) (.maybe (Ex.all ","))) (Ex.input "a") :=
  C40_delimit _ _ _ _ (Ex.input "a") (Ex.input "a") [] [] [] _ _ _ _ (.one (Ex.parses _ 5 rfl)) (Ex.parses _ 5 rfl)
    (Ex.parses _ 5 rfl)

/-! ## C23 exactly -/

/-- `exactly<N>(p)` succeeds exactly if `p` succeeds `N` times in a row; the value is the
array of the values in order.  It fails exactly if `p` fails after fewer than `N` successes;
then the input is untouched. -/
theorem C23_exactly [LinearOrder α] (C : Ctx α β) (p : Parser α) (N : Nat) (hc : Compiles C (.exactly p N))
    (s s' : Span) (log : List Call) :
    (∀ w, Parses C (.exactly p N) s log w s' ↔
      ∃ vs, InTurn (List.replicate N (Parse C p)) s log vs s' ∧ w = arrayValue (resultFor C p) vs) ∧
    (ParseFails C (.exactly p N) s log s' ↔ s' = s ∧
      ∃ n l l' vs s1, n < N ∧ InTurn (List.replicate n (Parse C p)) s l vs s1 ∧ ParseFails C p s1 l' s1 ∧
        log = l ++ l') := by
  constructor
  · intro w
    rw [Parses, Parse_exactly_eq hc.parse, allOrNothing_some]
    exact exists_congr fun vs => by rw [inOrder_some]
  · rw [ParseFails, Parse_exactly_eq hc.parse, allOrNothing_none, inOrder_none]
    refine and_congr_right fun _ => ?_
    constructor
    · rintro ⟨before, m, after, l, l', vs, s1, s2, he, hi, hm, rfl⟩
      obtain ⟨hlen, hb, hma⟩ := List.append_eq_replicate_iff.1 he.symm
      have hm' : m = Parse C p := by
        have : m ∈ List.replicate N (Parse C p) := by rw [he]; simp
        exact (List.mem_replicate.1 this).2
      subst hm'
      cases Parse_failsBack p _ _ _ hm
      rw [hb] at hi
      exact ⟨before.length, l, l', vs, _, by simp at hlen; omega, hi, hm, rfl⟩
    · rintro ⟨n, l, l', vs, s1, hn, hi, hm, rfl⟩
      refine ⟨List.replicate n (Parse C p), Parse C p, List.replicate (N - n - 1) (Parse C p), l, l', vs, s1, s1, ?_,
        hi, hm, rfl⟩
      rw [← List.replicate_succ, List.replicate_append_replicate]
      congr 1; omega

/-- It accepts (rejects, throws, loops) exactly as `N` times `p` one after the other, and as
the sequence `p >> … >> p` (a part without value being looked ahead exactly). -/
theorem C23_sequence [LinearOrder α] (C : Ctx α β) (p : Parser α) (N : Nat) (hc : Compiles C (.exactly p N))
    (s : Span) :
    parseVerdict C (.exactly p N) s = andThens (List.replicate N (parseVerdict C p)) s ∧
    lookVerdict C (.exactly p N) s = andThens (List.replicate N (lookVerdict C p)) s ∧
    lookVerdict C (.sequence (List.replicate N p)) s = lookVerdict C (.exactly p N) s ∧
    (Compiles C (.sequence (List.replicate N p)) → (resultFor C p = .void → LookaheadExact C p) →
      parseVerdict C (.sequence (List.replicate N p)) s = parseVerdict C (.exactly p N) s) := by
  have h1 : parseVerdict C (.exactly p N) s = andThens (List.replicate N (parseVerdict C p)) s := by
    rw [parseVerdict, Parse_exactly_eq hc.parse, verdict_inOrder, List.map_replicate]; rfl
  have h2 : lookVerdict C (.exactly p N) s = andThens (List.replicate N (lookVerdict C p)) s := by
    rw [lookVerdict, Look_exactly_eq, verdict_inOrder, List.map_replicate]; rfl
  refine ⟨h1, h2, ?_, fun hs hv => ?_⟩
  · rw [h2, lookVerdict_sequence, List.map_replicate]
  · rw [h1, C15_parts_parse C _ hs, List.map_replicate]
    intro q hq
    rw [(List.mem_replicate.1 hq).2]
    exact hv

/-- The type: an array of `N` values of `p`. -/
theorem C23_type (C : Ctx α β) (p : Parser α) (N : Nat) (h : resultFor C p ≠ .void) :
    resultFor C (.exactly p N) = .arr (resultFor C p) N := by
  rw [resultFor, voidOr, if_neg h]

example : let p := Parser.exactly (.map (Ex.any "ab") (.user 0)) 2
    Compiles (Ex.ctx "abc") p ∧
    Parses (Ex.ctx "abc") p (Ex.input "abc")
      [⟨.user 0, [.span ⟨.at 0 0, 1⟩]⟩, ⟨.user 0, [.span ⟨.at 0 1, 1⟩]⟩]
      (.arr [.user 0 0 [.span ⟨.at 0 0, 1⟩], .user 0 0 [.span ⟨.at 0 1, 1⟩]]) ⟨.at 0 2, 1⟩ ∧
    ParseFails (Ex.ctx "acb") p (Ex.input "acb") [⟨.user 0, [.span ⟨.at 0 0, 1⟩]⟩] (Ex.input "acb") :=
  ⟨⟨Ex.ctx_ok _, rfl, rfl, rfl⟩, Ex.parses _ 6 rfl, Ex.parses _ 6 rfl⟩

-- as for C20, a filter without value tells `exactly<2>(p)` from `p >> p`
example : let p := Parser.filter (.ignore (Ex.all "a")) (.user 2)
    Compiles (Ex.ctx "aa") (.exactly p 2) ∧ Compiles (Ex.ctx "aa") (.sequence [p, p]) ∧
    ParseFails (Ex.ctx "aa") (.exactly p 2) (Ex.input "aa") [⟨.user 2, []⟩] (Ex.input "aa") ∧
    Parses (Ex.ctx "aa") (.sequence [p, p]) (Ex.input "aa") [] .unit ⟨.at 0 2, 0⟩ :=
  ⟨⟨Ex.ctx_ok _, rfl, rfl, rfl⟩, ⟨Ex.ctx_ok _, rfl, rfl, rfl⟩, Ex.parses _ 6 rfl, Ex.parses _ 6 rfl⟩

/-! ## C24 delimit -/

/-- the outcomes of `delimit_parser<P, D>` -/
theorem delimit_outcome (C : Ctx α β) (p d : Parser α) (s s' : Span) (log : List Call) :
    (∀ w, Parses C (.delimit p d) s log w s' ↔
      ∃ l vs ds, Delimited (Parse C p) (Parse C d) s l vs ds s' ∧
        ∃ l', NoMore (Parse C p) (Parse C d) s' l' ∧ log = l ++ l' ∧
          w = delimitValue (resultFor C p) (resultFor C d) vs ds) ∧
    (ParseFails C (.delimit p d) s log s' ↔ ParseFails C p s log s') := by
  constructor
  · intro w
    rw [Parses, Parse_delimit_eq, M.bind_eq_ok]
    constructor
    · rintro ⟨l1, l2, ⟨rv, rr⟩, h1, h2, rfl⟩
      cases rv with
      | none => simp at h2
      | some v =>
        simp only at h2
        rw [M.bind_eq_ok] at h2
        obtain ⟨l3, l4, ⟨xs, s2⟩, h3, h4, rfl⟩ := h2
        simp only [M.pure_eq_ok, R.mk.injEq, Option.some.injEq] at h4
        obtain ⟨rfl, rfl, rfl⟩ := h4
        obtain ⟨l5, l6, hc, hn, rfl⟩ := repeatAll_ok.1 h3
        exact ⟨l1 ++ l5, _, _, delimited_chain.2 ⟨_, _, _, _, _, h1, hc, rfl, rfl, rfl⟩, l6, stepPair_none.1 hn,
          by simp, rfl⟩
    · rintro ⟨l, vs, ds, hD, l', hn, rfl, rfl⟩
      obtain ⟨l1, l2, v, xs, s1, h1, hc, rfl, rfl, rfl⟩ := delimited_chain.1 hD
      refine ⟨l1, l2 ++ l', _, h1, ?_, by simp⟩
      simp only
      rw [repeatAll_ok.2 ⟨l2, l', hc, stepPair_none.2 hn, rfl⟩]
      simp [M.pure]
  · rw [ParseFails, Parse_delimit_eq, M.bind_eq_ok]
    constructor
    · rintro ⟨l1, l2, ⟨rv, rr⟩, h1, h2, rfl⟩
      cases rv with
      | none =>
        simp only [M.pure_eq_ok, R.mk.injEq, true_and] at h2
        obtain ⟨rfl, rfl⟩ := h2
        cases Parse_failsBack p _ _ _ h1
        simpa [ParseFails] using h1
      | some v =>
        simp only at h2
        rw [M.bind_eq_ok] at h2
        obtain ⟨l3, l4, x, h3, h4, rfl⟩ := h2
        simp at h4
    · intro h
      cases Parse_failsBack p _ _ _ h
      exact ⟨log, [], _, h, rfl, by simp⟩

/-- `delimit(p, d)` succeeds with the vector of all values of `p`, where `p` is followed by
as many `d`, `p` as possible; the delimiters are only looked ahead.  It fails exactly if `p`
fails.  For all parsers. -/
theorem C24_delimit (C : Ctx α β) (p d : Parser α) (s s' : Span) (log : List Call) :
    (∀ w, Parses C (delimitApi p d) s log w s' ↔
      ∃ l vs ds, Delimited (Parse C p) (Look C d) s l vs ds s' ∧
        ∃ l', NoMore (Parse C p) (Look C d) s' l' ∧ log = l ++ l' ∧ w = vectorValue (resultFor C p) vs) ∧
    (ParseFails C (delimitApi p d) s log s' ↔ ParseFails C p s log s') := by
  have h := delimit_outcome C p (.ignore d) s s' log
  have hi : Parse C (.ignore d) = Look C d := funext fun s => Parse_ignore s d
  have hT : resultFor C (.ignore d) = .void := by rw [resultFor]
  rw [hi, hT] at h
  exact h

/-- For a `p` with a value: the run of `delimit(p, d)` is that of `p >> *(ignore(d) >> p)`,
the value put into one vector. -/
theorem C24_sequence [LinearOrder α] (C : Ctx α β) (p d : Parser α)
    (hc : Compiles C (.sequence [p, .zeroOrMore (.sequence [.ignore d, p])])) (hp : resultFor C p ≠ .void) (s : Span) :
    Parse C (delimitApi p d) s =
      mapVal (fun | .tup [v, .vec vs] => .vec (v :: vs) | v => v)
        (Parse C (.sequence [p, .zeroOrMore (.sequence [.ignore d, p])]) s) := by
  have hi : resultFor C (.ignore d) = .void := by rw [resultFor]
  have hq : resultFor C (.sequence [.ignore d, p]) = resultFor C p := by
    simp [resultFor_sequence, resultsFor, hi, sequenceType, hp, tupleType]
  have hz : resultFor C (.zeroOrMore (.sequence [.ignore d, p])) = .vec (resultFor C p) := by
    rw [resultFor, hq, voidOr, if_neg hp]
  have hzp := parseOK_part hc.parse (p := .zeroOrMore (.sequence [.ignore d, p])) (by simp) (by simp [hz])
  have hqp : parseOK C (.sequence [.ignore d, p]) = true := by
    rw [parseOK] at hzp; simp_all
  obtain ⟨d1, hd1⟩ := defaultVal_sequence hc.parse
  obtain ⟨d2, hd2⟩ := defaultVal_sequence hqp
  have hpi : ∀ s, partRun C (.ignore d) s = Look C d s := fun s => by rw [partRun, if_pos hi, Look_ignore]
  have hpp : ∀ s, partRun C p s = Parse C p s := fun s => by rw [partRun, if_neg hp]
  have hpz : ∀ s, partRun C (.zeroOrMore (.sequence [.ignore d, p])) s =
      Parse C (.zeroOrMore (.sequence [.ignore d, p])) s := fun s => by rw [partRun, if_neg (by simp [hz])]
  -- the step of the repetition
  have hstep : ∀ s, stepOf (Parse C (.sequence [.ignore d, p])) s =
      M.bind (stepPair (Look C d) (Parse C p) s) fun o => M.pure (o.map fun x => (x.1.2, x.2)) := by
    intro s
    rw [stepOf, Parse_sequence_eq hd2, stepPair, allOrNothing]
    simp only [List.map_cons, List.map_nil, inOrder, hpi, hpp, M.bind_assoc]
    refine M.bind_congr fun r => ?_
    obtain ⟨rv, rr⟩ := r
    cases rv with
    | none => simp
    | some v =>
      simp only [M.bind_assoc]
      refine M.bind_congr fun r => ?_
      obtain ⟨rv, rr⟩ := r
      cases rv with
      | none => simp
      | some w => simp [resultsFor, hi, hp, withValue, sequenceValue]
  show Parse C (.delimit p (.ignore d)) s = _
  rw [Parse_delimit_eq, Parse_sequence_eq hd1, allOrNothing, mapVal]
  simp only [List.map_cons, List.map_nil, inOrder, hpz, hpp, M.bind_assoc]
  have hig : Parse C (.ignore d) = Look C d := funext fun s => Parse_ignore s d
  rw [hig]
  refine M.bind_congr fun r => ?_
  obtain ⟨rv, rr⟩ := r
  cases rv with
  | none => simp
  | some v =>
    simp only [Parse_zeroOrMore_eq, M.bind_assoc]
    rw [repeatAll_map hstep, M.bind_assoc]
    refine M.bind_congr fun x => ?_
    simp [resultsFor, hi, hp, hz, hq, withValue, sequenceValue, delimitValue, vectorValue]

/-- In all cases: it accepts, rejects, throws and loops exactly where `p >> *(ignore(d) >> p)`
does, and leaves the same input (a `p` without value being looked ahead exactly). -/
theorem C24_verdict [LinearOrder α] (C : Ctx α β) (p d : Parser α)
    (hc : Compiles C (.sequence [p, .zeroOrMore (.sequence [.ignore d, p])])) (s : Span) :
    ((resultFor C p = .void → LookaheadExact C p) →
      parseVerdict C (delimitApi p d) s = parseVerdict C (.sequence [p, .zeroOrMore (.sequence [.ignore d, p])]) s) ∧
    lookVerdict C (delimitApi p d) s = lookVerdict C (.sequence [p, .zeroOrMore (.sequence [.ignore d, p])]) s := by
  have hi : resultFor C (.ignore d) = .void := by rw [resultFor]
  have hT : resultFor C (.zeroOrMore (.sequence [.ignore d, p])) = .void ↔
      resultFor C (.sequence [.ignore d, p]) = .void := by
    generalize Parser.sequence [.ignore d, p] = q
    rw [resultFor, voidOr]; split <;> simp_all
  constructor
  · intro hx
    have hqp : resultFor C (.sequence [.ignore d, p]) ≠ .void → parseOK C (.sequence [.ignore d, p]) = true := by
      intro h
      have hzp := parseOK_part hc.parse (p := .zeroOrMore (.sequence [.ignore d, p])) (by simp) (mt hT.1 h)
      rw [parseOK] at hzp; simp_all
    rw [parseVerdict_sequence hc.parse]
    show parseVerdict C (.delimit p (.ignore d)) s = andThens [_, _] s
    rw [andThens_pair, parseVerdict_delimit, partVerdict_exact hx]
    congr 1
    funext s
    rw [partVerdict_zeroOrMore]
    refine bareV_repeatAll (I := fun _ => True) (fun s _ => ?_) (fun _ _ _ _ => trivial) trivial
    rw [stepV_stepPair, stepV_stepOf]
    show _ = partVerdict C _ s
    rw [partVerdict_sequence hqp]
    show _ = andThens [_, _] s
    rw [andThens_pair, partVerdict_look hi, lookVerdict, Look_ignore, Parse_ignore]
    congr 1
    funext s
    exact (partVerdict_exact hx s).symm
  · rw [lookVerdict_sequence]
    show lookVerdict C (.delimit p (.ignore d)) s = andThens [_, _] s
    rw [andThens_pair, lookVerdict_delimit]
    congr 1
    funext s
    rw [lookVerdict_zeroOrMore]
    refine bareV_repeatAll (I := fun _ => True) (fun s _ => ?_) (fun _ _ _ _ => trivial) trivial
    rw [stepV_stepPair, stepV_stepOf]
    show _ = lookVerdict C _ s
    rw [lookVerdict_sequence]
    exact (andThens_pair (lookVerdict C (.ignore d)) (lookVerdict C p) s).symm

/-- The same for the expression the operators build. -/
theorem C24_operators [LinearOrder α] (C : Ctx α β) (p d : Parser α)
    (hc : Compiles C (.sequence [p, .zeroOrMore (.sequence [.ignore d, p])]))
    (hq : Compiles C (.sequence [.ignore d, p])) (hq' : Compiles C (sequenceOp (.ignore d) p))
    (hr : Compiles C (.sequence [p, zeroOrMoreOp (sequenceOp (.ignore d) p)]))
    (hr' : Compiles C (sequenceOp p (zeroOrMoreOp (sequenceOp (.ignore d) p)))) (s : Span) (hs : s.Valid C.mem) :
    ((resultFor C p = .void → LookaheadExact C p) →
      parseVerdict C (delimitApi p d) s =
        parseVerdict C (sequenceOp p (zeroOrMoreOp (sequenceOp (.ignore d) p))) s) ∧
    lookVerdict C (delimitApi p d) s = lookVerdict C (sequenceOp p (zeroOrMoreOp (sequenceOp (.ignore d) p))) s := by
  have hz : zeroOrMoreOp (sequenceOp (.ignore d) p) = .zeroOrMore (sequenceOp (.ignore d) p) := by
    unfold sequenceOp; split <;> rfl
  rw [hz] at hr hr' ⊢
  have hi : resultFor C (.ignore d) = .void := by rw [resultFor]
  constructor
  · intro hx
    rw [(C16_flatten C _ _ hr hr' s hs).1, (C24_verdict C p d hc s).1 hx, parseVerdict_sequence hc.parse,
      parseVerdict_sequence hr.parse]
    show andThens [_, _] s = andThens [_, _] s
    rw [andThens_pair, andThens_pair]
    refine Verdict.andThen_congr fun s1 h1 => ?_
    rw [partVerdict_zeroOrMore, partVerdict_zeroOrMore]
    refine bareV_repeatAll (I := fun s => s.Valid C.mem) (fun s hs => ?_) (fun s s' hs h => ?_) (accept_valid hs h1)
    · rw [stepV_stepOf, stepV_stepOf]
      show partVerdict C _ s = partVerdict C _ s
      rw [partVerdict_sequence fun _ => hq.parse, partVerdict_sequenceOp hq.parse (fun _ => hq'.parse) hs]
      exact andThens_pair _ _ _
    · rw [stepV_stepOf] at h; exact accept_valid hs h
  · rw [(C16_flatten C _ _ hr hr' s hs).2, (C24_verdict C p d hc s).2, lookVerdict_sequence, lookVerdict_sequence]
    show andThens [_, _] s = andThens [_, _] s
    rw [andThens_pair, andThens_pair]
    refine Verdict.andThen_congr fun s1 h1 => ?_
    rw [lookVerdict_zeroOrMore, lookVerdict_zeroOrMore]
    refine bareV_repeatAll (I := fun s => s.Valid C.mem) (fun s hs => ?_) (fun s s' hs h => ?_) (look_accept_valid hs h1)
    · rw [stepV_stepOf, stepV_stepOf]
      show lookVerdict C _ s = lookVerdict C _ s
      rw [lookVerdict_sequence, lookVerdict_sequenceOp hs]
      exact andThens_pair _ _ _
    · rw [stepV_stepOf] at h; exact look_accept_valid hs h

-- "a" separated by ","; the last comma is not consumed
example : let p := Ex.all "a"; let d := Ex.all ","
    Compiles (Ex.ctx "a,a,") (.sequence [p, .zeroOrMore (.sequence [.ignore d, p])]) ∧
    Compiles (Ex.ctx "a,a,") (.sequence [.ignore d, p]) ∧ Compiles (Ex.ctx "a,a,") (sequenceOp (.ignore d) p) ∧
    Compiles (Ex.ctx "a,a,") (.sequence [p, zeroOrMoreOp (sequenceOp (.ignore d) p)]) ∧
    Compiles (Ex.ctx "a,a,") (sequenceOp p (zeroOrMoreOp (sequenceOp (.ignore d) p))) ∧
    Parses (Ex.ctx "a,a,") (delimitApi p d) (Ex.input "a,a,") [] (.vec [.span ⟨.at 0 0, 1⟩, .span ⟨.at 0 2, 1⟩])
      ⟨.at 0 3, 1⟩ :=
  ⟨⟨Ex.ctx_ok _, rfl, rfl, rfl⟩, ⟨Ex.ctx_ok _, rfl, rfl, rfl⟩, ⟨Ex.ctx_ok _, rfl, rfl, rfl⟩,
    ⟨Ex.ctx_ok _, rfl, rfl, rfl⟩, ⟨Ex.ctx_ok _, rfl, rfl, rfl⟩, Ex.parses _ 7 rfl⟩

-- as for C20, a filter without value tells `delimit(p, d)` from `p >> *(ignore(d) >> p)`
example : let p := Parser.filter (.ignore (Ex.all "a")) (.user 2); let d := Ex.all ","
    Compiles (Ex.ctx "a,a") (.sequence [p, .zeroOrMore (.sequence [.ignore d, p])]) ∧
    ParseFails (Ex.ctx "a,a") (delimitApi p d) (Ex.input "a,a") [⟨.user 2, []⟩] (Ex.input "a,a") ∧
    Parses (Ex.ctx "a,a") (.sequence [p, .zeroOrMore (.sequence [.ignore d, p])]) (Ex.input "a,a") [] .unit
      ⟨.at 0 3, 0⟩ :=
  ⟨⟨Ex.ctx_ok _, rfl, rfl, rfl⟩, Ex.parses _ 7 rfl, Ex.parses _ 7 rfl⟩

/-! ## C25 delimit_keep -/

/-- `delimit_keep(p, d)`: elements and delimiters alternate, both are kept.  There is at
least one element and exactly one more element than delimiters.  When the parse stops, what
follows is not a delimiter followed by an element, and neither is consumed. -/
theorem C25_delimit_keep (C : Ctx α β) (p d : Parser α) (hp : resultFor C p ≠ .void) (hd : resultFor C d ≠ .void)
    (s s' : Span) (log : List Call) :
    (∀ w, Parses C (delimitKeepApi p d) s log w s' ↔
      ∃ l l' vs ds, w = .pair (.vec vs) (.vec ds) ∧ Delimited (Parse C p) (Parse C d) s l vs ds s' ∧
        NoMore (Parse C p) (Parse C d) s' l' ∧ log = l ++ l') ∧
    (∀ vs ds, Parses C (delimitKeepApi p d) s log (.pair (.vec vs) (.vec ds)) s' → vs.length = ds.length + 1) ∧
    (ParseFails C (delimitKeepApi p d) s log s' ↔ ParseFails C p s log s') := by
  have h := delimit_outcome C p d s s' log
  have hv : ∀ vs ds, delimitValue (resultFor C p) (resultFor C d) vs ds = .pair (.vec vs) (.vec ds) := by
    intro vs ds; rw [delimitValue, if_neg hd, if_neg hp]
  have h1 : ∀ w, Parses C (delimitKeepApi p d) s log w s' ↔
      ∃ l l' vs ds, w = .pair (.vec vs) (.vec ds) ∧ Delimited (Parse C p) (Parse C d) s l vs ds s' ∧
        NoMore (Parse C p) (Parse C d) s' l' ∧ log = l ++ l' := by
    intro w
    refine (h.1 w).trans ?_
    simp only [hv]
    constructor
    · rintro ⟨l, vs, ds, a, l', b, c, e⟩; exact ⟨l, l', vs, ds, e, a, b, c⟩
    · rintro ⟨l, l', vs, ds, e, a, b, c⟩; exact ⟨l, vs, ds, a, l', b, c, e⟩
  refine ⟨h1, fun vs ds hw => ?_, h.2⟩
  obtain ⟨l, l', vs', ds', he, hD, -, -⟩ := (h1 _).1 hw
  cases he
  exact hD.length

/-- Delimiter `i` lies between the elements `i` and `i + 1`: it starts where the one stops
and stops where the other starts. -/
theorem C25_between (P D : Span → Run R) (s s' : Span) (log : List Call) (vs ds : List Val)
    (h : Delimited P D s log vs ds s') (i : Nat) (hi : i < ds.length) :
    ∃ (h1 : i < vs.length) (h2 : i + 1 < vs.length), ∃ a b c e la lb lc,
      P a = .done la (.ok ⟨some vs[i], b⟩) ∧ D b = .done lb (.ok ⟨some ds[i], c⟩) ∧
      P c = .done lc (.ok ⟨some vs[i + 1], e⟩) := by
  induction h generalizing i with
  | one h => simp at hi
  | @more s l v s1 l' d s2 log vs ds s' h1 h2 h3 ih =>
    have hlen := h3.length
    cases i with
    | zero =>
      refine ⟨by simp, by simp; omega, s, s1, s2, ?_⟩
      cases h3 with
      | one h => exact ⟨_, _, _, _, h1, h2, h⟩
      | more h _ _ => exact ⟨_, _, _, _, h1, h2, h⟩
    | succ i =>
      simp only [List.length_cons, Nat.add_lt_add_iff_right] at hi
      obtain ⟨a, b, h⟩ := ih i hi
      exact ⟨by simp; omega, by simp; omega, by simpa using h⟩

/-- The types. -/
theorem C25_type (C : Ctx α β) (p d : Parser α) (hp : resultFor C p ≠ .void) (hd : resultFor C d ≠ .void) :
    resultFor C (delimitKeepApi p d) = .pair (.vec (resultFor C p)) (.vec (resultFor C d)) ∧
    resultFor C (delimitApi p d) = .vec (resultFor C p) := by
  constructor
  · cases hx : resultFor C p <;> cases hy : resultFor C d <;> simp_all [delimitKeepApi, resultFor, delimitTy]
  · cases hx : resultFor C p <;> simp_all [delimitApi, resultFor, delimitTy]

-- "a" and "b" separated by "+" and "-"
example : let p := Ex.any "ab"; let d := Ex.any "+-"
    Parses (Ex.ctx "a+b-a-c") (delimitKeepApi p d) (Ex.input "a+b-a-c") []
      (.pair (.vec [.span ⟨.at 0 0, 1⟩, .span ⟨.at 0 2, 1⟩, .span ⟨.at 0 4, 1⟩])
        (.vec [.span ⟨.at 0 1, 1⟩, .span ⟨.at 0 3, 1⟩])) ⟨.at 0 5, 2⟩ ∧
    ParseFails (Ex.ctx "+b") (delimitKeepApi p d) (Ex.input "+b") [] (Ex.input "+b") :=
  ⟨Ex.parses _ 9 rfl, Ex.parses _ 9 rfl⟩

end Tok3n
