import Verif.Proof.Relaxed
import Verif.Proof.Join
import Verif.Proof.Modify
import Verif.Props.Sequence
import Verif.Model.Modifiers
/-
Properties C26–C29, C31, C32, C37, C38 and C41: ignore, complete, join, map, filter, the
modifiers made from them, custom parsers.
-/

namespace Tok3n

variable {α β : Type}

/-! ## C26 ignore -/

/-- `ignore(p)` succeeds exactly when `p.lookahead` does, with the same remaining input,
without value and without running callbacks; it fails, throws and runs forever exactly when
`p.lookahead` does.  For all parsers. -/
theorem C26_ignore (C : Ctx α β) (p : Parser α) (s s' : Span) (log : List Call) :
    (∀ w, Parses C (.ignore p) s log w s' ↔ Looks C p s log s' ∧ w = .unit ∧ log = []) ∧
    (ParseFails C (.ignore p) s log s' ↔ LookFails C p s log s' ∧ s' = s ∧ log = []) ∧
    (∀ e, ParseErr C (.ignore p) s log e ↔ LookErr C p s log e) ∧
    (ParseLoops C (.ignore p) s ↔ LookLoops C p s) ∧
    resultFor C (.ignore p) = .void := by
  refine ⟨fun w => ?_, ?_, fun e => ?_, ?_, by rw [resultFor]⟩
  · rw [Parses, Parse_ignore]
    constructor
    · intro h
      obtain ⟨rfl, h' | h'⟩ := Look_unit h
      · simp at h'
      · cases h'; exact ⟨h, rfl, rfl⟩
    · rintro ⟨h, rfl, rfl⟩; exact h
  · rw [ParseFails, Parse_ignore]
    constructor
    · intro h
      obtain ⟨rfl, h' | h'⟩ := Look_unit h
      · exact ⟨h, h'.2, rfl⟩
      · simp at h'
    · exact fun h => h.1
  · rw [ParseErr, Parse_ignore]; rfl
  · rw [ParseLoops, Parse_ignore]; rfl

/-- `lookahead` is the same function. -/
theorem C26_lookahead (C : Ctx α β) (p : Parser α) (s : Span) : Look C (.ignore p) s = Parse C (.ignore p) s := by
  rw [Look_ignore, Parse_ignore]

/-- `ignore(ignore(p))` is `ignore(p)`, written either way. -/
theorem C26_idempotent (p : Parser α) :
    callMod .ignore (.ignore p) = some (.parser (.ignore p)) ∧
    percent (.parser (.ignore p)) (.modifier .ignore) = some (.parser (.ignore p)) ∧
    ∀ q : Parser α, (∀ r, q ≠ .ignore r) → callMod .ignore q = some (.parser (.ignore q)) := by
  refine ⟨by simp [callMod, Parser.family], by simp [percent, callMod, Parser.family], fun q hq => ?_⟩
  cases q <;> simp_all [callMod, Parser.family]

theorem inTurn_append {as bs : List (Span → Run R)} {s log vs s'} :
    InTurn (as ++ bs) s log vs s' ↔ ∃ l1 l2 v1 v2 s1, InTurn as s l1 v1 s1 ∧ InTurn bs s1 l2 v2 s' ∧
      log = l1 ++ l2 ∧ vs = v1 ++ v2 := by
  induction as generalizing s log vs with
  | nil =>
    constructor
    · intro h; exact ⟨[], log, [], vs, s, .nil, h, rfl, rfl⟩
    · rintro ⟨l1, l2, v1, v2, s1, h1, h2, rfl, rfl⟩
      cases h1; exact h2
  | cons a as ih =>
    constructor
    · intro h
      cases h with
      | cons h1 h2 =>
        obtain ⟨l1, l2, v1, v2, s1, h3, h4, rfl, rfl⟩ := ih.1 h2
        exact ⟨_, l2, _, v2, s1, .cons h1 h3, h4, by simp, by simp⟩
    · rintro ⟨l1, l2, v1, v2, s1, h1, h2, rfl, rfl⟩
      cases h1 with
      | cons h1 h3 =>
        rw [List.append_assoc, List.cons_append]
        exact .cons h1 (ih.2 ⟨_, _, _, _, _, h3, h2, rfl, rfl⟩)

theorem withValue_append {ts us : List Ty} {vs ws : List Val} (h : vs.length = ts.length) :
    withValue (ts ++ us) (vs ++ ws) = withValue ts vs ++ withValue us ws := by
  induction ts generalizing vs with
  | nil => simp at h; subst h; simp [withValue]
  | cons t ts ih =>
    cases vs with
    | nil => simp at h
    | cons v vs =>
      simp only [List.cons_append, withValue]
      rw [ih (by simpa using h)]
      split <;> simp

/-- Inside a sequence, `ignore` removes the type of the part from the tuple, and nothing
else. -/
theorem C26_sequence_type (C : Ctx α β) (before : List (Parser α)) (p : Parser α) (after : List (Parser α)) :
    resultFor C (.sequence (before ++ .ignore p :: after)) = sequenceType ((before ++ after).map (resultFor C)) := by
  have h : resultFor C (.ignore p) = .void := by rw [resultFor]
  rw [C15_type]
  simp [sequenceType, h]

/-- Inside a sequence, ignoring a part removes its value from the tuple and its callbacks
from the run; success, remaining input and everything else stay.  Missing is `p` whose
lookahead says something else than its parse (finding 1; `C26_refuted_filter`). -/
theorem C26_sequence_partial [LinearOrder α] (C : Ctx α β) (before : List (Parser α)) (p : Parser α)
    (after : List (Parser α)) (hc : Compiles C (.sequence (before ++ p :: after)))
    (hi : Compiles C (.sequence (before ++ .ignore p :: after)))
    (hp : LookaheadExact C p) (s s' : Span) :
    ((∃ log w, Parses C (.sequence (before ++ p :: after)) s log w s') ↔
      ∃ log w, Parses C (.sequence (before ++ .ignore p :: after)) s log w s') ∧
    (∀ log w, Parses C (.sequence (before ++ p :: after)) s log w s' →
      ∃ l1 l2 l3 vs v ws, log = l1 ++ l2 ++ l3 ∧
        w = sequenceValue (withValue (before.map (resultFor C)) vs ++ (argsOf (resultFor C p) v ++
          withValue (after.map (resultFor C)) ws)) ∧
        Parses C (.sequence (before ++ .ignore p :: after)) s (l1 ++ l3)
          (sequenceValue (withValue (before.map (resultFor C)) vs ++ withValue (after.map (resultFor C)) ws)) s') := by
  have hiv : resultFor C (.ignore p) = .void := by rw [resultFor]
  have hpart : ∀ s, partRun C (.ignore p) s = Look C p s := fun s => by
    rw [partRun, if_pos hiv, Look_ignore]
  have main : ∀ log w, Parses C (.sequence (before ++ p :: after)) s log w s' →
      ∃ l1 l2 l3 vs v ws, log = l1 ++ l2 ++ l3 ∧
        w = sequenceValue (withValue (before.map (resultFor C)) vs ++ (argsOf (resultFor C p) v ++
          withValue (after.map (resultFor C)) ws)) ∧
        Parses C (.sequence (before ++ .ignore p :: after)) s (l1 ++ l3)
          (sequenceValue (withValue (before.map (resultFor C)) vs ++ withValue (after.map (resultFor C)) ws)) s' := by
    intro log w h
    obtain ⟨us, hu, rfl⟩ := ((C15_sequence_partial C _ hc s s' log).1 w).1 h
    rw [List.map_append, inTurn_append] at hu
    obtain ⟨l1, l2, v1, v2, s1, h1, h2, rfl, rfl⟩ := hu
    cases h2 with
    | @cons _ _ _ l v s2 log' ws _ h3 h4 =>
      have hlen : v1.length = (before.map (resultFor C)).length := by simpa using h1.length
      refine ⟨l1, l, log', v1, v, ws, by simp, ?_, ?_⟩
      · rw [List.map_append, withValue_append hlen, List.map_cons, withValue, argsOf]
        split <;> simp
      · have hl : Look C p s1 = .done [] (.ok ⟨some .unit, s2⟩) := by
          have hv := hp s1
          have hacc : parseVerdict C p s1 = .accept s2 ∨ lookVerdict C p s1 = .accept s2 := by
            by_cases hv : resultFor C p = .void
            · right; rw [lookVerdict]; rw [partRun, if_pos hv] at h3; rw [h3]; rfl
            · left; rw [parseVerdict]; rw [partRun, if_neg hv] at h3; rw [h3]; rfl
          have hl : lookVerdict C p s1 = .accept s2 := by
            rcases hacc with h | h
            · rw [hv, h]
            · exact h
          rw [lookVerdict] at hl
          cases hm : Look C p s1 with
          | diverge => rw [hm] at hl; cases hl
          | done l r =>
            cases r with
            | err e => rw [hm] at hl; cases hl
            | ok r =>
              rw [hm] at hl
              obtain ⟨rfl, h' | h'⟩ := Look_unit hm
              · simp [verdict, h'.1] at hl
              · obtain ⟨rv, rr⟩ := r
                simp only at h'
                subst h'
                simp only [verdict, Option.isSome_some, if_true, Verdict.accept.injEq] at hl
                rw [hl]
        refine ((C15_sequence_partial C _ hi s s' _).1 _).2 ⟨v1 ++ .unit :: ws, ?_, ?_⟩
        · rw [List.map_append, List.map_cons, inTurn_append]
          refine ⟨l1, [] ++ log', v1, .unit :: ws, s1, h1, .cons ?_ h4, by simp, rfl⟩
          rw [hpart, hl]
        · rw [List.map_append, withValue_append hlen, List.map_cons, withValue, if_pos hiv]
  refine ⟨⟨?_, ?_⟩, main⟩
  · rintro ⟨log, w, h⟩
    obtain ⟨l1, l2, l3, vs, v, ws, -, -, h'⟩ := main log w h
    exact ⟨_, _, h'⟩
  · rintro ⟨log, w, h⟩
    obtain ⟨us, hu, rfl⟩ := ((C15_sequence_partial C _ hi s s' log).1 w).1 h
    rw [List.map_append, inTurn_append] at hu
    obtain ⟨l1, l2, v1, v2, s1, h1, h2, rfl, rfl⟩ := hu
    cases h2 with
    | @cons _ _ _ l v s2 log' ws _ h3 h4 =>
      rw [hpart] at h3
      obtain ⟨lp, vp, hp'⟩ : ∃ lp vp, partRun C p s1 = .done lp (.ok ⟨some vp, s2⟩) := by
        unfold partRun
        by_cases hv : resultFor C p = .void
        · rw [if_pos hv]; exact ⟨_, _, h3⟩
        · rw [if_neg hv]
          have hl := hp s1
          rw [lookVerdict, h3, parseVerdict] at hl
          simp only [verdict, Option.isSome_some, if_true] at hl
          cases hm : Parse C p s1 with
          | diverge => rw [hm] at hl; cases hl
          | done l r =>
            cases r with
            | err e => rw [hm] at hl; cases hl
            | ok r =>
              rw [hm] at hl
              obtain ⟨rv, rr⟩ := r
              cases rv with
              | none => simp [verdict] at hl
              | some v' =>
                simp only [verdict, Option.isSome_some, if_true, Verdict.accept.injEq] at hl
                exact ⟨l, v', by rw [hl]⟩
      exact ⟨_, _, ((C15_sequence_partial C _ hc s s' _).1 _).2 ⟨v1 ++ vp :: ws, by
        rw [List.map_append, List.map_cons, inTurn_append]
        exact ⟨l1, lp ++ log', v1, vp :: ws, s1, h1, .cons hp' h4, rfl, rfl⟩, rfl⟩⟩

-- "a" >> f("b") >> "c" on "abc", and with the second part ignored
example : Compiles (Ex.ctx "abc") (.sequence ([Ex.all "a"] ++ .map (Ex.all "b") (.user 0) :: [Ex.all "c"])) ∧
    Compiles (Ex.ctx "abc") (.sequence ([Ex.all "a"] ++ .ignore (.map (Ex.all "b") (.user 0)) :: [Ex.all "c"])) ∧
    Parses (Ex.ctx "abc") (.sequence ([Ex.all "a"] ++ .map (Ex.all "b") (.user 0) :: [Ex.all "c"])) (Ex.input "abc")
      [⟨.user 0, [.span ⟨.at 0 1, 1⟩]⟩]
      (.tup [.span ⟨.at 0 0, 1⟩, .user 0 0 [.span ⟨.at 0 1, 1⟩], .span ⟨.at 0 2, 1⟩]) ⟨.at 0 3, 0⟩ ∧
    Parses (Ex.ctx "abc") (.sequence ([Ex.all "a"] ++ .ignore (.map (Ex.all "b") (.user 0)) :: [Ex.all "c"]))
      (Ex.input "abc") [] (.tup [.span ⟨.at 0 0, 1⟩, .span ⟨.at 0 2, 1⟩]) ⟨.at 0 3, 0⟩ :=
  ⟨⟨Ex.ctx_ok _, rfl, rfl, rfl⟩, ⟨Ex.ctx_ok _, rfl, rfl, rfl⟩, Ex.parses _ 5 rfl, Ex.parses _ 5 rfl⟩

/-- With `filter` it is false: `"a" >> filter<false>("b")` rejects "ab",
`"a" >> ignore(filter<false>("b"))` accepts it. -/
theorem C26_refuted_filter :
    let p := Parser.filter (Ex.all "b") (.user 2)
    (∃ log, ParseFails (Ex.ctx "ab") (.sequence [Ex.all "a", p]) (Ex.input "ab") log (Ex.input "ab")) ∧
    ∃ log v, Parses (Ex.ctx "ab") (.sequence [Ex.all "a", .ignore p]) (Ex.input "ab") log v ⟨.at 0 2, 0⟩ :=
  ⟨⟨_, Ex.parses _ 5 rfl⟩, ⟨_, _, Ex.parses _ 5 rfl⟩⟩

/-! ## C27 complete -/

theorem Parse_complete_eq (C : Ctx α β) (p : Parser α) (s : Span) :
    Parse C (.complete p) s = M.bind (Parse C p s) fun r =>
      M.pure (if r.val.isSome ∧ r.rem.len = 0 then r else ⟨none, s⟩) := by
  rw [Parse_complete, parseComplete]
  simp only [den, M.bind_eq]
  refine M.bind_congr fun r => ?_
  obtain ⟨rv, rr⟩ := r
  by_cases h : rr.len = 0 <;> cases rv <;> simp [R.hasValue, Span.empty, R.failure, h]

theorem Look_complete_eq (C : Ctx α β) (p : Parser α) (s : Span) :
    Look C (.complete p) s = M.bind (Look C p s) fun r =>
      M.pure (if r.val.isSome ∧ r.rem.len = 0 then r else ⟨none, s⟩) := by
  rw [Look_complete, lookComplete]
  simp only [den, M.bind_eq]
  refine M.bind_congr fun r => ?_
  obtain ⟨rv, rr⟩ := r
  by_cases h : rr.len = 0 <;> cases rv <;> simp [R.hasValue, Span.empty, R.failure, h]

/-- `complete(p)` succeeds exactly if `p` succeeds and leaves nothing, with `p`'s value; it
fails, with the input untouched, exactly if `p` fails or leaves something; it throws or runs
forever exactly if `p` does.  For all parsers. -/
theorem C27_complete (C : Ctx α β) (p : Parser α) (s s' : Span) (log : List Call) :
    (∀ w, Parses C (.complete p) s log w s' ↔ Parses C p s log w s' ∧ s'.len = 0) ∧
    (ParseFails C (.complete p) s log s' ↔
      s' = s ∧ (ParseFails C p s log s ∨ ∃ v s1, Parses C p s log v s1 ∧ s1.len ≠ 0)) ∧
    (∀ e, ParseErr C (.complete p) s log e ↔ ParseErr C p s log e) ∧
    (ParseLoops C (.complete p) s ↔ ParseLoops C p s) := by
  refine ⟨fun w => ?_, ?_, fun e => ?_, ?_⟩
  · rw [Parses, Parse_complete_eq, M.bind_eq_ok]
    constructor
    · rintro ⟨l1, l2, ⟨rv, rr⟩, h1, h2, rfl⟩
      simp only [M.pure_eq_ok] at h2
      split at h2
      · rename_i h
        obtain ⟨rfl, h2⟩ := h2
        cases h2
        rw [List.append_nil]
        exact ⟨h1, h.2⟩
      · simp at h2
    · rintro ⟨h, h0⟩
      exact ⟨log, [], _, h, by simp [h0], by simp⟩
  · rw [ParseFails, Parse_complete_eq, M.bind_eq_ok]
    constructor
    · rintro ⟨l1, l2, ⟨rv, rr⟩, h1, h2, rfl⟩
      simp only [M.pure_eq_ok] at h2
      split at h2
      · rename_i h
        obtain ⟨rfl, h2⟩ := h2
        cases h2
        simp at h
      · rename_i h
        obtain ⟨rfl, h2⟩ := h2
        cases h2
        rw [List.append_nil]
        refine ⟨rfl, ?_⟩
        cases rv with
        | none => cases Parse_failsBack p _ _ _ h1; exact .inl h1
        | some v => exact .inr ⟨v, rr, h1, by simpa using h⟩
    · rintro ⟨rfl, h | ⟨v, s1, h, h0⟩⟩
      · exact ⟨log, [], _, h, by simp, by simp⟩
      · exact ⟨log, [], _, h, by simp [h0], by simp⟩
  · rw [ParseErr, Parse_complete_eq, bind_pure_err]; rfl
  · rw [ParseLoops, Parse_complete_eq, bind_pure_diverge]; rfl

/-- The same for `lookahead`. -/
theorem C27_lookahead (C : Ctx α β) (p : Parser α) (s s' : Span) (log : List Call) :
    (Looks C (.complete p) s log s' ↔ Looks C p s log s' ∧ s'.len = 0) ∧
    (LookFails C (.complete p) s log s' ↔
      s' = s ∧ (LookFails C p s log s ∨ ∃ s1, Looks C p s log s1 ∧ s1.len ≠ 0)) := by
  refine ⟨?_, ?_⟩
  · rw [Looks, Look_complete_eq, M.bind_eq_ok]
    constructor
    · rintro ⟨l1, l2, ⟨rv, rr⟩, h1, h2, rfl⟩
      simp only [M.pure_eq_ok] at h2
      split at h2
      · rename_i h
        obtain ⟨rfl, h2⟩ := h2
        cases h2
        rw [List.append_nil]
        exact ⟨h1, h.2⟩
      · simp at h2
    · rintro ⟨h, h0⟩
      exact ⟨log, [], _, h, by simp [h0], by simp⟩
  · rw [LookFails, Look_complete_eq, M.bind_eq_ok]
    constructor
    · rintro ⟨l1, l2, ⟨rv, rr⟩, h1, h2, rfl⟩
      simp only [M.pure_eq_ok] at h2
      split at h2
      · rename_i h
        obtain ⟨rfl, h2⟩ := h2
        cases h2
        simp at h
      · rename_i h
        obtain ⟨rfl, h2⟩ := h2
        cases h2
        rw [List.append_nil]
        refine ⟨rfl, ?_⟩
        rcases (Look_unit h1).2 with ⟨h3, rfl⟩ | h3
        · cases h3; exact .inl h1
        · cases h3; exact .inr ⟨rr, h1, by simpa using h⟩
    · rintro ⟨rfl, h | ⟨s1, h, h0⟩⟩
      · exact ⟨log, [], _, h, by simp, by simp⟩
      · exact ⟨log, [], _, h, by simp [h0], by simp⟩

/-- `complete(complete(p))` is `complete(p)`, and would behave like it anyway. -/
theorem C27_idempotent (C : Ctx α β) (p : Parser α) (s : Span) :
    callMod .complete (.complete p) = some (.parser (.complete p)) ∧
    Parse C (.complete (.complete p)) s = Parse C (.complete p) s ∧
    Look C (.complete (.complete p)) s = Look C (.complete p) s := by
  refine ⟨by simp [callMod, Parser.family], ?_, ?_⟩
  · rw [Parse_complete_eq, Parse_complete_eq, M.bind_assoc]
    refine M.bind_congr fun r => ?_
    rw [M.pure_bind]
    congr 1
    split <;> simp_all
  · rw [Look_complete_eq, Look_complete_eq, M.bind_assoc]
    refine M.bind_congr fun r => ?_
    rw [M.pure_bind]
    congr 1
    split <;> simp_all

-- complete(*"a") on "aa" and on "aab"
example : Parses (Ex.ctx "aa") (.complete (.zeroOrMore (Ex.all "a"))) (Ex.input "aa") []
    (.vec [.span ⟨.at 0 0, 1⟩, .span ⟨.at 0 1, 1⟩]) ⟨.at 0 2, 0⟩ := Ex.parses _ 6 rfl
example : ParseFails (Ex.ctx "aab") (.complete (.zeroOrMore (Ex.all "a"))) (Ex.input "aab") [] (Ex.input "aab") :=
  Ex.parses _ 6 rfl

/-! ## C28 join -/

/-- `join(p)` succeeds exactly if `p` succeeds and the non-empty spans of its value, read
left to right, are contiguous; the value is the span covering them all (if there are none,
the empty span where the match ends), remaining input and callbacks are `p`'s.  It fails
exactly if `p` fails or the spans are not contiguous, with the input untouched.  It throws or
runs forever exactly if `p` does.  `SpanLocal`: user code called by `p` does not make up
spans pointing elsewhere. -/
theorem C28_join [LinearOrder α] (C : Ctx α β) (p : Parser α) (hc : Compiles C (.join p)) (ht : C.Typed)
    (hl : SpanLocal C p) (s : Span) (hs : s.Valid C.mem) (s' : Span) (log : List Call) :
    (∀ w, Parses C (.join p) s log w s' ↔ ∃ v, Parses C p s log v s' ∧
      Contiguous (nonEmpty (joinLeaves C v)) ∧ w = .span (cover s' (nonEmpty (joinLeaves C v)))) ∧
    (ParseFails C (.join p) s log s' ↔ s' = s ∧ (ParseFails C p s log s ∨
      ∃ v s1, Parses C p s log v s1 ∧ ¬ Contiguous (nonEmpty (joinLeaves C v)))) ∧
    (∀ e, ParseErr C (.join p) s log e ↔ ParseErr C p s log e) ∧
    (ParseLoops C (.join p) s ↔ ParseLoops C p s) := by
  have hok : tyOK C p = true ∧ parseOK C p = true ∧ joinable C (resultFor C p) = true := by
    have := hc.parse
    simp only [parseOK, Bool.and_eq_true] at this
    exact ⟨this.1.1, this.1.2, this.2⟩
  have hcp : Compiles C p := ⟨hc.ctx, by simpa [Parser.wf] using hc.wf, hok.1, hok.2.1⟩
  classical
  have key : Parse C (.join p) s = M.bind (Parse C p s) fun r => M.pure (match r.val with
      | none => ⟨none, s⟩
      | some v => if Contiguous (nonEmpty (joinLeaves C v)) then
          ⟨some (.span (cover r.rem (nonEmpty (joinLeaves C v)))), r.rem⟩ else ⟨none, s⟩) := by
    rw [Parse_join_eq, parseJoin]
    simp only [den, M.bind_eq]
    refine M.bind_congr' fun l r hr => ?_
    obtain ⟨rv, rr⟩ := r
    cases rv with
    | none => simp [R.hasValue, R.failure]
    | some v =>
      have hg := (Parse_typed hcp ht s).ok hr
      have hv := hg.val v rfl
      obtain ⟨h1, h2⟩ := joinExecutor_spec hok.2.2 hv.ty hs hg.suffix hl.ctx fun x hx => hv.spans x hx hl
      simp only [R.hasValue, Option.isSome_some, if_true]
      by_cases hcon : Contiguous (nonEmpty (joinLeaves C v))
      · rw [h1 hcon, M.pure_bind, if_pos hcon]; rfl
      · rw [h2 hcon, M.pure_bind, if_neg hcon]; rfl
  refine ⟨fun w => ?_, ?_, fun e => ?_, ?_⟩
  · rw [Parses, key, M.bind_eq_ok]
    constructor
    · rintro ⟨l1, l2, ⟨rv, rr⟩, h1, h2, rfl⟩
      simp only [M.pure_eq_ok] at h2
      obtain ⟨rfl, h2⟩ := h2
      rw [List.append_nil]
      cases rv with
      | none => simp at h2
      | some v =>
        simp only at h2
        split at h2
        · rename_i hcon
          cases h2
          exact ⟨v, h1, hcon, rfl⟩
        · simp at h2
    · rintro ⟨v, h, hcon, rfl⟩
      exact ⟨log, [], _, h, by simp [hcon], by simp⟩
  · rw [ParseFails, key, M.bind_eq_ok]
    constructor
    · rintro ⟨l1, l2, ⟨rv, rr⟩, h1, h2, rfl⟩
      simp only [M.pure_eq_ok] at h2
      obtain ⟨rfl, h2⟩ := h2
      rw [List.append_nil]
      cases rv with
      | none =>
        cases h2
        cases Parse_failsBack p _ _ _ h1
        exact ⟨rfl, .inl h1⟩
      | some v =>
        simp only at h2
        split at h2
        · simp at h2
        · rename_i hcon
          cases h2
          exact ⟨rfl, .inr ⟨v, rr, h1, hcon⟩⟩
    · rintro ⟨rfl, h | ⟨v, s1, h, hcon⟩⟩
      · exact ⟨log, [], _, h, by simp, by simp⟩
      · exact ⟨log, [], _, h, by simp [hcon], by simp⟩
  · rw [ParseErr, key, bind_pure_err]; rfl
  · rw [ParseLoops, key, bind_pure_diverge]; rfl

/-- `join(join(p))` is `join(p)`, and would behave like it anyway. -/
theorem C28_idempotent (C : Ctx α β) (p : Parser α) (s : Span) :
    callMod .join (.join p) = some (.parser (.join p)) ∧
    Parse C (.join (.join p)) s = Parse C (.join p) s ∧ Look C (.join (.join p)) s = Look C (.join p) s :=
  ⟨by simp [callMod, Parser.family], Parse_join_join p s, Look_join_eq _ s⟩

-- join("a" >> ~"b" >> "c") on "acb": contiguous; join("a" >> ignore("b") >> "c") on "abc": not
example : let p := .sequence [Ex.all "a", .maybe (Ex.all "b"), Ex.all "c"]
    Compiles (Ex.ctx "acb") (.join p) ∧ SpanLocal (Ex.ctx "acb") p ∧
    Parses (Ex.ctx "acb") (.join p) (Ex.input "acb") [] (.span ⟨.at 0 0, 2⟩) ⟨.at 0 2, 1⟩ := by
  refine ⟨⟨Ex.ctx_ok _, rfl, rfl, rfl⟩, ⟨Ex.ctx_local _, ?_⟩, Ex.parses _ 6 rfl⟩
  intro q f h
  cases h with
  | step h1 h2 =>
    cases h1 with
    | sequence hm =>
      simp only [List.mem_cons, List.not_mem_nil, or_false] at hm
      rcases hm with rfl | rfl | rfl
      · cases h2 with | step h _ => cases h
      · cases h2 with | step h h2 => cases h; cases h2 with | step h _ => cases h
      · cases h2 with | step h _ => cases h
example : ParseFails (Ex.ctx "abc") (.join (.sequence [Ex.all "a", .ignore (Ex.all "b"), Ex.all "c"]))
    (Ex.input "abc") [] (Ex.input "abc") := Ex.parses _ 6 rfl
-- join(~"b") on "a": the empty span at the end of the match
example : Parses (Ex.ctx "a") (.join (.maybe (Ex.all "b"))) (Ex.input "a") [] (.span ⟨.at 0 0, 0⟩) (Ex.input "a") :=
  Ex.parses _ 6 rfl

/-! ## C29 The specialised joins -/

/-- Whatever `p` is, in particular if `join(p)` is one of the four specialisations:
`join(p).parse` is the generic `join_parser::parse`, and `join(p).lookahead` is
`p.lookahead`; equal outcome, value, remaining input, callbacks, on every span. -/
theorem C29_specialisations (C : Ctx α β) (p : Parser α) (s : Span) :
    Parse C (.join p) s = parseJoin C ⟨Parse C p, Look C p⟩ s ∧ Look C (.join p) s = Look C p s :=
  ⟨Parse_join_eq p s, Look_join_eq p s⟩

/-- Whether or not the compiler lets the specialisations match `any_of` and `none_of` makes no difference to any parser. -/
theorem C29_any_compiler (C : Ctx α β) (relaxed : Bool) (p : Parser α) (s : Span) :
    Parse { C with relaxedTtp := relaxed } p s = Parse C p s ∧ Look { C with relaxedTtp := relaxed } p s = Look C p s :=
  den_relaxed p s

/-- The specialisations are really used. -/
theorem specialisations_used (C : Ctx α β) (arr : List α) (s : Span) :
    Parse C (.join (.oneOrMore (.allOf arr))) s =
      (M.bind (failureCondition C (.allOf arr) s) fun c =>
        if c then M.pure (R.failure s)
        else M.bind (s.subspan C.mem arr.length) fun s' =>
          M.bind (jrLoop C (.allOf arr) s' ⟨s.ptr, arr.length⟩) fun x => M.pure (R.success (.span x.2) x.1)) ∧
    (C.relaxedTtp = true → Parse C (.join (.zeroOrMore (.anyOf arr))) s =
      M.bind (jrLoop C (.anyOf arr) s ⟨s.ptr, 0⟩) fun x => M.pure (R.success (.span x.2) x.1)) ∧
    (C.relaxedTtp = false → Parse C (.join (.zeroOrMore (.anyOf arr))) s =
      parseJoin C (den C (.zeroOrMore (.anyOf arr))) s) :=
  ⟨Parse_join_oneOrMore s rfl, fun h => Parse_join_zeroOrMore s (by simp [asBasic, h]), fun _ => Parse_join_eq _ s⟩

-- join(+"ab") on "ababa"
example : Parses (Ex.ctx "ababa") (.join (.oneOrMore (Ex.all "ab"))) (Ex.input "ababa") []
    (.span ⟨.at 0 0, 4⟩) ⟨.at 0 4, 1⟩ := Ex.parses _ 6 rfl

/-! ## C31 map -/

/-- `map<f>(p)` succeeds exactly if `p` succeeds and `f` returns; `f` is called once, after
the callbacks of `p`, with its value (without argument if there is none); what it returns is
the value, remaining is `p`'s.  It fails exactly if `p` fails; then `f` is not called.  It
throws exactly if `p` or `f` does, and runs forever exactly if `p` does.  For all parsers. -/
theorem C31_map (C : Ctx α β) (p : Parser α) (k : Nat) (s s' : Span) (log : List Call) :
    (∀ w, Parses C (.map p (.user k)) s log w s' ↔ ∃ l v x, Parses C p s l v s' ∧
      log = l ++ [⟨.user k, argsOf (resultFor C p) v⟩] ∧ C.fnCall k (argsOf (resultFor C p) v) = .ok x ∧
      w = returned (resultFor C (.map p (.user k))) x) ∧
    (ParseFails C (.map p (.user k)) s log s' ↔ ParseFails C p s log s') ∧
    (∀ e, ParseErr C (.map p (.user k)) s log e ↔ ParseErr C p s log e ∨
      ∃ l v s1 x, Parses C p s l v s1 ∧ log = l ++ [⟨.user k, argsOf (resultFor C p) v⟩] ∧
        C.fnCall k (argsOf (resultFor C p) v) = .error x ∧ e = .exn x) ∧
    (ParseLoops C (.map p (.user k)) s ↔ ParseLoops C p s) := by
  refine ⟨fun w => ?_, ?_, fun e => ?_, ?_⟩
  · rw [Parses, Parse_map_eq, bind_val_some]
    constructor
    · rintro ⟨l, u, s1, l', x, h1, h2, rfl, h3⟩
      obtain ⟨rfl, h5⟩ := (invoke_user.1 _ _).1 h2
      cases h3
      exact ⟨l, u, x, h1, rfl, h5, rfl⟩
    · rintro ⟨l, v, x, h1, rfl, h2, rfl⟩
      exact ⟨l, v, s', _, x, h1, (invoke_user.1 _ _).2 ⟨rfl, h2⟩, rfl, rfl⟩
  · rw [ParseFails, Parse_map_eq, bind_val_none]
    constructor
    · rintro (⟨rfl, s1, h⟩ | ⟨l, u, s1, l', w, _, _, _, h⟩)
      · have := Parse_failsBack p _ _ _ h
        subst this; exact h
      · simp at h
    · intro h
      exact .inl ⟨Parse_failsBack p _ _ _ h, _, h⟩
  · rw [ParseErr, Parse_map_eq, bind_val_err]
    apply or_congr Iff.rfl
    constructor
    · rintro ⟨l, u, s1, l', h1, h2, rfl⟩
      obtain ⟨rfl, x, h5, rfl⟩ := (invoke_user.2 _ _).1 h2
      exact ⟨l, u, s1, x, h1, rfl, h5, rfl⟩
    · rintro ⟨l, v, s1, x, h1, rfl, h2, rfl⟩
      exact ⟨l, v, s1, _, h1, (invoke_user.2 _ _).2 ⟨rfl, x, h2, rfl⟩, rfl⟩
  · rw [ParseLoops, Parse_map_eq, bind_val_diverge fun _ => invoke_ends _ _]; rfl

/-- `lookahead` does not call `f`; it is `p.lookahead`. -/
theorem C31_lookahead (C : Ctx α β) (p : Parser α) (f : Fn) (s : Span) :
    Look C (.map p f) s = Look C p s ∧ ∀ log r, Look C (.map p f) s = .done log (.ok r) → log = [] :=
  ⟨Look_map s p f, fun _ _ h => (Look_unit h).1⟩

-- a map over a map: the inner function is called first; a function that throws; a failure
example : Parses (Ex.ctx "a") (.map (.map (Ex.all "a") (.user 0)) (.user 1)) (Ex.input "a")
    [⟨.user 0, [.span ⟨.at 0 0, 1⟩]⟩, ⟨.user 1, [.user 0 0 [.span ⟨.at 0 0, 1⟩]]⟩] (.user 1 1 []) ⟨.at 0 1, 0⟩ :=
  Ex.parses _ 5 rfl
example : ParseErr (Ex.ctx "a") (.map (Ex.all "a") (.user 3)) (Ex.input "a")
    [⟨.user 3, [.span ⟨.at 0 0, 1⟩]⟩] (.exn 7) := Ex.parses _ 5 rfl
example : ParseFails (Ex.ctx "a") (.map (Ex.all "b") (.user 3)) (Ex.input "a") [] (Ex.input "a") := Ex.parses _ 5 rfl

/-! ## C32 filter -/

/-- `filter<f>(p)` succeeds exactly if `p` succeeds and `f`, called once with its value after
`p`'s callbacks, returns something true; value and remaining are `p`'s.  It fails, with the
input untouched, exactly if `p` fails (then `f` is not called) or `f` returns something
false.  It throws exactly if `p` or `f` does, and runs forever exactly if `p` does.  For all
parsers. -/
theorem C32_filter (C : Ctx α β) (p : Parser α) (k : Nat) (s s' : Span) (log : List Call) :
    (∀ v, Parses C (.filter p (.user k)) s log v s' ↔ ∃ l x, Parses C p s l v s' ∧
      log = l ++ [⟨.user k, argsOf (resultFor C p) v⟩] ∧ C.fnCall k (argsOf (resultFor C p) v) = .ok x ∧
      C.truthy x = true) ∧
    (ParseFails C (.filter p (.user k)) s log s' ↔ s' = s ∧ (ParseFails C p s log s ∨
      ∃ l v s1 x, Parses C p s l v s1 ∧ log = l ++ [⟨.user k, argsOf (resultFor C p) v⟩] ∧
        C.fnCall k (argsOf (resultFor C p) v) = .ok x ∧ C.truthy x = false)) ∧
    (∀ e, ParseErr C (.filter p (.user k)) s log e ↔ ParseErr C p s log e ∨
      ∃ l v s1 x, Parses C p s l v s1 ∧ log = l ++ [⟨.user k, argsOf (resultFor C p) v⟩] ∧
        C.fnCall k (argsOf (resultFor C p) v) = .error x ∧ e = .exn x) ∧
    (ParseLoops C (.filter p (.user k)) s ↔ ParseLoops C p s) := by
  refine ⟨fun w => ?_, ?_, fun e => ?_, ?_⟩
  · rw [Parses, Parse_filter_eq, bind_val_some]
    constructor
    · rintro ⟨l, u, s1, l', x, h1, h2, rfl, h3⟩
      obtain ⟨rfl, h5⟩ := (invoke_user.1 _ _).1 h2
      split at h3 <;> cases h3
      exact ⟨l, x, h1, rfl, h5, by assumption⟩
    · rintro ⟨l, x, h1, rfl, h2, h3⟩
      exact ⟨l, w, s', _, x, h1, (invoke_user.1 _ _).2 ⟨rfl, h2⟩, rfl, by simp [h3]⟩
  · rw [ParseFails, Parse_filter_eq, bind_val_none]
    constructor
    · rintro (⟨rfl, s1, h⟩ | ⟨l, u, s1, l', x, h1, h2, rfl, h⟩)
      · have := Parse_failsBack p _ _ _ h
        subst this; exact ⟨rfl, .inl h⟩
      · obtain ⟨rfl, h5⟩ := (invoke_user.1 _ _).1 h2
        split at h <;> cases h
        exact ⟨rfl, .inr ⟨l, u, s1, x, h1, rfl, h5, by simp_all⟩⟩
    · rintro ⟨rfl, h | ⟨l, v, s1, x, h1, rfl, h2, h3⟩⟩
      · exact .inl ⟨rfl, _, h⟩
      · exact .inr ⟨l, v, s1, _, x, h1, (invoke_user.1 _ _).2 ⟨rfl, h2⟩, rfl, by simp [h3]⟩
  · rw [ParseErr, Parse_filter_eq, bind_val_err]
    apply or_congr Iff.rfl
    constructor
    · rintro ⟨l, u, s1, l', h1, h2, rfl⟩
      obtain ⟨rfl, x, h5, rfl⟩ := (invoke_user.2 _ _).1 h2
      exact ⟨l, u, s1, x, h1, rfl, h5, rfl⟩
    · rintro ⟨l, v, s1, x, h1, rfl, h2, rfl⟩
      exact ⟨l, v, s1, _, h1, (invoke_user.2 _ _).2 ⟨rfl, x, h2, rfl⟩, rfl⟩
  · rw [ParseLoops, Parse_filter_eq, bind_val_diverge fun _ => invoke_ends _ _]; rfl

example : Parses (Ex.ctx "ab") (.filter (Ex.all "a") (.user 1)) (Ex.input "ab") [⟨.user 1, [.span ⟨.at 0 0, 1⟩]⟩]
    (.span ⟨.at 0 0, 1⟩) ⟨.at 0 1, 1⟩ := Ex.parses _ 5 rfl
example : ParseFails (Ex.ctx "ab") (.filter (Ex.all "a") (.user 2)) (Ex.input "ab") [⟨.user 2, [.span ⟨.at 0 0, 1⟩]⟩]
    (Ex.input "ab") := Ex.parses _ 5 rfl

/-! ## C37 Prefix, infix, collapse -/

/-- `m(p)` and `p % m` are the same parser, or neither compiles, or both are the same
modifier (`delimit(d)`, say). -/
theorem C37_prefix_infix (p : Parser α) (m : Modifier α) :
    percent (.parser p) (.modifier m) = callMod m p := rfl

/-- The tags by which parsers are classified are pairwise distinct. -/
theorem C37_families (p : Parser α) :
    (p.family = (Parser.ignore p).family ↔ ∃ q, p = .ignore q) ∧
    (p.family = (Parser.join p).family ↔ ∃ q, p = .join q) ∧
    (p.family = (Parser.complete p).family ↔ ∃ q, p = .complete q) ∧
    (∀ q : Parser α, p.family = q.family → p.ctorIdx = q.ctorIdx) := by
  refine ⟨?_, ?_, ?_, fun q h => ?_⟩
  · cases p <;> simp [Parser.family]
  · cases p <;> simp [Parser.family]
  · cases p <;> simp [Parser.family]
  · cases p <;> cases q <;> first | rfl | cases h

/-- Applying `ignore`, `join` or `complete` always gives a parser; one that already is of
that family is returned as it is, any other is wrapped; and the parser returned behaves like
the wrapped one in any case. -/
theorem C37_collapse (C : Ctx α β) (p : Parser α) (s : Span) :
    (∃ q, callMod .ignore p = some (.parser q) ∧ (q = p ∧ (∃ r, p = .ignore r) ∨ q = .ignore p ∧ ∀ r, p ≠ .ignore r) ∧
      Parse C q s = Parse C (.ignore p) s ∧ Look C q s = Look C (.ignore p) s ∧
      resultFor C q = resultFor C (.ignore p)) ∧
    (∃ q, callMod .join p = some (.parser q) ∧ (q = p ∧ (∃ r, p = .join r) ∨ q = .join p ∧ ∀ r, p ≠ .join r) ∧
      Parse C q s = Parse C (.join p) s ∧ Look C q s = Look C (.join p) s ∧
      resultFor C q = resultFor C (.join p)) ∧
    (∃ q, callMod .complete p = some (.parser q) ∧
      (q = p ∧ (∃ r, p = .complete r) ∨ q = .complete p ∧ ∀ r, p ≠ .complete r) ∧
      Parse C q s = Parse C (.complete p) s ∧ Look C q s = Look C (.complete p) s ∧
      resultFor C q = resultFor C (.complete p)) := by
  obtain ⟨f1, f2, f3, -⟩ := C37_families p
  refine ⟨⟨_, rfl, ?_⟩, ⟨_, rfl, ?_⟩, ⟨_, rfl, ?_⟩⟩
  · split
    · rename_i h
      obtain ⟨r, rfl⟩ := f1.1 h
      exact ⟨.inl ⟨rfl, r, rfl⟩, by rw [Parse_ignore, Parse_ignore, Look_ignore],
        by rw [Look_ignore, Look_ignore, Look_ignore], by rw [resultFor, resultFor]⟩
    · rename_i h
      exact ⟨.inr ⟨rfl, fun r hr => h (f1.2 ⟨r, hr⟩)⟩, rfl, rfl, rfl⟩
  · split
    · rename_i h
      obtain ⟨r, rfl⟩ := f2.1 h
      exact ⟨.inl ⟨rfl, r, rfl⟩, (Parse_join_join r s).symm, (Look_join_eq _ s).symm, by rw [resultFor, resultFor]⟩
    · rename_i h
      exact ⟨.inr ⟨rfl, fun r hr => h (f2.2 ⟨r, hr⟩)⟩, rfl, rfl, rfl⟩
  · split
    · rename_i h
      obtain ⟨r, rfl⟩ := f3.1 h
      obtain ⟨-, h1, h2⟩ := C27_idempotent C r s
      refine ⟨.inl ⟨rfl, r, rfl⟩, h1.symm, h2.symm, ?_⟩
      show _ = resultFor C (.complete (.complete r))
      generalize Parser.complete r = q
      rw [resultFor]
    · rename_i h
      exact ⟨.inr ⟨rfl, fun r hr => h (f3.2 ⟨r, hr⟩)⟩, rfl, rfl, rfl⟩

/-! ## C38 apply, into, constant, defaulted -/

/-- The parsers the modifiers build, by what they do with a run of `p`: for each, success
and remaining input are those of `p` (unless user code throws), and a failure of `p` is a
failure.  `out` is the value, `calls` the user code invoked. -/
structure MapsTo (C : Ctx α β) (p q : Parser α) (calls : Val → List Call → Val → Prop) : Prop where
  succeeds : ∀ s log w s', Parses C q s log w s' ↔
    ∃ l v l', Parses C p s l v s' ∧ calls v l' w ∧ log = l ++ l'
  fails : ∀ s log s', ParseFails C q s log s' ↔ ParseFails C p s log s'
  loops : ∀ s, ParseLoops C q s ↔ ParseLoops C p s

theorem mapsTo (C : Ctx α β) (p : Parser α) (f : Fn) :
    MapsTo C p (.map p f) fun v l w => ∃ x, invoke C f (argsOf (resultFor C p) v) = .done l (.ok x) ∧
      w = returned (resultFor C (.map p f)) x := by
  refine ⟨fun s log w s' => ?_, fun s log s' => ?_, fun s => ?_⟩
  · rw [Parses, Parse_map_eq, bind_val_some]
    constructor
    · rintro ⟨l, u, s1, l', x, h1, h2, rfl, h3⟩
      cases h3
      exact ⟨l, u, l', h1, ⟨x, h2, rfl⟩, rfl⟩
    · rintro ⟨l, v, l', h1, ⟨x, h2, rfl⟩, rfl⟩
      exact ⟨l, v, s', l', x, h1, h2, rfl, rfl⟩
  · rw [ParseFails, Parse_map_eq, bind_val_none]
    constructor
    · rintro (⟨rfl, s1, h⟩ | ⟨l, u, s1, l', w, _, _, _, h⟩)
      · have := Parse_failsBack p _ _ _ h
        subst this; exact h
      · simp at h
    · intro h
      exact .inl ⟨Parse_failsBack p _ _ _ h, _, h⟩
  · rw [ParseLoops, Parse_map_eq, bind_val_diverge fun _ => invoke_ends _ _]; rfl

theorem MapsTo.mono {C : Ctx α β} {p q : Parser α} {calls calls' : Val → List Call → Val → Prop}
    (h : MapsTo C p q calls) (hc : ∀ v l w, calls v l w ↔ calls' v l w) : MapsTo C p q calls' :=
  ⟨fun s log w s' => by rw [h.succeeds]; simp only [hc], h.fails, h.loops⟩

/-- `apply<f>` calls `f` once, with the components of the tuple, pair or array in order. -/
theorem C38_apply (C : Ctx α β) (p : Parser α) (k : Nat) (hp : resultFor C p ≠ .void) :
    ∃ q, callMod (.apply k) p = some (.parser q) ∧ MapsTo C p q fun v l w =>
      ∃ vs x, Components v vs ∧ l = [⟨.user k, vs⟩] ∧ C.fnCall k vs = .ok x ∧
        w = returned (resultFor C q) x := by
  refine ⟨_, rfl, (mapsTo C p _).mono fun v l w => ?_⟩
  rw [argsOf, if_neg hp]
  simp only [invoke_apply_ok, invoke_user.1]
  constructor
  · rintro ⟨x, ⟨vs, h1, h2, h3⟩, h4⟩; exact ⟨vs, x, h1, h2, h3, h4⟩
  · rintro ⟨vs, x, h1, h2, h3, h4⟩; exact ⟨x, ⟨vs, h1, h2, h3⟩, h4⟩

/-- `apply_filter<f>`: likewise, and the value of `p` is kept if `f` returns something true. -/
theorem C38_apply_filter (C : Ctx α β) (p : Parser α) (k : Nat) (hp : resultFor C p ≠ .void) (s s' : Span)
    (log : List Call) (v : Val) :
    ∃ q, callMod (.applyFilter k) p = some (.parser q) ∧
      (Parses C q s log v s' ↔ ∃ l vs x, Parses C p s l v s' ∧ Components v vs ∧
        log = l ++ [⟨.user k, vs⟩] ∧ C.fnCall k vs = .ok x ∧ C.truthy x = true) := by
  refine ⟨_, rfl, ?_⟩
  rw [Parses, Parse_filter_eq, bind_val_some]
  simp only [argsOf, if_neg hp, invoke_apply_ok, invoke_user.1]
  constructor
  · rintro ⟨l, u, s1, l', x, h1, ⟨vs, h2, rfl, h3⟩, rfl, h4⟩
    split at h4 <;> cases h4
    exact ⟨l, vs, x, h1, h2, rfl, h3, by assumption⟩
  · rintro ⟨l, vs, x, h1, h2, rfl, h3, h4⟩
    exact ⟨l, v, s', _, x, h1, ⟨vs, h2, rfl, h3⟩, rfl, by simp [h4]⟩

/-- `into<T>` constructs a `T` from the value. -/
theorem C38_into (C : Ctx α β) (p q : Parser α) (t : Ty) (hq : callMod (.into t) p = some (.parser q))
    (hty : tyOK C q = true) (ht : t ≠ .void) :
    resultFor C q = t ∧ MapsTo C p q fun v l w =>
      l = [⟨.construct t, argsOf (resultFor C p) v⟩] ∧ C.ctor t (argsOf (resultFor C p) v) = .ok w := by
  cases hq
  have : resultFor C (.map p (.construct t)) = t := by
    simp only [tyOK, Bool.and_eq_true, fnTy] at hty
    simp only [resultFor, mapTy, fnTy]
    split <;> simp_all
  refine ⟨this, (mapsTo C p _).mono fun v l w => ?_⟩
  simp only [invoke_construct.1, this, returned, if_neg ht]
  constructor
  · rintro ⟨x, h, rfl⟩; exact h
  · exact fun h => ⟨w, h, rfl⟩

/-- `apply_into<T>` constructs a `T` from the components. -/
theorem C38_apply_into (C : Ctx α β) (p q : Parser α) (t : Ty) (hp : resultFor C p ≠ .void)
    (hq : callMod (.applyInto t) p = some (.parser q)) (hty : tyOK C q = true) (ht : t ≠ .void) :
    resultFor C q = t ∧ MapsTo C p q fun v l w =>
      ∃ vs, Components v vs ∧ l = [⟨.construct t, vs⟩] ∧ C.ctor t vs = .ok w := by
  cases hq
  have : resultFor C (.map p (.apply (.construct t))) = t := by
    simp only [tyOK, Bool.and_eq_true, fnTy, argTys, if_neg hp] at hty
    simp only [resultFor, mapTy, fnTy, argTys, if_neg hp]
    cases h : components (resultFor C p) with
    | none => simp [h] at hty
    | some ts =>
      simp only [h] at hty ⊢
      split <;> simp_all
  refine ⟨this, (mapsTo C p _).mono fun v l w => ?_⟩
  rw [argsOf, if_neg hp]
  simp only [invoke_apply_ok, invoke_construct.1, this, returned, if_neg ht]
  constructor
  · rintro ⟨x, ⟨vs, h1, h2, h3⟩, rfl⟩; exact ⟨vs, h1, h2, h3⟩
  · rintro ⟨vs, h1, h2, h3⟩; exact ⟨w, ⟨vs, h1, h2, h3⟩, rfl⟩

/-- `constant<v>` gives `v`, whatever was parsed. -/
theorem C38_constant (C : Ctx α β) (p : Parser α) (k : Nat) (ht : C.constTy k ≠ .void) :
    ∃ q, callMod (.constant k) p = some (.parser q) ∧ resultFor C q = C.constTy k ∧ MapsTo C p q fun v l w =>
      l = [⟨.const k, argsOf (resultFor C p) v⟩] ∧ w = C.constVal k := by
  have h : resultFor C (.map p (.const k)) = C.constTy k := by simp [resultFor, mapTy, fnTy]
  refine ⟨_, rfl, h, (mapsTo C p _).mono fun v l w => ?_⟩
  rw [h]
  simp only [returned, if_neg ht, invoke, M.bind_eq, M.log, M.bind, M.pure, M.after, M.done.injEq, Res.ok.injEq]
  constructor
  · rintro ⟨x, ⟨h1, rfl⟩, rfl⟩; exact ⟨h1.symm, rfl⟩
  · rintro ⟨rfl, rfl⟩; exact ⟨_, ⟨rfl, rfl⟩, rfl⟩

/-- `defaulted<T>` gives `T{}`, whatever was parsed. -/
theorem C38_defaulted (C : Ctx α β) (p : Parser α) (t : Ty) (d : Val) (hd : IsDefault C t d)
    (ht : t ≠ .void) :
    ∃ q, callMod (.defaulted t) p = some (.parser q) ∧ resultFor C q = t ∧ MapsTo C p q fun v l w =>
      l = [⟨.deflt t, argsOf (resultFor C p) v⟩] ∧ w = d := by
  rw [isDefault_iff] at hd
  have h : resultFor C (.map p (.deflt t)) = t := by simp [resultFor, mapTy, fnTy, hd]
  refine ⟨_, rfl, h, (mapsTo C p _).mono fun v l w => ?_⟩
  rw [h]
  have hi : invoke C (.deflt t) (argsOf (resultFor C p) v) = .done [⟨.deflt t, argsOf (resultFor C p) v⟩] (.ok d) := by
    simp only [invoke, M.bind_eq, hd]; rfl
  simp only [returned, if_neg ht, hi, M.done.injEq, Res.ok.injEq]
  constructor
  · rintro ⟨x, ⟨h1, rfl⟩, rfl⟩; exact ⟨h1.symm, rfl⟩
  · rintro ⟨rfl, rfl⟩; exact ⟨_, ⟨rfl, rfl⟩, rfl⟩

-- ("a" >> "b") % apply<f> on "ab"; "a" % constant<c>; "a" % into<string_view>
example : Parses (Ex.ctx "ab") (.map (.sequence [Ex.all "a", Ex.all "b"]) (.apply (.user 0))) (Ex.input "ab")
    [⟨.user 0, [.span ⟨.at 0 0, 1⟩, .span ⟨.at 0 1, 1⟩]⟩]
    (.user 0 0 [.span ⟨.at 0 0, 1⟩, .span ⟨.at 0 1, 1⟩]) ⟨.at 0 2, 0⟩ := Ex.parses _ 6 rfl
example : callMod (.into (.user 3)) (Ex.all "a") = some (.parser (.map (Ex.all "a") (.construct (.user 3)))) ∧
    tyOK (Ex.ctx "a") (.map (Ex.all "a") (.construct (.user 3))) = true := ⟨rfl, rfl⟩
example : IsDefault (Ex.ctx "a") (.opt .span) (.opt none) := .opt
example : IsDefault (Ex.ctx "") (.tup [.arr .span 2, .var [.vec .span, .user 0]])
    (.tup [.arr [.span ⟨.null, 0⟩, .span ⟨.null, 0⟩], .var 0 (.vec [])]) :=
  .tup (.cons (.arr (n := 2) .span) (.cons (.var .vec) .nil))

/-! ## C41 Custom parsers -/

/-- A custom parser's `lookahead` is that of `get_parser()`; if the declared result type is
that of the body, or there is none, so is `parse`.  Otherwise the value is converted and all
else is that of the body — unless the declared type can be made from `std::optional` of the
body's type.  Then the value is made from the optional, and `parse` succeeds where the body fails. -/
theorem C41_custom [LinearOrder α] (C : Ctx α β) (k : Nat) (hc : Compiles C (.custom k)) (s : Span) :
    let body := (C.custom k).body
    Look C (.custom k) s = Look C body s ∧ resultFor C (.custom k) = (C.custom k).ty ∧
    ((C.custom k).declared = false → (C.custom k).ty = resultFor C body) ∧
    ((C.custom k).ty = resultFor C body → Parse C (.custom k) s = Parse C body s) ∧
    ((C.custom k).ty ≠ resultFor C body → ¬ Pretends C k → ∃ g, C.conv (resultFor C body) (C.custom k).ty = some g ∧
      Parse C (.custom k) s = mapVal g (Parse C body s)) ∧
    (Pretends C k → ∃ g, fromOptional C (resultFor C body) (C.custom k).ty = some g ∧
      Parse C (.custom k) s = M.bind (Parse C body s) fun r => M.pure ⟨some (g r.val), r.rem⟩) := by
  intro body
  have hnv : (C.custom k).ty ≠ resultFor C body → resultFor C body ≠ .void ∧ (C.custom k).ty ≠ .void ∧
      ((fromOptional C (resultFor C body) (C.custom k).ty).isSome = true ∨
        (C.conv (resultFor C body) (C.custom k).ty).isSome = true) := fun h => by
    have hp := hc.parse
    simp only [parseOK, Bool.or_eq_true, decide_eq_true_eq, Bool.and_eq_true, bne_iff_ne] at hp
    rcases hp with hp | hp
    · exact absurd hp.symm h
    · exact ⟨hp.1.1, hp.1.2, hp.2⟩
  refine ⟨Look_custom s k, by rw [resultFor], hc.ctx.inferred k, fun h => ?_, fun h hn => ?_, fun hn => ?_⟩
  · rw [Parse_custom, parseCustom]
    simp only [den, M.bind_eq]
    trans M.bind (Parse C body s) M.pure
    · refine M.bind_congr fun r => ?_
      rw [convertResult, if_pos (by exact h.symm)]
    · rw [M.bind_pure]
  · obtain ⟨h1, h2, h3⟩ := hnv h
    have hf : fromOptional C (resultFor C body) (C.custom k).ty = none := by
      by_contra hf
      exact hn ⟨fun e => h e.symm, by rwa [Option.isSome_iff_ne_none]⟩
    rw [hf] at h3
    obtain ⟨g, hg⟩ := Option.isSome_iff_exists.1 (h3.resolve_left nofun)
    refine ⟨g, hg, ?_⟩
    rw [Parse_custom, parseCustom, mapVal]
    simp only [den, M.bind_eq]
    refine M.bind_congr fun r => ?_
    obtain ⟨rv, rr⟩ := r
    rw [convertResult, if_neg (by exact fun e => h e.symm), if_neg (by simp [body] at h1; simp [h1, h2]), hf]
    cases rv with
    | none => rfl
    | some v =>
      simp only [M.bind_eq]
      rw [convert, if_neg (fun e => h e.symm), hg]; simp
  · obtain ⟨h1, h2, -⟩ := hnv fun e => hn.1 e.symm
    obtain ⟨g, hg⟩ := Option.isSome_iff_exists.1 hn.2
    refine ⟨g, hg, ?_⟩
    rw [Parse_custom, parseCustom]
    simp only [den, M.bind_eq]
    refine M.bind_congr fun r => ?_
    rw [convertResult, if_neg (by exact hn.1), if_neg (by simp [body] at h1; simp [h1, h2]), hg]

/-- A custom parser succeeds where its body fails exactly if its declared type is made from the optional. -/
theorem C41_verdict [LinearOrder α] (C : Ctx α β) (k : Nat) (hc : Compiles C (.custom k)) (s : Span) {log : List Call} {s' : Span}
    (h : ParseFails C (C.custom k).body s log s') :
    (¬ Pretends C k → ParseFails C (.custom k) s log s') ∧ (Pretends C k → ∃ v, Parses C (.custom k) s log v s') := by
  obtain ⟨-, -, -, h1, h2, h3⟩ := C41_custom C k hc s
  unfold ParseFails at h
  refine ⟨fun hn => ?_, fun hn => ?_⟩
  · unfold ParseFails
    by_cases e : (C.custom k).ty = resultFor C (C.custom k).body
    · rw [h1 e, h]
    · obtain ⟨g, -, hg⟩ := h2 e hn
      rw [hg, h, mapVal]; simp [M.bind_eq, M.ok_bind, M.pure]
  · obtain ⟨g, -, hg⟩ := h3 hn
    exact ⟨g none, by unfold Parses; rw [hg, h]; simp [M.ok_bind, M.pure]⟩

/-- the examples with a custom parser `"a"` of type `std::optional<output_span<char>>` -/
def Ex.lenient (text : String) : Ctx Nat Nat := { Ex.ctx text with
  custom := fun _ => ⟨Ex.all "a", true, .opt .span⟩ }

/-- It accepts every text: of "b" it consumes nothing. -/
theorem C41_refuted_body_fails :
    Compiles (Ex.lenient "b") (.custom 0) ∧ Pretends (Ex.lenient "b") 0 ∧
    ParseFails (Ex.lenient "b") ((Ex.lenient "b").custom 0).body (Ex.input "b") [] (Ex.input "b") ∧
    Parses (Ex.lenient "b") (.custom 0) (Ex.input "b") [] (.opt none) (Ex.input "b") ∧
    LookFails (Ex.lenient "b") (.custom 0) (Ex.input "b") [] (Ex.input "b") :=
  ⟨⟨⟨fun _ => rfl, fun _ => rfl, fun _ => rfl, fun _ => nofun⟩, rfl, rfl, rfl⟩, ⟨by decide, rfl⟩,
    Ex.parses _ 3 rfl, Ex.parses _ 3 rfl, Ex.looks _ 3 rfl⟩

-- the custom parser 0 of the examples: "(" ~custom0 ")", declared to convert
example : Compiles (Ex.ctx "(())") (.custom 0) ∧
    ((Ex.ctx "(())").custom 0).ty ≠ resultFor (Ex.ctx "(())") ((Ex.ctx "(())").custom 0).body ∧
    ∃ v, Parses (Ex.ctx "(())") (.custom 0) (Ex.input "(())") [] v ⟨.at 0 4, 0⟩ :=
  ⟨⟨Ex.ctx_ok _, rfl, rfl, rfl⟩, by decide, _, Ex.parses _ 12 rfl⟩

end Tok3n
