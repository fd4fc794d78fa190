import Verif.Props.Literals
import Verif.Props.Modify
import Verif.Props.Repetition
/-
The ways to write a parser (literals, `p % m`) build what C07, C23, C24, C25, C31 and C32 are about.
-/

namespace Tok3n

variable {α β : Type}

/-! ## C07 "..."_all and "..."_ign -/

/-- `"..."_all` and `"..."_ign` accept exactly an input that starts with the characters written, and consume those.  The
value of the first is their span; the second has no value. -/
theorem C07_literals (C : Ctx α β) (arr : List α) (s : Span) (hs : s.Valid C.mem) (log : List Call) (v : Val) (s' : Span) :
    (Parses C (allApi arr) s log v s' ↔ log = [] ∧ Matches C.eqv (.allOf arr) (s.elems C.mem) arr.length ∧
      v = .span ⟨s.ptr, arr.length⟩ ∧ s.Advanced arr.length s') ∧
    (ParseFails C (allApi arr) s log s' ↔ log = [] ∧ s' = s ∧ ¬ Matches C.eqv (.allOf arr) (s.elems C.mem) arr.length) ∧
    (Parses C (ignApi arr) s log v s' ↔ log = [] ∧ Matches C.eqv (.allOf arr) (s.elems C.mem) arr.length ∧
      v = .unit ∧ s.Advanced arr.length s') ∧
    (ParseFails C (ignApi arr) s log s' ↔ log = [] ∧ s' = s ∧ ¬ Matches C.eqv (.allOf arr) (s.elems C.mem) arr.length) ∧
    resultFor C (ignApi arr) = .void := by
  have hl : ∀ k, Matches C.eqv (.allOf arr) (s.elems C.mem) k → k = arr.length := by
    intro k h; exact h.1
  obtain ⟨h1, h2⟩ := C07_basic_parse C (allApi arr) trivial s hs log v s'
  obtain ⟨h3, h4⟩ := C07_basic_lookahead C (allApi arr) trivial s hs log s'
  obtain ⟨h5, h6, -, -, h7⟩ := C26_ignore C (allApi arr) s s' log
  have e : (∀ k, ¬ Matches C.eqv (.allOf arr) (s.elems C.mem) k) ↔ ¬ Matches C.eqv (.allOf arr) (s.elems C.mem) arr.length :=
    ⟨fun h => h _, fun h k hk => h (hl k hk ▸ hk)⟩
  refine ⟨h1.trans ?_, h2.trans ?_, (h5 v).trans ?_, h6.trans ?_, h7⟩
  · constructor
    · rintro ⟨rfl, k, hk, rfl, ha⟩
      obtain rfl := hl k hk
      exact ⟨rfl, hk, rfl, ha⟩
    · rintro ⟨rfl, hk, rfl, ha⟩
      exact ⟨rfl, _, hk, rfl, ha⟩
  · rw [allApi, e]
  · rw [h3]
    constructor
    · rintro ⟨⟨rfl, k, hk, ha⟩, rfl, -⟩
      obtain rfl := hl k hk
      exact ⟨rfl, hk, rfl, ha⟩
    · rintro ⟨rfl, hk, rfl, ha⟩
      exact ⟨⟨rfl, _, hk, ha⟩, rfl, rfl⟩
  · rw [h4, allApi, e]
    constructor
    · rintro ⟨h, -, -⟩; exact h
    · rintro ⟨rfl, rfl, h⟩; exact ⟨⟨rfl, rfl, h⟩, rfl, rfl⟩

example : Matches (· == ·) (Ex.all "ab") (Ex.str "abc") 2 :=
  ((C07_literals (Ex.ctx "abc") (Ex.str "ab") (Ex.input "abc") (Ex.input_valid _) _ _ _).2.2.1.1
    (Ex.parses _ 3 rfl : Parses _ (ignApi (Ex.str "ab")) _ [] .unit ⟨.at 0 2, 1⟩)).2.1

/-! ## The modifiers -/

/-- The parser that `p % m` makes. -/
def Makes (p : Parser α) (m : Modifier α) (q : Parser α) : Prop :=
  percent (.parser p) (.modifier m) = some (.parser q)

/-- `p % exactly<N>` succeeds exactly if `p` does `N` times in a row; the value holds the `N` values in order. -/
theorem C23_modifier [LinearOrder α] (C : Ctx α β) (p : Parser α) (N : Nat) : ∃ q, Makes p (.exactly N) q ∧
    (Compiles C q → ∀ s s' log w, Parses C q s log w s' ↔
      ∃ vs, InTurn (List.replicate N (Parse C p)) s log vs s' ∧ w = arrayValue (resultFor C p) vs) :=
  ⟨_, rfl, fun h s s' log => (C23_exactly C p N h s s' log).1⟩

example : ∃ q, Makes (Ex.any "ab") (.exactly 2) q ∧ Compiles (Ex.ctx "abc") q := ⟨_, rfl, ⟨Ex.ctx_ok _, rfl, rfl, rfl⟩⟩

/-- `p % delimit(d)` and `delimit(p, d)` find `p`, then as often as possible `d` and `p`; the value holds those of the
`p`, and the delimiters are looked for by lookahead only. -/
theorem C24_modifier (C : Ctx α β) (p d : Parser α) : ∃ m q, callMod .delimit d = some (.modifier m) ∧
    m = delimitApi₁ d ∧ Makes p m q ∧ q = delimitApi p d ∧
    ∀ s s' log, (∀ w, Parses C q s log w s' ↔
      ∃ l vs ds, Delimited (Parse C p) (Look C d) s l vs ds s' ∧
        ∃ l', NoMore (Parse C p) (Look C d) s' l' ∧ log = l ++ l' ∧ w = vectorValue (resultFor C p) vs) ∧
    (ParseFails C q s log s' ↔ ParseFails C p s log s') :=
  ⟨_, _, rfl, rfl, rfl, rfl, fun s s' log => C24_delimit C p d s s' log⟩

/-- `p % delimit_keep(d)` and `delimit_keep(p, d)` find `p`, then as often as possible `d` and `p`; the value holds
those of the `p` and those of the `d`. -/
theorem C25_modifier (C : Ctx α β) (p d : Parser α) (hp : resultFor C p ≠ .void) (hd : resultFor C d ≠ .void) :
    ∃ m q, callMod .delimitKeep d = some (.modifier m) ∧ m = delimitKeepApi₁ d ∧ Makes p m q ∧ q = delimitKeepApi p d ∧
    ∀ s s' log, (∀ w, Parses C q s log w s' ↔
      ∃ l l' vs ds, w = .pair (.vec vs) (.vec ds) ∧ Delimited (Parse C p) (Parse C d) s l vs ds s' ∧
        NoMore (Parse C p) (Parse C d) s' l' ∧ log = l ++ l') ∧
    (ParseFails C q s log s' ↔ ParseFails C p s log s') :=
  ⟨_, _, rfl, rfl, rfl, rfl, fun s s' log =>
    ⟨(C25_delimit_keep C p d hp hd s s' log).1, (C25_delimit_keep C p d hp hd s s' log).2.2⟩⟩

example : resultFor (Ex.ctx "a+b") (Ex.any "ab") ≠ .void ∧ resultFor (Ex.ctx "a+b") (Ex.any "+-") ≠ .void ∧
    Parses (Ex.ctx "a+b") (delimitKeepApi (Ex.any "ab") (Ex.any "+-")) (Ex.input "a+b") []
      (.pair (.vec [.span ⟨.at 0 0, 1⟩, .span ⟨.at 0 2, 1⟩]) (.vec [.span ⟨.at 0 1, 1⟩])) ⟨.at 0 3, 0⟩ :=
  ⟨nofun, nofun, Ex.parses _ 6 rfl⟩

/-- `p % map<f>` calls `f` once, with the value of `p`, after a success. -/
theorem C31_modifier (C : Ctx α β) (p : Parser α) (k : Nat) : ∃ q, Makes p (.map k) q ∧ ∀ s s' log,
    (∀ w, Parses C q s log w s' ↔ ∃ l v x, Parses C p s l v s' ∧
      log = l ++ [⟨.user k, argsOf (resultFor C p) v⟩] ∧ C.fnCall k (argsOf (resultFor C p) v) = .ok x ∧
      w = returned (resultFor C q) x) ∧
    (ParseFails C q s log s' ↔ ParseFails C p s log s') :=
  ⟨_, rfl, fun s s' log => ⟨(C31_map C p k s s' log).1, (C31_map C p k s s' log).2.1⟩⟩

/-- `p % filter<f>` succeeds exactly if `p` does and `f` accepts its value. -/
theorem C32_modifier (C : Ctx α β) (p : Parser α) (k : Nat) : ∃ q, Makes p (.filter k) q ∧ ∀ s s' log,
    (∀ v, Parses C q s log v s' ↔ ∃ l x, Parses C p s l v s' ∧
      log = l ++ [⟨.user k, argsOf (resultFor C p) v⟩] ∧ C.fnCall k (argsOf (resultFor C p) v) = .ok x ∧
      C.truthy x = true) ∧
    (ParseFails C q s log s' ↔ s' = s ∧ (ParseFails C p s log s ∨
      ∃ l v s1 x, Parses C p s l v s1 ∧ log = l ++ [⟨.user k, argsOf (resultFor C p) v⟩] ∧
        C.fnCall k (argsOf (resultFor C p) v) = .ok x ∧ C.truthy x = false)) :=
  ⟨_, rfl, fun s s' log => ⟨(C32_filter C p k s s' log).1, (C32_filter C p k s s' log).2.1⟩⟩

/-- `p % ignore`, `p % complete` and `p % join` behave as C26, C27 and C28 say, also where they return `p` itself. -/
theorem C37_modifiers [LinearOrder α] (C : Ctx α β) (p : Parser α) :
    (∃ q, Makes p .ignore q ∧ ∀ s s' log w, Parses C q s log w s' ↔ Looks C p s log s' ∧ w = .unit ∧ log = []) ∧
    (∃ q, Makes p .complete q ∧ ∀ s s' log w, Parses C q s log w s' ↔ Parses C p s log w s' ∧ s'.len = 0) ∧
    (∃ q, Makes p .join q ∧ (Compiles C (.join p) → C.Typed → SpanLocal C p → ∀ s, s.Valid C.mem → ∀ s' log w,
      Parses C q s log w s' ↔ ∃ v, Parses C p s log v s' ∧ Contiguous (nonEmpty (joinLeaves C v)) ∧
        w = .span (cover s' (nonEmpty (joinLeaves C v))))) := by
  refine ⟨?_, ?_, ?_⟩
  · obtain ⟨q, h1, -⟩ := (C37_collapse C p ⟨.null, 0⟩).1
    refine ⟨q, h1, fun s s' log w => ?_⟩
    obtain ⟨q', h1', -, h2, -⟩ := (C37_collapse C p s).1
    rw [h1] at h1'
    obtain rfl : q = q' := by simpa using h1'
    rw [← (C26_ignore C p s s' log).1 w, Parses, Parses, h2]
  · obtain ⟨q, h1, -⟩ := (C37_collapse C p ⟨.null, 0⟩).2.2
    refine ⟨q, h1, fun s s' log w => ?_⟩
    obtain ⟨q', h1', -, h2, -⟩ := (C37_collapse C p s).2.2
    rw [h1] at h1'
    obtain rfl : q = q' := by simpa using h1'
    rw [← (C27_complete C p s s' log).1 w, Parses, Parses, h2]
  · obtain ⟨q, h1, -⟩ := (C37_collapse C p ⟨.null, 0⟩).2.1
    refine ⟨q, h1, fun hc ht hl s hs s' log w => ?_⟩
    obtain ⟨q', h1', -, h2, -⟩ := (C37_collapse C p s).2.1
    rw [h1] at h1'
    obtain rfl : q = q' := by simpa using h1'
    rw [← (C28_join C p hc ht hl s hs s' log).1 w, Parses, Parses, h2]

-- a list of letters with commas between them
example : ∃ q, Makes (Ex.any "ab") (delimitApi₁ (Ex.all ",")) q ∧
    Parses (Ex.ctx "a,b,") q ⟨.at 0 0, 4⟩ [] (.vec [.span ⟨.at 0 0, 1⟩, .span ⟨.at 0 2, 1⟩]) ⟨.at 0 3, 1⟩ :=
  ⟨_, rfl, Ex.parses _ 6 rfl⟩

end Tok3n
