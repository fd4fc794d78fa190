import Verif.Proof.EffortExact
import Verif.Props.Stack
/-
C65: how many calls a parse makes.
-/

namespace Tok3n

variable {α β : Type}

/-- Counting the calls changes nothing: the outcome is the same, and without the marks the log is the same. -/
theorem C65_counts (C : Ctx α β) (p : Parser α) (s : Span) (log : List Call) (r : Res R) :
    (Parse C p s = .done log r ↔ ∃ log', CountedParse C p s = .done log' r ∧ unmarked log' = log) ∧
    (Look C p s = .done log r ↔ ∃ log', CountedLook C p s = .done log' r ∧ unmarked log' = log) := by
  rw [← CountedParse_erases, ← CountedLook_erases]
  exact ⟨erase_eq_done, erase_eq_done⟩

/-- A call of `parse` or `lookahead` is counted whatever it calls in turn. -/
theorem C65_each_call (C : Ctx α β) (p : Parser α) (s : Span) (n : Nat)
    (h : ParseCalls C p s n ∨ LookCalls C p s n) : 1 ≤ n := by
  have key : ∀ m : Run R, ∀ log r, M.bind (M.log callMark) (fun _ => m) = .done log r → 1 ≤ log.length := by
    intro m log r h
    rw [show (M.log callMark : Run Unit) = .done [callMark] (.ok ()) from rfl, M.ok_bind] at h
    obtain ⟨l, -, rfl⟩ := M.after_eq_done.1 h
    simp
  rcases h with ⟨log, r, h, rfl⟩ | ⟨log, r, h, rfl⟩
  · rw [CountedParse_eq] at h; exact key _ _ _ h
  · rw [CountedLook_eq] at h; exact key _ _ _ h

/-- A grammar that does not recurse: if a parse ends at all, then after at most `effort` calls. -/
theorem C65_bound (C : Ctx α β) (p : Parser α) (d : Nat) (h : Fits C d p) (s : Span) (n : Nat)
    (hn : ParseCalls C p s n ∨ LookCalls C p s n) : n ≤ effort C d p s.len := by
  rcases hn with ⟨log, r, hl, rfl⟩ | ⟨log, r, hl, rfl⟩
  · exact (CountedParse_costs h s).on _ _ hl
  · exact (CountedLook_costs h s).on _ _ hl

/-- That is a polynomial in the length of the input, of a degree no higher than repetitions are nested. -/
theorem C65_polynomial (C : Ctx α β) (p : Parser α) (d : Nat) (h : Fits C d p) :
    ∃ c, ∀ (s : Span) (n : Nat), ParseCalls C p s n ∨ LookCalls C p s n → n ≤ c * (s.len + 1) ^ loops C d p := by
  obtain ⟨c, hc⟩ := effort_poly (C := C) d p
  exact ⟨c, fun s n hn => Nat.le_trans (C65_bound C p d h s n hn) (hc s.len)⟩

/-- Without repetitions: a number of calls that does not depend on the input. -/
theorem C65_constant (C : Ctx α β) (p : Parser α) (d : Nat) (h : Fits C d p) (h0 : loops C d p = 0) :
    ∃ c, ∀ (s : Span) (n : Nat), ParseCalls C p s n ∨ LookCalls C p s n → n ≤ c := by
  obtain ⟨c, hc⟩ := C65_polynomial C p d h
  rw [h0] at hc
  exact ⟨c, fun s n hn => by simpa using hc s n hn⟩

/-- Without a repetition in a repetition: linearly many. -/
theorem C65_linear (C : Ctx α β) (p : Parser α) (d : Nat) (h : Fits C d p) (h1 : loops C d p ≤ 1) :
    ∃ c, ∀ (s : Span) (n : Nat), ParseCalls C p s n ∨ LookCalls C p s n → n ≤ c * (s.len + 1) := by
  obtain ⟨c, hc⟩ := C65_polynomial C p d h
  refine ⟨c, fun s n hn => Nat.le_trans (hc s n hn) (Nat.mul_le_mul_left _ ?_)⟩
  calc (s.len + 1) ^ loops C d p ≤ (s.len + 1) ^ 1 := Nat.pow_le_pow_right (Nat.succ_pos _) h1
    _ = s.len + 1 := Nat.pow_one _

/-- The degree is needed: with `d` repetitions nested there is a parser that does take in the order of `n ^ d` calls,
on every input that repeats one element. -/
theorem C65_degree (C : Ctx α β) (a b : α) (d : Nat) (s : Span) (hs : s.Valid C.mem)
    (ha : ∀ x ∈ s.elems C.mem, C.eqv a x = true) (hb : ∀ x ∈ s.elems C.mem, C.eqv b x = false) :
    loops C (5 * d + 1) (tower a b d) = d ∧ Fits C (5 * d + 1) (tower a b d) ∧
      ∃ n, ParseCalls C (tower a b d) s n ∧ (s.len + 1) ^ d ≤ d.factorial * n := by
  refine ⟨?_, ?_, ?_⟩
  · clear hs ha hb
    suffices H : ∀ e, 5 * d + 1 ≤ e → loops C e (tower a b d) = d from H _ (Nat.le_refl _)
    induction d with
    | zero => intro e he; obtain ⟨e, rfl⟩ : ∃ x, e = x + 1 := ⟨e - 1, by omega⟩; rfl
    | succ d ih =>
      intro e he
      obtain ⟨e, rfl⟩ : ∃ x, e = x + 6 := ⟨e - 6, by omega⟩
      have h := ih (e + 2) (by omega)
      show max (max (loops C (e + 2) (tower a b d)) (max 0 0)) (max 0 0) + 1 = d + 1
      rw [h]; simp
  · clear hs ha hb
    have leaf : ∀ (e : Nat) (x : List α), Fits C (e + 2) (.ignore (.allOf x)) := fun e x =>
      .intro (fun q hq => by
        cases List.mem_singleton.1 hq; exact .intro nofun nofun) nofun
    suffices H : ∀ e, 5 * d + 1 ≤ e → Fits C e (tower a b d) from H _ (Nat.le_refl _)
    induction d with
    | zero => intro e he; obtain ⟨e, rfl⟩ : ∃ x, e = x + 1 := ⟨e - 1, by omega⟩; exact .intro nofun nofun
    | succ d ih =>
      intro e he
      obtain ⟨e, rfl⟩ : ∃ x, e = x + 6 := ⟨e - 6, by omega⟩
      refine .intro (fun q hq => ?_) nofun
      cases List.mem_singleton.1 hq
      refine .intro (fun q hq => ?_) nofun
      cases List.mem_singleton.1 hq
      refine .intro (fun q hq => ?_) nofun
      rcases List.mem_cons.1 hq with rfl | hq
      · refine .intro (fun q hq => ?_) nofun
        rcases List.mem_cons.1 hq with rfl | hq
        · exact ih _ (by omega)
        · cases List.mem_singleton.1 hq; exact leaf e _
      · cases List.mem_singleton.1 hq; exact leaf (e + 1) _
  · cases d with
    | zero =>
      refine ⟨1, ?_, by simp⟩
      obtain ⟨l, h1, h2⟩ : Took (CountedParse C .epsilon s) (R.successVoid s) 1 := by
        refine Took.parse (n := 0) ?_
        show Took (lim fun _ => parseEpsilon s) _ _
        rw [lim_const]; exact .pure _
      exact ⟨l, _, h1, h2⟩
    | succ d =>
      obtain ⟨s', n, -, ⟨l, h1, h2⟩, h3⟩ := tower_took (C := C) a b (d + 1) ⟨⟨hs, ha⟩, hb⟩
      -- `parse` of `ignore(p)` is its `lookahead`
      have e : CountedParse C (tower a b (d + 1)) s = CountedLook C (tower a b (d + 1)) s := by
        rw [CountedParse_eq, CountedLook_eq]; rfl
      refine ⟨n, ⟨l, _, e ▸ h1, h2⟩, Nat.le_trans (pow_le_choose s.len (d + 1)) (Nat.mul_le_mul_left _ h3)⟩

/-- A grammar that recurses can take exponentially many calls: a custom parser with two alternatives that both start
with the same element and then itself, on an input that repeats this element. -/
theorem C65_exponential (C : Ctx α β) (k : Nat) (a : α) (p q : List (Parser α))
    (hk : (C.custom k).body = .choice [.sequence (.allOf [a] :: .custom k :: p), .sequence (.allOf [a] :: .custom k :: q)])
    (s : Span) (hs : s.Valid C.mem) (ha : ∀ x ∈ s.elems C.mem, C.eqv a x = true) :
    ∃ n, LookCalls C (.custom k) s n ∧ 2 ^ s.len ≤ n := by
  obtain ⟨n, ⟨l, h1, h2⟩, h3⟩ := doubling_took hk ⟨hs, ha⟩
  exact ⟨n, ⟨l, _, h1, h2⟩, h3⟩

/-! The hypotheses are met -/

/-- `Fits` as a check -/
def fitsB (C : Ctx α β) : Nat → Parser α → Bool
  | 0, _ => false
  | d + 1, p => p.parts.all (fitsB C d) && match p with
    | .custom k => fitsB C d (C.custom k).body
    | _ => true

theorem fits_of_check {C : Ctx α β} {d : Nat} {p : Parser α} (h : fitsB C d p = true) : Fits C d p := by
  induction d generalizing p with
  | zero => cases h
  | succ d ih =>
    simp only [fitsB, Bool.and_eq_true, List.all_eq_true] at h
    refine .intro (fun q hq => ih (h.1 q hq)) ?_
    rintro k rfl
    exact ih h.2

/-- `delimit(+"x".any, ",")` then a custom parser that does not recurse: a repetition in a repetition, so at most
quadratic. -/
example (text : String) : ∃ c, ∀ (s : Span) (n : Nat),
    ParseCalls (Ex.ctx text) (.sequence [.delimit (.oneOrMore (Ex.any "x")) (Ex.all ","), .custom 1]) s n ∨
      LookCalls (Ex.ctx text) (.sequence [.delimit (.oneOrMore (Ex.any "x")) (Ex.all ","), .custom 1]) s n →
    n ≤ c * (s.len + 1) ^ 2 :=
  C65_polynomial _ (.sequence [.delimit (.oneOrMore (Ex.any "x")) (Ex.all ","), .custom 1]) 4 (fits_of_check rfl)

/-- Without the outer repetition it is linear. -/
example (text : String) : ∃ c, ∀ (s : Span) (n : Nat),
    ParseCalls (Ex.ctx text) (.sequence [.oneOrMore (Ex.any "x"), .custom 1]) s n ∨
      LookCalls (Ex.ctx text) (.sequence [.oneOrMore (Ex.any "x"), .custom 1]) s n → n ≤ c * (s.len + 1) :=
  C65_linear _ (.sequence [.oneOrMore (Ex.any "x"), .custom 1]) 3 (fits_of_check rfl) (Nat.le_refl 1)

/-- `*(((*((eps >> "b") | "a")) >> "b") | "a")` compiles, and on three times `a` takes at least 8 calls. -/
example : Compiles (Ex.ctx "aaa") (tower 97 98 2) ∧
    ∃ n, ParseCalls (Ex.ctx "aaa") (tower 97 98 2) (Ex.input "aaa") n ∧ (3 + 1) ^ 2 ≤ 2 * n := by
  refine ⟨⟨Ex.ctx_ok _, rfl, rfl, rfl⟩, ?_⟩
  exact (C65_degree (Ex.ctx "aaa") 97 98 2 (Ex.input "aaa") (Ex.input_valid _) (by decide) (by decide)).2.2

/-- A custom parser `("a" >> custom >> "b") | ("a" >> custom)`, and three times `a`. -/
example : ∃ n, LookCalls { Ex.ctx "aaa" with
      custom := fun _ => ⟨.choice [.sequence [Ex.all "a", .custom 0, Ex.all "b"], .sequence [Ex.all "a", .custom 0]],
        true, .user 2⟩ } (.custom 0) (Ex.input "aaa") n ∧ 2 ^ 3 ≤ n :=
  C65_exponential { Ex.ctx "aaa" with
      custom := fun _ => ⟨.choice [.sequence [Ex.all "a", .custom 0, Ex.all "b"], .sequence [Ex.all "a", .custom 0]],
        true, .user 2⟩ } 0 97 _ _ rfl (Ex.input "aaa") (Ex.input_valid _) (by decide)

end Tok3n
