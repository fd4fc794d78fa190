import Verif.Proof.Comparisons
/-
C83: how many elements are compared.
-/

namespace Tok3n

variable {α β : Type}

/-- The rules say at most one number, and one outcome. -/
theorem C83_deterministic (C : Ctx α β) (p : Parser α) (xs : List β) (n n' : Nat) (o o' : Option Nat)
    (h : PegCompares C p xs n o) (h' : PegCompares C p xs n' o') : n = n' ∧ o = o' :=
  ⟨h.unique h', C45_deterministic _ _ _ _ _ _ h.peg h'.peg⟩

/-- `lookahead` on a readable input returns after exactly as many comparisons as the rules say, and if it does not
return the rules give no number. -/
theorem C83_lookahead_exact (C : Ctx α β) (p : Parser α) (s : Span) (hs : s.Valid C.mem) (n : Nat) :
    LookCompares C p s n ↔ ∃ o, PegCompares C p (s.elems C.mem) n o := by
  have sound : ∀ {n}, LookCompares C p s n → ∃ o, PegCompares C p (s.elems C.mem) n o := by
    rintro n ⟨log, r, h⟩
    obtain ⟨k, hk⟩ := ((Interrupted.sem_lim p s (0, ())).2.iff log _).1 h
    obtain ⟨m, h1, o, h2, -⟩ := (Tally.sem_sound (σ := Unit) k p).1 s hs _ _ _ _ _ _ hk
    rw [Nat.zero_add] at h1
    subst h1
    exact ⟨o, h2⟩
  refine ⟨sound, ?_⟩
  rintro ⟨o, h⟩
  obtain ⟨cs, hcs⟩ := C82_lookahead (U := .ofCtx C) (st := ()) (h.peg.look s hs rfl)
  have h1 := hcs Nat tally 0
  rcases Interrupted.play_cases tally 0 (cs.map fun c => Interrupted.Event.op (.compare c.1 c.2)) (.ok (pegResult s o, ())) with
    ⟨_, _, _, _, o, t, h2⟩ | ⟨x, _, m, _, h3⟩ | ⟨_, h2, _⟩
  · cases o <;> cases h2
  · have h4 : LookCompares C p s m := ⟨_, x, h1.trans h3⟩
    obtain ⟨o', h5⟩ := sound h4
    rwa [h.unique h5]
  · cases h2

/-- So does `parse`, where nothing overrules a match, if it returns: values and callbacks cost no comparisons. -/
theorem C83_parse_exact (C : Ctx α β) (p : Parser α) (hp : NeverOverrules C p) (s : Span) (hs : s.Valid C.mem) (n : Nat) :
    ParseCompares C p s n ↔
      (∃ o, PegCompares C p (s.elems C.mem) n o) ∧ ∃ log r, Parse C p s = .done log (.ok r) := by
  have sound : ∀ {n}, ParseCompares C p s n → ∃ o, PegCompares C p (s.elems C.mem) n o := by
    rintro n ⟨log, r, h⟩
    obtain ⟨k, hk⟩ := ((Interrupted.sem_lim p s (0, ())).1.iff log _).1 h
    obtain ⟨m, h1, o, h2, -⟩ := (Tally.sem_sound (σ := Unit) k p).2 hp s hs _ _ _ _ _ _ hk
    rw [Nat.zero_add] at h1
    subst h1
    exact ⟨o, h2⟩
  have lifted : Stateful.Parse C (.ofCtx C) p s () = M.bind (Parse C p s) fun r => M.pure (r, ()) :=
    congrFun (Stateful.Parse_lift C p s) ()
  refine ⟨fun h => ⟨sound h, ?_⟩, ?_⟩
  · obtain ⟨log, r, h⟩ := h
    rcases hm : Parse C p s with _ | ⟨l, r' | e⟩
    · rw [hm] at lifted
      rcases C82_endless lifted tally 0 with h3 | ⟨_, _, h3, _⟩
      · rw [h3] at h; cases h
      · rw [h3] at h; cases h
    · exact ⟨_, _, rfl⟩
    · rw [hm] at lifted
      rcases C82_stops lifted tally 0 with ⟨_, _, h3, _⟩ | ⟨x, st', _, h4, h3⟩ | ⟨_, _, h3⟩
      · rw [h3] at h; cases h
      · cases h4
      · rw [h3] at h; cases h
  · rintro ⟨⟨o, h⟩, log, r, hr⟩
    rw [hr] at lifted
    rcases C82_stops lifted tally 0 with ⟨_, _, h3, _, o, t, h4⟩ | ⟨x, st', m, h4, h3⟩ | ⟨_, h4, h3⟩
    · cases o <;> cases h4
    · have h5 : ParseCompares C p s m := ⟨_, x, h3⟩
      obtain ⟨o', h6⟩ := sound h5
      rwa [h.unique h6]
    · cases h4

/-- A literal is compared with no more elements than it has. -/
theorem C83_literal (C : Ctx α β) (p : Parser α) (hp : IsBasic p) (s : Span) (hs : s.Valid C.mem) (n : Nat)
    (h : LookCompares C p s n ∨ ParseCompares C p s n) : n ≤ p.literal := by
  have hn : NeverOverrules C p := Plain.never fun q hq => by
    cases hq with
    | refl => exact ⟨by (rintro r f rfl; cases hp), by (rintro r rfl; cases hp), by (rintro k rfl; cases hp)⟩
    | step h1 => cases h1 <;> cases hp
  have : ∃ o, PegCompares C p (s.elems C.mem) n o := by
    rcases h with h | h
    · exact (C83_lookahead_exact C p s hs n).1 h
    · exact ((C83_parse_exact C p hn s hs n).1 h).1
  obtain ⟨o, h⟩ := this
  cases h with
  | hit | miss => exact literalCompares_le ..
  | _ => cases hp

/-- Where the next element decides (C81), the comparisons, too, grow linearly with the text, whatever the compiler and
with it the ways in which `join` is implemented. -/
theorem C83_linear (C : Ctx α β) (p : Parser α) (ks : List Nat) (null : Nat → Bool) (rank : Nat → Nat)
    (begin' : Nat → β → Bool) (tab : Nat → Predicts β) (hp : productive C ks null rank p = true)
    (hn : ∀ k, k ∉ ks → null k = true) (ht : PredictTable C null begin' tab)
    (hok : (p.predicts C.eqv null begin' tab).ok) :
    ∃ c, ∀ mem tc relaxed e, ∀ s : Span, s.Valid mem →
      (∃ n ≤ c * (s.len + 1), LookCompares (C.on mem tc relaxed e) p s n) ∧
      (NeverOverrules (C.on mem tc relaxed e) p → ∀ n, ParseCompares (C.on mem tc relaxed e) p s n → n ≤ c * (s.len + 1)) := by
  have en : (fun k => !ks.contains k || null k) = null := by
    funext k
    by_cases h : k ∈ ks
    · simp [h]
    · simp [h, hn k h]
  have hp' := hp
  simp only [productive, en, Bool.and_eq_true, List.all_eq_true] at hp'
  obtain ⟨⟨-, h1⟩, h2⟩ := hp'
  obtain ⟨c, hc⟩ := pegSteps_linear ht p h1 (fun k hk => (h2 k hk).1.2) (fun k hk => (h2 k hk).2) hok
  obtain ⟨L, hL⟩ := exists_longest p h1 (fun k hk => (h2 k hk).1.2)
  refine ⟨L * c, fun mem tc relaxed e s hs => ?_⟩
  have bound : ∀ {n o}, PegCompares (C.on mem tc relaxed e) p (s.elems (C.on mem tc relaxed e).mem) n o →
      n ≤ L * c * (s.len + 1) := by
    intro n o h
    obtain ⟨m, h3, h4⟩ := h.bound (hL _ rfl)
    have h5 := hc (C.on mem tc relaxed e) rfl rfl _ _ _ h3
    rw [show ((s.elems (C.on mem tc relaxed e).mem).length) = s.len from hs.elems_length] at h5
    rw [Nat.mul_assoc]
    exact Nat.le_trans h4 (Nat.mul_le_mul_left _ h5)
  refine ⟨?_, fun hr n h => ?_⟩
  · obtain ⟨-, m, -, h3⟩ := C65_productive (C.on mem tc relaxed e) p
      (productive_sound (by rw [productive_on]; exact hp)) |>.choose_spec s hs
    obtain ⟨k, o, h4, -⟩ := (C65_lookahead_exact _ p s hs m).1 h3
    obtain ⟨n, h5⟩ := h4.peg.compares
    exact ⟨n, bound h5, (C83_lookahead_exact _ p s hs n).2 ⟨o, h5⟩⟩
  · obtain ⟨⟨o, h3⟩, -⟩ := (C83_parse_exact _ p hr s hs n).1 h
    exact bound h3

/-! ### Concrete cases -/

namespace Ex

theorem ilooks {α β τ σ : Type} {F : Interrupted.Env α β τ} {C : Ctx α β} {U : Stateful.Callbacks σ} {p : Parser α} {s : Span}
    {x : τ × σ} {l r} (n : Nat) (h : (Interrupted.sem F C U n p).look s x = .done l r) :
    Interrupted.Look F C U p s x = .done l r := ((Interrupted.sem_lim p s x).2.iff l r).2 ⟨n, h⟩

/-- `*"ab"_any >> "cd"_all` on `"abce"`: 1 and 2 comparisons for `a` and `b`, 2 more until the repetition ends, and 2
until `"cd"` fails. -/
theorem compared : LookCompares (ctx "abce") (.sequence [.zeroOrMore (any "ab"), all "cd"]) (input "abce") 7 :=
  ⟨[], R.failure (input "abce"), ilooks 9 (by decide +kernel)⟩
example : ∃ o, PegCompares (ctx "abce") (.sequence [.zeroOrMore (any "ab"), all "cd"]) (str "abce") 7 o :=
  (C83_lookahead_exact _ _ _ (input_valid _) 7).1 compared
/-- `parse` with a callback: the same number -/
theorem compared_marked : ParseCompares (ctx "abce") (.sequence [.zeroOrMore (.map (any "ab") (.user 0)), all "cd"]) (input "abce") 7 :=
  ⟨[⟨.user 0, [char 0]⟩, ⟨.user 0, [char 1]⟩], R.failure (input "abce"), iparses 9 (by decide +kernel)⟩
/-- an input shorter than the literal is not looked at -/
example : LookCompares (ctx "ab") (all "abc") (input "ab") 0 := ⟨[], R.failure (input "ab"), ilooks 3 (by decide +kernel)⟩
/-- the own loops of `join` compare the same elements -/
example : ParseCompares (ctx "abba") (.join (.oneOrMore (any "ab"))) (input "abba") 6 :=
  ⟨[], R.success (.span ⟨.at 0 0, 4⟩) ⟨.at 0 4, 0⟩, iparses 9 (by decide +kernel)⟩
example := C83_parse_exact (ctx "abce") (.sequence [.zeroOrMore (.map (any "ab") (.user 0)), all "cd"])
  (plain_of ctx_plain rfl).never (input "abce") (input_valid _) 7
example := C83_literal (ctx "ab") (all "abc") trivial (input "ab") (input_valid _) 0
  (.inl ⟨[], R.failure (input "ab"), ilooks 3 (by decide +kernel)⟩)
/-- nested lists of any depth -/
example : ∃ c, ∀ text, ∃ n ≤ c * (text.length + 1), LookCompares (lists text) (.custom 0) (input text) n := by
  obtain ⟨c, hc⟩ := C83_linear (lists "") (.custom 0) [0] (fun k => k != 0) (fun _ => 0) (fun _ => listsBegin)
    (fun _ => ⟨True, True, fun _ => False⟩) rfl (by simp) (lists_table "") trivial
  refine ⟨c, fun text => ?_⟩
  have h := (hc (ctx text).mem (ctx text).toolchain (ctx text).relaxedTtp (ctx text).ptrEq (input text) (input_valid text)).1
  have e : (input text).len = text.length := by simp [input, String.length]
  rwa [e] at h

end Ex

end Tok3n
