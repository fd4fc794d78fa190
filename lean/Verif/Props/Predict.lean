import Verif.Proof.Predict
import Verif.Spec.Size
import Verif.Props.Terminate
import Verif.Props.CallCount
import Verif.Props.EffortRecursive
import Verif.Props.Lookahead
import Verif.Props.Size
/-
C81: if the next element always decides which way to go, the number of calls grows linearly with the text.
-/

namespace Tok3n

variable {α β : Type}

theorem Plain.never {C : Ctx α β} {p : Parser α} (h : Plain C p) : NeverOverrules C p where
  rejects q hq r hr := by
    rcases hr with rfl | ⟨f, rfl⟩
    · exact absurd rfl ((h _ hq).2.1 r)
    · exact absurd rfl ((h _ hq).1 r f)
  pretends k hk s _ log s' h1 log' v s'' h2 := (h _ hk).2.2 k rfl (pretends_of h1 h2)

theorem productive_on (C : Ctx α β) (mem : Mem β) (tc : Toolchain) (relaxed : Bool) (e : Ptr → Ptr → Bool) (ks : List Nat)
    (null : Nat → Bool) (rank : Nat → Nat) (p : Parser α) :
    productive (C.on mem tc relaxed e) ks null rank p = productive C ks null rank p := by
  have h : ∀ k, pretends (C.on mem tc relaxed e) k = pretends C k := fun k => by
    simp only [pretends, resultFor_on]
    rfl
  simp only [productive, h]

/-- A recursive grammar, whatever its alternatives, options and repetitions nest like, makes linearly many calls if
wherever something may be given up late what is tried in its place, or afterwards, begins with other elements.  The
constant is the same for all texts. -/
theorem C81_linear (C : Ctx α β) (p : Parser α) (ks : List Nat) (null : Nat → Bool) (rank : Nat → Nat)
    (begin' : Nat → β → Bool) (tab : Nat → Predicts β) (hp : productive C ks null rank p = true)
    (hn : ∀ k, k ∉ ks → null k = true) (ht : PredictTable C null begin' tab)
    (hok : (p.predicts C.eqv null begin' tab).ok) :
    ∃ c, ∀ mem tc relaxed e, ∀ s : Span, s.Valid mem →
      (∃ n ≤ c * (s.len + 1), LookCalls (C.on mem tc relaxed e) p s n) ∧
      (NeverOverrules (C.on mem tc relaxed e) p → ∃ n ≤ 2 * c * (s.len + 1), ParseCalls (C.on mem tc relaxed e) p s n) := by
  have en : (fun k => !ks.contains k || null k) = null := by
    funext k
    by_cases h : k ∈ ks
    · simp [h]
    · simp [h, hn k h]
  have hp' := hp
  simp only [productive, en, Bool.and_eq_true, List.all_eq_true] at hp'
  obtain ⟨⟨-, h1⟩, h2⟩ := hp'
  obtain ⟨c, hc⟩ := pegCalls_linear ht p h1 (fun k hk => (h2 k hk).1.2) (fun k hk => (h2 k hk).2) hok
  refine ⟨c, fun mem tc relaxed e s hs => ?_⟩
  obtain ⟨-, h3⟩ := C65_productive (C.on mem tc relaxed e) p
    (productive_sound (by rw [productive_on]; exact hp)) |>.choose_spec s hs
  obtain ⟨⟨N, -, h4⟩, -⟩ := C65_productive (C.on mem tc relaxed e) p
    (productive_sound (by rw [productive_on]; exact hp)) |>.choose_spec s hs
  obtain ⟨n, -, h3⟩ := h3
  have hb : n ≤ c * (s.len + 1) := by
    obtain ⟨m, o, h5, rfl⟩ := (C65_lookahead_exact _ p s hs n).1 h3
    have := hc (C.on mem tc relaxed e) rfl rfl _ _ _ h5
    rwa [show ((s.elems (C.on mem tc relaxed e).mem).length) = s.len from hs.elems_length] at this
  refine ⟨⟨n, hb, h3⟩, fun hr => ⟨N, ?_, h4⟩⟩
  have := C65_parse_within _ p hr s hs n h3 N h4
  rw [Nat.mul_assoc]
  omega

/-- The check finds the grammars of `C65_exponential` out: no tables pass it. -/
theorem C81_rejects (C : Ctx α β) (k : Nat) (a : α) (b : β) (p q : List (Parser α)) (hb : C.eqv a b = true)
    (hk : (C.custom k).body = .choice [.sequence (.allOf [a] :: .custom k :: p), .sequence (.allOf [a] :: .custom k :: q)])
    (ks : List Nat) (null : Nat → Bool) (rank : Nat → Nat) (begin' : Nat → β → Bool) (tab : Nat → Predicts β)
    (hp : productive C ks null rank (.custom k) = true) (hn : ∀ k, k ∉ ks → null k = true)
    (ht : PredictTable C null begin' tab) :
    ¬ ((Parser.custom k).predicts C.eqv null begin' tab).ok := by
  intro hok
  obtain ⟨c, hc⟩ := C81_linear C (.custom k) ks null rank begin' tab hp hn ht hok
  obtain ⟨L, hL⟩ : ∃ L, c * (L + 1) < 2 ^ L := by
    refine ⟨2 * c + 4, ?_⟩
    have h1 : ∀ m, (m + 3) * (m + 3) ≤ 2 ^ (m + 4) := fun m => by
      induction m with
      | zero => decide
      | succ m ih => rw [show m + 1 + 4 = (m + 4) + 1 by omega, Nat.pow_succ]; nlinarith
    have := h1 (2 * c)
    nlinarith
  have hv : (⟨.at 0 0, L⟩ : Span).Valid (fun _ => List.replicate L b) := by
    simp [Span.Valid]
  obtain ⟨⟨n, h1, h2⟩, -⟩ := hc (fun _ => List.replicate L b) .gnuRuntime true (fun _ _ => false) ⟨.at 0 0, L⟩ hv
  obtain ⟨m, h3, h4⟩ := C65_exponential (C.on (fun _ => List.replicate L b) .gnuRuntime true (fun _ _ => false)) k a p q hk
    ⟨.at 0 0, L⟩ hv (fun x hx => by
      simp [Span.elems] at hx
      rw [hx.2]; exact hb)
  obtain ⟨l1, r1, e1, rfl⟩ := h2
  obtain ⟨l2, r2, e2, rfl⟩ := h3
  rw [e1] at e2
  cases e2
  have h4 : 2 ^ L ≤ l1.length := h4
  have h1 : l1.length ≤ c * (L + 1) := h1
  omega

/-! The hypotheses are met -/

/-- Lists in brackets: custom parser 0 is `ignore(+"ab"_any | "(" >> *custom 0 >> ")")`. -/
def Ex.lists (text : String) : Ctx Nat Nat := { Ex.ctx text with
  custom := fun _ => ⟨.ignore (.choice [.oneOrMore (Ex.any "ab"),
    .sequence [Ex.all "(", .zeroOrMore (.custom 0), Ex.all ")"]]), true, .void⟩ }

/-- what they begin with -/
def Ex.listsBegin (x : Nat) : Bool := x == 97 || x == 98 || x == 40

theorem Ex.str_brackets : Ex.str "(" = [40] ∧ Ex.str ")" = [41] := ⟨rfl, rfl⟩

theorem Ex.lists_table (text : String) : PredictTable (Ex.lists text) (fun k => k != 0) (fun _ => Ex.listsBegin)
    (fun _ => ⟨True, True, fun _ => False⟩) where
  nulls k h := by simp [lists, Parser.nullable, someNullable, allNullable] at h
  begins k x h := by
    simp [lists, Parser.begins, someBegins, sequenceBegins, Parser.nullable, ctx, str_brackets] at h
    simp [listsBegin]
    omega
  ok k _ := by
    simp [lists, Parser.predicts, choicePredicts, sequencePredicts, Predicts.andThen, Predicts.orElse, Predicts.repeated,
      Predicts.atOnce, Parser.begins, someBegins, sequenceBegins, Parser.nullable, ctx, listsBegin, allNullable, someNullable,
      str_brackets]
    omega
  late k _ := trivial
  stuck k x h := by
    simp [lists, Parser.predicts, choicePredicts, sequencePredicts, Predicts.andThen, Predicts.orElse, Predicts.repeated,
      Predicts.atOnce, Parser.begins, someBegins, sequenceBegins, Parser.nullable, ctx, listsBegin, allNullable, someNullable] at h

example : ∃ c, ∀ text, ∃ n ≤ c * (text.length + 1), ParseCalls (Ex.lists text) (.custom 0) (Ex.input text) n := by
  obtain ⟨c, hc⟩ := C81_linear (Ex.lists "") (.custom 0) [0] (fun k => k != 0) (fun _ => 0) (fun _ => Ex.listsBegin)
    (fun _ => ⟨True, True, fun _ => False⟩) rfl (by simp) (Ex.lists_table "") trivial
  refine ⟨2 * c, fun text => ?_⟩
  have h := (hc (Ex.ctx text).mem (Ex.ctx text).toolchain (Ex.ctx text).relaxedTtp (Ex.ctx text).ptrEq (Ex.input text)
    (Ex.input_valid text)).2 ?_
  · have e : (Ex.input text).len = text.length := by simp [Ex.input, String.length]
    rwa [e] at h
  · refine (plain_of (fun k => ⟨rfl, fun h => h.1 rfl⟩) rfl : Plain _ _).never

/-- The grammar `("a" >> custom >> "b") | ("a" >> custom)` is productive and has tables; they do not pass. -/
example (text : String) : let C := { Ex.ctx text with
      custom := fun _ => ⟨.choice [.sequence [Ex.all "a", .custom 0, Ex.all "b"], .sequence [Ex.all "a", .custom 0]],
        true, .user 2⟩ }
    ∀ begin' tab, PredictTable C (fun k => k != 0) begin' tab →
      ¬ ((Parser.custom 0).predicts C.eqv (fun k => k != 0) begin' tab).ok :=
  fun begin' tab ht => C81_rejects _ 0 97 97 [Ex.all "b"] [] rfl rfl [0] _ (fun _ => 0) begin' tab rfl (by simp) ht
example (text : String) : let C := { Ex.ctx text with
      custom := fun _ => ⟨.choice [.sequence [Ex.all "a", .custom 0, Ex.all "b"], .sequence [Ex.all "a", .custom 0]],
        true, .user 2⟩ }
    PredictTable C (fun k => k != 0) (fun _ _ => true) (fun _ => ⟨False, True, fun _ => True⟩) where
  nulls k h := by simp [Parser.nullable, someNullable, allNullable] at h
  begins _ _ _ := rfl
  ok _ h := h.elim
  late _ _ := trivial
  stuck _ _ _ := trivial

end Tok3n
