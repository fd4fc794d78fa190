import Verif.Spec.Calls
import Verif.Proof.Effort
import Verif.Proof.Size
import Verif.Proof.Modify
import Verif.Proof.Typing
import Verif.Props.Repetition
/-
Property C53: the order of callbacks.
-/

namespace Tok3n

variable {α β : Type}

/-! ## C53 Order of callbacks -/

theorem Tried.of_partRun {C : Ctx α β} {p : Parser α} {s : Span} {l v s'}
    (h : partRun C p s = .done l (.ok ⟨some v, s'⟩)) : Tried C p s l (.ok ⟨some v, s'⟩) := by
  unfold partRun at h
  split at h
  · obtain ⟨rfl, -⟩ := Look_unit h; exact .looked h
  · exact .parsed h

theorem Succession.of_inTurn {C : Ctx α β} {ps : List (Parser α)} {s log vs s'}
    (h : InTurn (ps.map (partRun C)) s log vs s') : Succession C ps s log s' := by
  induction ps generalizing s log vs with
  | nil => cases h; exact .nil
  | cons p ps ih => cases h with | cons h1 h2 => exact .cons (.of_partRun h1) (ih h2)

theorem Succession.of_parse {C : Ctx α β} {ps : List (Parser α)} {s log vs s'}
    (h : InTurn (ps.map (Parse C)) s log vs s') : Succession C ps s log s' := by
  induction ps generalizing s log vs with
  | nil => cases h; exact .nil
  | cons p ps ih => cases h with | cons h1 h2 => exact .cons (.parsed h1) (ih h2)

/-- The callbacks of a successful sequence are those of its first part, then those of the
second, and so on. -/
theorem C53_sequence [LinearOrder α] (C : Ctx α β) (ps : List (Parser α)) (hc : Compiles C (.sequence ps))
    (s s' : Span) (log : List Call) (w : Val) (h : Parses C (.sequence ps) s log w s') : Succession C ps s log s' := by
  obtain ⟨vs, hv, -⟩ := ((C15_sequence_partial C ps hc s s' log).1 w).1 h
  exact .of_inTurn hv

/-- The callbacks of a successful repetition are those of its rounds in the order of the
input, then those of the attempt that ended it. -/
theorem C53_repetition (C : Ctx α β) (p : Parser α) (s s' : Span) (log : List Call) (w : Val) :
    (Parses C (.zeroOrMore p) s log w s' →
      ∃ n l l', Succession C (List.replicate n p) s l s' ∧ ParseFails C p s' l' s' ∧ log = l ++ l') ∧
    (Parses C (.oneOrMore p) s log w s' →
      ∃ n l l', Succession C (List.replicate (n + 1) p) s l s' ∧ ParseFails C p s' l' s' ∧ log = l ++ l') := by
  have hz : ∀ w, Parses C (.zeroOrMore p) s log w s' →
      ∃ n l l', Succession C (List.replicate n p) s l s' ∧ ParseFails C p s' l' s' ∧ log = l ++ l' := by
    intro w h
    obtain ⟨n, l, vs, h1, l', h2, h3, -⟩ := ((C19_zero_or_more C p s s' log).1 w).1 h
    refine ⟨n, l, l', .of_parse (vs := vs) ?_, h2, h3⟩
    rwa [List.map_replicate]
  refine ⟨hz w, fun h => ?_⟩
  have hnf : ∀ l s1, ¬ ParseFails C p s l s1 := by
    intro l s1 hf
    have := ((C20_one_or_more C p s s1 l).1).2 hf
    rw [ParseFails] at this; rw [Parses, this] at h
    cases h
  have he := (C20_one_or_more C p s s' log).2.1 hnf
  obtain ⟨n, l, l', h1, h2, h3⟩ := hz w (by rw [Parses, ← he]; exact h)
  cases n with
  | zero => cases h1; exact absurd h2 (hnf _ _)
  | succ n => exact ⟨n, l, l', h1, h2, h3⟩

theorem C53_exactly [LinearOrder α] (C : Ctx α β) (p : Parser α) (N : Nat) (hc : Compiles C (.exactly p N))
    (s s' : Span) (log : List Call) (w : Val) (h : Parses C (.exactly p N) s log w s') :
    Succession C (List.replicate N p) s log s' := by
  obtain ⟨vs, hv, -⟩ := ((C23_exactly C p N hc s s' log).1 w).1 h
  exact .of_parse (vs := vs) (by rwa [List.map_replicate])

theorem Succession.of_delimited {C : Ctx α β} {p d : Parser α} {s log vs ds s'}
    (h : Delimited (Parse C p) (Parse C d) s log vs ds s') :
    Succession C (p :: (List.replicate ds.length [d, p]).flatten) s log s' := by
  induction h with
  | @one s l v s' h =>
    have := Succession.cons (.parsed h) (.nil (C := C) (s := s'))
    rwa [List.append_nil] at this
  | more h1 h2 _ ih => exact .cons (.parsed h1) (.cons (.parsed h2) ih)

/-- The same for `delimit` and `delimit_keep`: elements and delimiters alternate; the attempt
that ended it is a delimiter that failed, or one that was followed by no element. -/
theorem C53_delimit (C : Ctx α β) (p d : Parser α) (s s' : Span) (log : List Call) (w : Val)
    (h : Parses C (delimitKeepApi p d) s log w s') :
    ∃ n l l', Succession C (p :: (List.replicate n [d, p]).flatten) s l s' ∧
      NoMore (Parse C p) (Parse C d) s' l' ∧ log = l ++ l' := by
  obtain ⟨l, vs, ds, h1, l', h2, h3, -⟩ := ((delimit_outcome C p d s s' log).1 w).1 h
  exact ⟨ds.length, l, l', .of_delimited h1, h2, h3⟩

theorem Attempts.of_altRun {C : Ctx α β} {tr : Trait} {d : Val} {s : Span} {ps : List (Parser α)}
    {is : List (Option Nat)} {log r} (hl : is.length = ps.length)
    (h : firstOf s (List.zipWith (altRun C tr d s) ps is) = .done log r) : Attempts C s ps log := by
  induction ps generalizing is log r with
  | nil =>
    simp only [List.zipWith_nil_left, firstOf, M.pure, M.done.injEq] at h
    rw [← h.1]; exact .nil
  | cons p ps ih =>
    cases is with
    | nil => simp at hl
    | cons i is =>
      simp only [List.length_cons, Nat.add_right_cancel_iff] at hl
      rw [List.zipWith_cons_cons, firstOf] at h
      have key : ∀ l r, altRun C tr d s p i = .done l r → ∃ r', Tried C p s l r' ∧
          (∀ e, r = .err e ↔ r' = .err e) ∧ (∀ x, r = .ok x → ∃ x', r' = .ok x' ∧ x'.val.isSome = x.val.isSome) := by
        have aux : ∀ (f : Val → Val) (m : Run R) l r, mapVal f m = .done l r → ∃ r', m = .done l r' ∧
            (∀ e, r = .err e ↔ r' = .err e) ∧
            (∀ x, r = .ok x → ∃ x', r' = .ok x' ∧ x'.val.isSome = x.val.isSome) := by
          intro f m l r h
          cases m with
          | diverge => cases h
          | done l' r' =>
            cases r' with
            | err e =>
              cases h
              exact ⟨_, rfl, fun e => by simp, fun x hx => by cases hx⟩
            | ok x =>
              simp only [mapVal, M.bind, M.pure, M.after, List.append_nil, M.done.injEq] at h
              obtain ⟨rfl, rfl⟩ := h
              refine ⟨_, rfl, fun e => by simp, fun y hy => ⟨x, rfl, ?_⟩⟩
              cases hy
              simp
        intro l r hr
        unfold altRun at hr
        split at hr
        · obtain ⟨r', h1, h2⟩ := aux _ _ _ _ hr
          have hq := Look_quiet (C := C) p s
          have : l = [] := by
            rw [QuietOnU, h1] at hq
            cases r' <;> exact hq.1
          subst this
          exact ⟨r', .looked h1, h2⟩
        · obtain ⟨r', h1, h2⟩ := aux _ _ _ _ hr
          exact ⟨r', .parsed h1, h2⟩
      cases hm : altRun C tr d s p i with
      | diverge => rw [hm] at h; cases h
      | done l r1 =>
        obtain ⟨r', ht, he, ho⟩ := key l r1 hm
        rw [hm] at h
        cases r1 with
        | err e =>
          cases h
          exact .last ht fun s' hs => by rw [(he e).1 rfl] at hs; cases hs
        | ok x =>
          obtain ⟨x', rfl, hx⟩ := ho x rfl
          rw [M.ok_bind] at h
          split at h
          · rename_i hs
            simp only [M.pure, M.after, List.append_nil, M.done.injEq] at h
            rw [← h.1]
            refine .last ht fun s' hs' => ?_
            cases hs'
            rw [hs] at hx; cases hx
          · rename_i hs
            obtain ⟨xv, xr⟩ := x'
            simp only at hx
            have : xv = none := by
              cases xv with
              | none => rfl
              | some v => rw [Option.isSome_some] at hx; exact absurd hx.symm hs
            subst this
            cases hrest : firstOf s (List.zipWith (altRun C tr d s) ps is) with
            | diverge => rw [hrest] at h; cases h
            | done l2 r2 =>
              rw [hrest] at h
              simp only [M.after, M.done.injEq] at h
              rw [← h.1]
              exact .next ht (ih hl hrest)

/-- Whatever the outcome of a choice, an exception included, the callbacks that ran are
those of its first alternative, then, if that failed, those of the second, and so on; the
alternatives after one that did not fail are not touched. -/
theorem C53_choice [LinearOrder α] (C : Ctx α β) (ps : List (Parser α)) (hc : Compiles C (.choice ps))
    (s : Span) (log : List Call) (r : Res R) (h : Parse C (.choice ps) s = .done log r) : Attempts C s ps log := by
  obtain ⟨d, hd⟩ := defaultVal_choice hc.parse
  have hp := hc.parse
  simp only [parseOK, Bool.and_eq_true] at hp
  rw [← choiceTrait_ty] at hd
  rw [Parse_choice_general hd hp.1.2] at h
  refine .of_altRun ?_ h
  rw [choiceTrait_seq, filterOutVoidDeduplicate_length, resultsFor_length]

theorem bind_silent {A B : Type} {m : Run A} {k : A → Run B} (h0 : ∀ a, Logs (k a) 0) (hn : ∀ a, k a ≠ .diverge)
    (log : List Call) : (∃ r, M.bind m k = .done log r) ↔ ∃ r, m = .done log r := by
  cases m with
  | diverge => simp [M.bind]
  | done l r =>
    cases r with
    | err e => simp [M.bind]
    | ok a =>
      cases e : k a with
      | diverge => exact absurd e (hn a)
      | done l' r' =>
        have : l' = [] := List.length_eq_zero_iff.1 (Nat.le_zero.1 ((h0 a).on _ _ e).1)
        subst this
        simp [M.bind, e]

/-- `~p`, `p % complete`, `p % join`, `p % name` and a custom parser with the body `p` run the callbacks `p` runs, in the
same order, whether `p` succeeds, fails or throws. -/
theorem C53_wrapped (C : Ctx α β) (p q : Parser α) (hq : q = .maybe p ∨ q = .complete p ∨ q = .join p ∨
      (∃ n, q = .named p n) ∨ ∃ k, q = .custom k ∧ p = (C.custom k).body) (s : Span) (log : List Call) :
    (∃ r, Parse C q s = .done log r) ↔ ∃ r, Parse C p s = .done log r := by
  rcases hq with rfl | rfl | rfl | ⟨n, rfl⟩ | ⟨k, rfl, rfl⟩
  · rw [Parse_maybe_eq]
    exact bind_silent (fun _ => .pure) (fun _ => nofun) log
  · rw [Parse_complete]
    exact bind_silent (fun _ => .ite .pure .pure) (fun _ => by split <;> nofun) log
  · rw [Parse_join_eq]
    unfold parseJoin
    refine bind_silent (m := Parse C p s) (fun r => ?_) (fun r => ?_) log
    · exact .ite (.bind0 (joinExecutor_logs C r) fun j => by cases j <;> exact .pure) .pure
    · exact ite_ne (bind_ne (joinExecutor_ne C r) fun j => by cases j <;> nofun) (pure_ne _)
  · rw [Parse_named]
  · rw [Parse_custom]
    exact bind_silent (fun r => convertResult_logs ..) (fun r => convertResult_returns _ _ _) log

theorem silent_then {A : Type} {c : Call} {m : Run A} (hm : Logs m 0) {l : List Call} {r : Res A}
    (h : M.bind (M.log c) (fun _ => m) = .done l r) : l = [c] := by
  obtain ⟨l2, h2, rfl⟩ := M.after_eq_done.1 h
  have : l2 = [] := List.length_eq_zero_iff.1 (Nat.le_zero.1 (hm.on _ _ h2).1)
  simp [this]

theorem invoke_once (C : Ctx α β) (f : Fn) (args : List Val) (l : List Call) (r : Res Val)
    (h : invoke C f args = .done l r) : (∃ c, l = [c]) ∨ r = .err .ill := by
  induction f generalizing args with
  | apply f ih =>
    unfold invoke at h
    split at h
    · split at h
      · exact ih _ h
      · cases h; exact .inr rfl
    · cases h; exact .inr rfl
  | user k => rw [invoke] at h; exact .inl ⟨_, silent_then (liftCall_logs _) h⟩
  | const k => rw [invoke] at h; exact .inl ⟨_, silent_then .pure h⟩
  | construct t => rw [invoke] at h; exact .inl ⟨_, silent_then (liftCall_logs _) h⟩
  | deflt t => rw [invoke] at h; exact .inl ⟨_, silent_then .ofOption h⟩

/-- `p % map(f)` and `p % filter(f)` run the callbacks of `p` and then, if and only if `p` succeeded, their own, once. -/
theorem C53_callback [LinearOrder α] (C : Ctx α β) (hT : C.Typed) (p q : Parser α) (f : Fn)
    (hq : q = .map p f ∨ q = .filter p f) (hc : Compiles C q) (s : Span) (log : List Call) (r : Res R)
    (h : Parse C q s = .done log r) : ∃ l r', Parse C p s = .done l r' ∧
      ((∃ v s' c, r' = .ok ⟨some v, s'⟩ ∧ log = l ++ [c]) ∨ (∀ v s', r' ≠ .ok ⟨some v, s'⟩) ∧ log = l) := by
  have hi : r ≠ .err .ill := fun e => by
    have := Parse_typed hc hT s
    subst e
    exact (this.err h).1 rfl
  have hk : ∃ k : R → Val → R, Parse C q s = M.bind (Parse C p s) fun x => match x.val with
      | none => M.pure ⟨none, s⟩
      | some v => M.bind (invoke C f (argsOf (resultFor C p) v)) fun w => M.pure (k x w) := by
    rcases hq with rfl | rfl
    · exact ⟨_, Parse_map_eq p f s⟩
    · exact ⟨_, Parse_filter_eq p f s⟩
  obtain ⟨k, hk⟩ := hk
  rw [hk] at h
  rcases hp : Parse C p s with _ | ⟨l, ⟨_ | v, s'⟩ | e⟩
  · rw [hp] at h; cases h
  · rw [hp] at h
    cases h
    exact ⟨_, _, rfl, .inr ⟨nofun, by simp⟩⟩
  · rw [hp] at h
    obtain ⟨l2, h2, rfl⟩ := M.after_eq_done.1 h
    refine ⟨_, _, rfl, .inl ⟨v, s', ?_⟩⟩
    dsimp only at h2
    rcases hv : invoke C f (argsOf (resultFor C p) v) with _ | ⟨l3, r3⟩
    · rw [hv] at h2; cases h2
    · rcases invoke_once C f _ _ _ hv with ⟨c, rfl⟩ | rfl
      · rw [hv] at h2
        refine ⟨c, rfl, ?_⟩
        cases r3 <;> cases h2 <;> simp
      · rw [hv] at h2
        cases h2
        exact absurd rfl hi
  · rw [hp] at h
    cases h
    exact ⟨_, _, rfl, .inr ⟨nofun, rfl⟩⟩

-- ~f("a") and f("a") % complete on "ab": the callback runs although the second of them fails
example : Compiles (Ex.ctx "ab") (.complete (.map (Ex.all "a") (.user 0))) ∧
    ParseFails (Ex.ctx "ab") (.complete (.map (Ex.all "a") (.user 0))) (Ex.input "ab")
      [⟨.user 0, [.span ⟨.at 0 0, 1⟩]⟩] (Ex.input "ab") :=
  ⟨⟨Ex.ctx_ok _, rfl, rfl, rfl⟩, Ex.parses _ 6 rfl⟩
-- g(f("a")): f and then g, on what f returned; on "b" neither
example : (Ex.ctx "a").Typed ∧ Compiles (Ex.ctx "a") (.map (.map (Ex.all "a") (.user 0)) (.user 0)) ∧
    ∃ w, Parses (Ex.ctx "a") (.map (.map (Ex.all "a") (.user 0)) (.user 0)) (Ex.input "a")
      [⟨.user 0, [.span ⟨.at 0 0, 1⟩]⟩, ⟨.user 0, [.user 0 0 [.span ⟨.at 0 0, 1⟩]]⟩] w ⟨.at 0 1, 0⟩ :=
  ⟨Ex.ctx_typed _, ⟨Ex.ctx_ok _, rfl, rfl, rfl⟩, _, Ex.parses _ 6 rfl⟩

-- f("a") >> f("b"): in order; (f("a") >> "b") | f("a") | f("c") on "ac": the callback of the
-- first alternative, which fails later, and of the second
example : Compiles (Ex.ctx "ab") (.sequence [.map (Ex.all "a") (.user 0), .map (Ex.all "b") (.user 1)]) ∧
    Parses (Ex.ctx "ab") (.sequence [.map (Ex.all "a") (.user 0), .map (Ex.all "b") (.user 1)]) (Ex.input "ab")
      [⟨.user 0, [.span ⟨.at 0 0, 1⟩]⟩, ⟨.user 1, [.span ⟨.at 0 1, 1⟩]⟩]
      (.tup [.user 0 0 [.span ⟨.at 0 0, 1⟩], .user 1 1 []]) ⟨.at 0 2, 0⟩ :=
  ⟨⟨Ex.ctx_ok _, rfl, rfl, rfl⟩, Ex.parses _ 6 rfl⟩
example : let f := fun q : Parser Nat => Parser.map q (.user 0)
    let p := Parser.choice [.sequence [f (Ex.all "a"), .ignore (Ex.all "b")], f (Ex.all "a"), f (Ex.all "c")]
    Compiles (Ex.ctx "ac") p ∧ ∃ w, Parses (Ex.ctx "ac") p (Ex.input "ac")
      [⟨.user 0, [.span ⟨.at 0 0, 1⟩]⟩, ⟨.user 0, [.span ⟨.at 0 0, 1⟩]⟩] w ⟨.at 0 1, 1⟩ :=
  ⟨⟨Ex.ctx_ok _, rfl, rfl, rfl⟩, _, Ex.parses _ 6 rfl⟩

end Tok3n
