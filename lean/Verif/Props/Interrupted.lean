import Verif.Proof.Interrupted
import Verif.Props.Stateful
/-
C82: a comparison of elements, or an operation on values, that throws.
-/

namespace Tok3n

open Interrupted (Op Env Event calls ops play nth recording calm)

variable {σ τ α β : Type} {C : Ctx α β} {U : Stateful.Callbacks σ} {p : Parser α} {s : Span} {st : σ}
  {log : List Call} {r : Res (R × σ)}

/-- What a `parse` does is a sequence of operations and calls that depends on nothing but the parser, the input and the
user's function objects.  In every environment it is carried out until an operation throws, and no further. -/
theorem C82_parse (h : Stateful.Parse C U p s st = .done log r) :
    ∃ ev : List (Event α β), calls ev = log ∧ ∀ (τ : Type) (F : Env α β τ) (t : τ),
      Interrupted.Parse F C U p s (t, st) = play F t ev r := by
  obtain ⟨n, hn⟩ := Stateful.Parse_eq_done.1 h
  have h1 := (Interrupted.sem_rel (C := C) (U := U) n p).parse s st
  rw [hn] at h1
  obtain ⟨ev, he, -, h2⟩ := h1
  refine ⟨ev, he, fun τ F t => ?_⟩
  obtain ⟨l, x, hx⟩ := Interrupted.play_done F t ev r
  rw [hx]
  exact ((Interrupted.sem_lim p s (t, st)).1.iff l x).2 ⟨n, (h2 τ F t).trans hx⟩

/-- The same of `lookahead`, which calls nothing and touches no value: it does nothing but compare elements. -/
theorem C82_lookahead {x : R} (h : Look C p s = .done [] (.ok x)) :
    ∃ cs : List (α × β), ∀ (τ : Type) (F : Env α β τ) (t : τ),
      Interrupted.Look F C U p s (t, st) = play F t (cs.map fun c => .op (.compare c.1 c.2)) (.ok (x, st)) := by
  have h0 := ((C75_lookahead C U p s st).1 [] x st).2 ⟨h, rfl, rfl⟩
  obtain ⟨n, hn⟩ := Stateful.Look_eq_done.1 h0
  have h1 := Interrupted.sem_look_rel (C := C) (U := U) (Q := fun o => ∃ a x, o = Op.compare a x)
    (fun a x => ⟨a, x, rfl⟩) n p s st
  rw [hn] at h1
  obtain ⟨ev, he, hq, h2⟩ := h1
  obtain ⟨cs, rfl⟩ : ∃ cs : List (α × β), ev = cs.map fun c => .op (.compare c.1 c.2) := by
    clear h2 hn
    induction ev with
    | nil => exact ⟨[], rfl⟩
    | cons e ev ih =>
      cases e with
      | call c => cases he
      | op o =>
        obtain ⟨a, x, rfl⟩ := hq o (List.mem_cons_self ..)
        obtain ⟨cs, rfl⟩ := ih he fun o ho => hq o (List.mem_cons_of_mem _ ho)
        exact ⟨(a, x) :: cs, rfl⟩
  refine ⟨cs, fun τ F t => ?_⟩
  obtain ⟨l, y, hy⟩ := Interrupted.play_done F t (cs.map fun c => .op (.compare c.1 c.2)) (.ok (x, st))
  rw [hy]
  exact ((Interrupted.sem_lim p s (t, st)).2.iff l y).2 ⟨n, (h2 τ F t).trans hy⟩

/-- An exception that an operation throws reaches the caller as it is, and the calls made before it are the first ones
of those the undisturbed `parse` makes.  Otherwise the outcome is the undisturbed one. -/
theorem C82_stops (h : Stateful.Parse C U p s st = .done log r) (F : Env α β τ) (t : τ) :
    (∃ before e, Interrupted.Parse F C U p s (t, st) = .done before (.err (.exn e)) ∧ before <+: log ∧
      ∃ o t', F o t' = .error e) ∨
    (∃ x st' t', r = .ok (x, st') ∧ Interrupted.Parse F C U p s (t, st) = .done log (.ok (x, t', st'))) ∨
    ∃ e, r = .err e ∧ Interrupted.Parse F C U p s (t, st) = .done log (.err e) := by
  obtain ⟨ev, rfl, h1⟩ := C82_parse h
  rw [h1]
  exact Interrupted.play_cases F t ev r

/-- Where an exception can strike: a `parse` that does `k` operations has `k` such points, each with the calls that come
before it.  If operation number `i` throws the `parse` ends there; if `i` is at least `k` it does not happen. -/
theorem C82_points (h : Stateful.Parse C U p s st = .done log r) :
    ∃ before : List (List Call), before.Pairwise (· <+: ·) ∧ (∀ l ∈ before, l <+: log) ∧ ∀ i e : Nat,
      match before[i]? with
      | some l => Interrupted.Parse (nth i e) C U p s (0, st) = .done l (.err (.exn e))
      | none => ∀ x, r = .ok x → Interrupted.Parse (nth i e) C U p s (0, st) = .done log (.ok (x.1, before.length, x.2)) := by
  obtain ⟨ev, rfl, h1⟩ := C82_parse h
  refine ⟨Interrupted.points ev, (Interrupted.points_chain ev), fun l hl => Interrupted.points_prefix hl, fun i e => ?_⟩
  rw [h1]
  exact Interrupted.play_nth ev r i e

/-- If nothing throws, the environment makes no difference. -/
theorem C82_calm (C : Ctx α β) (U : Stateful.Callbacks σ) (p : Parser α) (s : Span) (st : σ) (log : List Call) :
    (∀ x st', Interrupted.Parse calm C U p s ((), st) = .done log (.ok (x, (), st')) ↔
      Stateful.Parse C U p s st = .done log (.ok (x, st'))) ∧
    (∀ e, Interrupted.Parse calm C U p s ((), st) = .done log (.err e) ↔ Stateful.Parse C U p s st = .done log (.err e)) ∧
    (Interrupted.Parse calm C U p s ((), st) = .diverge ↔ Stateful.Parse C U p s st = .diverge) := by
  cases h : Stateful.Parse C U p s st with
  | diverge =>
    have h1 : Interrupted.Parse calm C U p s ((), st) = .diverge := by
      rcases Interrupted.Parse_diverge calm h () with h1 | ⟨_, _, _, _, _, h2⟩
      · exact h1
      · cases h2
    rw [h1]
    exact ⟨fun _ _ => ⟨nofun, nofun⟩, fun _ => ⟨nofun, nofun⟩, ⟨fun _ => rfl, fun _ => rfl⟩⟩
  | done l r =>
    rcases C82_stops h calm () with ⟨_, _, _, _, _, _, h2⟩ | ⟨x, st', t', rfl, h1⟩ | ⟨e, rfl, h1⟩
    · cases h2
    · rw [h1]
      exact ⟨fun y st1 => by constructor <;> intro h <;> cases h <;> rfl, fun e => ⟨nofun, nofun⟩, ⟨nofun, nofun⟩⟩
    · rw [h1]
      exact ⟨fun y st1 => ⟨nofun, nofun⟩, fun e => by constructor <;> intro h <;> cases h <;> rfl, ⟨nofun, nofun⟩⟩

/-- If the undisturbed `parse` does not return, nothing but an exception of an operation ends it. -/
theorem C82_endless (h : Stateful.Parse C U p s st = .diverge) (F : Env α β τ) (t : τ) :
    Interrupted.Parse F C U p s (t, st) = .diverge ∨
    ∃ before e, Interrupted.Parse F C U p s (t, st) = .done before (.err (.exn e)) ∧ ∃ o t', F o t' = .error e :=
  Interrupted.Parse_diverge F h t

/-! ### Concrete cases -/

namespace Ex

theorem iparses {α β τ σ : Type} {F : Env α β τ} {C : Ctx α β} {U : Stateful.Callbacks σ} {p : Parser α} {s : Span}
    {x : τ × σ} {l r} (n : Nat) (h : (Interrupted.sem F C U n p).parse s x = .done l r) :
    Interrupted.Parse F C U p s x = .done l r := ((Interrupted.sem_lim p s x).1.iff l r).2 ⟨n, h⟩

/-- a list of marked letters -/
def marked : Parser Nat := .zeroOrMore (.map (any "ab") (.user 0))

/-- undisturbed -/
theorem marked_ab : Stateful.Parse (ctx "ab") counting marked (input "ab") 0 =
    .done [⟨.user 0, [char 0]⟩, ⟨.user 0, [char 1]⟩]
      (.ok (R.success (.vec [.user 0 0 [char 0], .user 0 1 [char 1]]) ⟨.at 0 2, 0⟩, 2)) := sparses 6 rfl

/-- the operations it does: at the start the vector is made, then for each letter it is compared with those of the
literal, the function is called and its result is put into the vector -/
example : Interrupted.Parse (recording fun _ => Option.none) (ctx "ab") counting marked (input "ab") ([], 0) =
    .done [⟨.user 0, [char 0]⟩, ⟨.user 0, [char 1]⟩]
      (.ok (R.success (.vec [.user 0 0 [char 0], .user 0 1 [char 1]]) ⟨.at 0 2, 0⟩,
        [.value, .compare 97 97, .value, .value, .value, .compare 97 98, .compare 98 98, .value, .value, .value, .value], 2)) :=
  iparses 6 (by decide +kernel)

/-- the second vector element cannot be stored: the caller gets the exception, after both calls -/
example : Interrupted.Parse (nth 9 5) (ctx "ab") counting marked (input "ab") (0, 0) =
    .done [⟨.user 0, [char 0]⟩, ⟨.user 0, [char 1]⟩] (.err (.exn 5)) := iparses 6 (by decide +kernel)
/-- a comparison throws after the first call -/
example : Interrupted.Parse (nth 5 5) (ctx "ab") counting marked (input "ab") (0, 0) =
    .done [⟨.user 0, [char 0]⟩] (.err (.exn 5)) := iparses 6 (by decide +kernel)
/-- there are 11 operations; the twelfth never comes -/
example : Interrupted.Parse (nth 11 5) (ctx "ab") counting marked (input "ab") (0, 0) =
    .done [⟨.user 0, [char 0]⟩, ⟨.user 0, [char 1]⟩]
      (.ok (R.success (.vec [.user 0 0 [char 0], .user 0 1 [char 1]]) ⟨.at 0 2, 0⟩, 11, 2)) := iparses 6 (by decide +kernel)
/-- a comparison that refuses one element: what comes before it is not given back -/
example : Interrupted.Parse (recording fun l => if Op.compare 97 98 ∈ l then some 3 else Option.none) (ctx "ab") counting
    marked (input "ab") ([], 0) = .done [⟨.user 0, [char 0]⟩] (.err (.exn 3)) := iparses 6 (by decide +kernel)
example := C82_stops marked_ab (nth 9 5) 0
example := C82_points marked_ab
/-- `lookahead` compares and does nothing else -/
example : ∃ cs : List (Nat × Nat), ∀ (τ : Type) (F : Env Nat Nat τ) (t : τ),
    Interrupted.Look F (ctx "ab") counting marked (input "ab") (t, 0) =
      play F t (cs.map fun c => .op (.compare c.1 c.2)) (.ok (R.successVoid ⟨.at 0 2, 0⟩, 0)) :=
  C82_lookahead (looks _ 6 rfl)
/-- an endless repetition … -/
theorem marked_nothing : Stateful.Parse (ctx "") counting (.zeroOrMore (.map .epsilon (.user 0))) (input "") 0 = .diverge := by
  have key : ∀ n st : Nat, ∃ l vs s1 st1, Stateful.InTurn (List.replicate n (Stateful.Parse (ctx "") counting
      (.map .epsilon (.user 0)))) (input "") st l vs s1 st1 := by
    intro n
    induction n with
    | zero => exact fun st => ⟨_, _, _, _, .nil⟩
    | succ n ih =>
      intro st
      obtain ⟨l, vs, s1, st1, h⟩ := ih (st + 1)
      exact ⟨_, _, _, _, .cons (sparses 3 rfl) h⟩
  exact (C75_zero_or_more (ctx "") counting _ _ (input "") 0 0 []).2.2.2.2 (.inr fun n => key n 0)
/-- … that an exception ends -/
example : Interrupted.Parse (nth 4 5) (ctx "") counting (.zeroOrMore (.map .epsilon (.user 0))) (input "") (0, 0) =
    .done [⟨.user 0, []⟩] (.err (.exn 5)) := iparses 6 (by decide +kernel)
example := C82_endless marked_nothing (nth 4 5) 0

end Ex

end Tok3n
