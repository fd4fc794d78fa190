import Verif.Proof.Once
import Verif.Spec.Outcome
import Verif.Spec.Example
import Verif.Proof.Reach
/-
C67: a value that one of the user's functions made is handed on at most once.
-/

namespace Tok3n

variable {α β : Type}

/-- Count any selection of the user's values.  Those in the result, together with those that
were given away to functions, are no more than the functions made.  So each value a
function made goes to one function, or into the result, or is dropped: it is never
duplicated, and the parser makes none up.  (Functions used by a filter are left out: a
filter is shown a value that the parser keeps.) -/
theorem C67_result (C : Ctx α β) (pick : Val → Bool) (takers : Fn → Bool) (hn : C.MakesNo pick) (p : Parser α)
    (hf : NotFilters C takers p) (s : Span) (log : List Call) (r : R) (h : Parse C p s = .done log (.ok r)) :
    r.occurs pick + given pick takers log ≤ made C pick log := by
  have := Parse_bal hn p hf s
  rw [h] at this
  simpa [Bal] using this

/-- The same if the parse ends in an exception: what was given away had been made. -/
theorem C67_exception (C : Ctx α β) (pick : Val → Bool) (takers : Fn → Bool) (hn : C.MakesNo pick) (p : Parser α)
    (hf : NotFilters C takers p) (s : Span) (log : List Call) (e : Err) (h : Parse C p s = .done log (.err e)) :
    given pick takers log ≤ made C pick log := by
  have := Parse_bal hn p hf s
  rw [h] at this
  simpa [Bal] using this

theorem made_zero {C : Ctx α β} {pick : Val → Bool} {log : List Call}
    (h : ∀ c ∈ log, ∀ v, c.returned C = some v → v.occurs pick = 0) : made C pick log = 0 := by
  induction log with
  | nil => rfl
  | cons c log ih =>
    have ih := ih fun c hc => h c (by simp [hc])
    unfold made at ih ⊢
    rw [List.map_cons, List.sum_cons, ih]
    cases hr : c.returned C with
    | none => rfl
    | some v => exact h c (by simp) v hr

/-- A user's value in the result was made by one of the functions that were called. -/
theorem C67_origin (C : Ctx α β) (pick : Val → Bool) (hn : C.MakesNo pick) (p : Parser α) (s s' : Span)
    (log : List Call) (w : Val) (h : Parses C p s log w s') (hw : 0 < w.occurs pick) :
    ∃ c ∈ log, ∃ v, c.returned C = some v ∧ 0 < v.occurs pick := by
  have h1 := C67_result C pick (fun _ => false) hn p (fun _ _ _ => rfl) s log _ h
  apply Classical.byContradiction
  intro hno
  have : made C pick log = 0 := made_zero fun c hc v hv => by
    apply Classical.byContradiction
    intro h0
    exact hno ⟨c, hc, v, hv, by omega⟩
  have h2 : (R.mk (some w) s').occurs pick = w.occurs pick := rfl
  omega

/-- A value that was made once is in the result at most once, and not at all if it was given
to a function. -/
theorem C67_once (C : Ctx α β) (pick : Val → Bool) (takers : Fn → Bool) (hn : C.MakesNo pick) (p : Parser α)
    (hf : NotFilters C takers p) (s s' : Span) (log : List Call) (w : Val) (h : Parses C p s log w s')
    (h1 : made C pick log = 1) :
    w.occurs pick ≤ 1 ∧ (0 < given pick takers log → w.occurs pick = 0 ∧ given pick takers log = 1) := by
  have h2 := C67_result C pick takers hn p hf s log _ h
  have h3 : (R.mk (some w) s').occurs pick = w.occurs pick := rfl
  omega

/-! Concrete cases: the values that callback 0 makes of its arguments. -/

namespace Ex

/-- the values made by callback 0 -/
def wrapped : Val → Bool
  | .user 0 _ (_ :: _) => true
  | _ => false

theorem ctx_makesNo (text : String) : (ctx text).MakesNo wrapped := by
  refine ⟨?_, ?_, ?_⟩
  · rintro k v ⟨⟩
    cases k <;> rfl
  · intro src dst f v h
    simp only [ctx, Option.ite_none_right_eq_some, Option.some.injEq] at h
    obtain ⟨-, rfl⟩ := h
    exact Nat.zero_le _
  · intro src dst f v h
    simp only [ctx, Option.ite_none_right_eq_some, Option.some.injEq] at h
    obtain ⟨-, rfl⟩ := h
    exact Nat.zero_le _

/-- `(map<f>("a") >> map<f>(map<f>("b")) >> "c") | (map<f>("a") >> map<f>("b"))`, the first
part filtered by `g` -/
def twice : Parser Nat :=
  .choice [.sequence [.map (all "a") (.user 0), .map (.map (all "b") (.user 0)) (.user 0), all "c"],
    .sequence [.filter (.map (all "a") (.user 0)) (.user 1), .map (all "b") (.user 0)]]

/-- callback 0 is a taker: the filter uses another function -/
def taker : Fn → Bool := fun f => f == .user 0

theorem twice_notFilters (text : String) : NotFilters (ctx text) taker twice := by
  intro q f h
  have := reach_closed (C := ctx text)
    (ok := fun p => match p with | .filter _ f => !taker f.logged | .custom _ => false | _ => true) (fun _ => rfl)
    (p := twice) rfl h
  have := everyNode_ok this
  simpa using this

-- on "ab" the first alternative makes three values and drops two of them, having given one away; the second makes two
-- more, which are in the result
example : ∃ log w, Parses (ctx "ab") twice (input "ab") log w ⟨.at 0 2, 0⟩ ∧ made (ctx "ab") wrapped log = 5 ∧
    given wrapped taker log = 1 ∧ w.occurs wrapped = 2 :=
  ⟨_, _, parses _ 9 rfl, rfl, rfl, rfl⟩

-- made once, given away: not in the result; made once, not given away: there once
example : ∃ log w, Parses (ctx "a") (.map (.map (all "a") (.user 0)) (.user 1)) (input "a") log w ⟨.at 0 1, 0⟩ ∧
    made (ctx "a") wrapped log = 1 ∧ given wrapped (· == .user 1) log = 1 ∧ w.occurs wrapped = 0 :=
  ⟨_, _, parses _ 9 rfl, rfl, rfl, rfl⟩
example : ∃ log w, Parses (ctx "a") (.sequence [.map (all "a") (.user 0), .maybe (all "b")]) (input "a") log w ⟨.at 0 1, 0⟩ ∧
    made (ctx "a") wrapped log = 1 ∧ w.occurs wrapped = 1 :=
  ⟨_, _, parses _ 9 rfl, rfl, rfl⟩

-- a callback that throws after another one was given a value
example : ∃ log, Parse (ctx "a") (.map (.map (all "a") (.user 0)) (.user 3)) (input "a") = .done log (.err (.exn 7)) ∧
    made (ctx "a") wrapped log = 1 ∧ given wrapped (fun _ => true) log = 1 :=
  ⟨_, parses _ 9 rfl, rfl, rfl⟩

end Ex

end Tok3n
