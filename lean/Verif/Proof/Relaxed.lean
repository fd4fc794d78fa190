import Verif.Proof.Join
import Verif.Proof.Like
/-
Whether the compiler lets the specialisations of `join_parser` match `any_of` and `none_of` makes no difference (C29).
-/

namespace Tok3n

variable {α β : Type}

/-- the same program with the other compiler -/
def Ctx.relaxed (C : Ctx α β) (r : Bool) : Ctx α β := { C with relaxedTtp := r }

variable {C : Ctx α β} {r : Bool}

set_option smartUnfolding false in
theorem step_relaxed (rec : Parser α → Sub) (n : Nat) (p : Parser α) (h : ∀ q, p ≠ .join q) :
    step (C.relaxed r) rec n p = step C rec n p := by
  cases p with
  | join q => exact (h q rfl).elim
  | _ => with_unfolding_all rfl

set_option smartUnfolding false in
theorem joinGeneric_relaxed (P : Sub) : joinGeneric (C.relaxed r) P = joinGeneric C P := by
  with_unfolding_all rfl

theorem den_congr {p : Parser α} (h : ∀ n, sem (C.relaxed r) n p = sem C n p) : den (C.relaxed r) p = den C p := by
  unfold den Parse Look
  simp only [h]

theorem sem_basic {q : Parser α} {b : BasicP α} (hq : asBasic (C.relaxed r) q = some b) (n : Nat) :
    sem (C.relaxed r) n q = sem C n q := by
  cases n with
  | zero => rfl
  | succ n =>
    cases q with
    | anyOf | noneOf | allOf => rfl
    | _ => cases hq

set_option smartUnfolding false in
/-- what the specialisations match does not depend on the compiler without `join` -/
theorem sem_around {q : Parser α} {b : BasicP α} (hq : asBasic (C.relaxed r) q = some b) (n : Nat) :
    sem (C.relaxed r) n (.maybe q) = sem C n (.maybe q) ∧ sem (C.relaxed r) n (.zeroOrMore q) = sem C n (.zeroOrMore q) ∧
    sem (C.relaxed r) n (.oneOrMore q) = sem C n (.oneOrMore q) ∧
    ∀ k, sem (C.relaxed r) n (.exactly q k) = sem C n (.exactly q k) := by
  cases n with
  | zero => exact ⟨rfl, rfl, rfl, fun _ => rfl⟩
  | succ n =>
    have key : ∀ p : Parser α, (∀ q, p ≠ .join q) → (∀ rec rec' : Parser α → Sub, rec q = rec' q → step C rec n p = step C rec' n p) →
        sem (C.relaxed r) (n + 1) p = sem C (n + 1) p := by
      intro p hj h
      show step _ (sem _ n) n p = step C (sem C n) n p
      rw [step_relaxed _ _ _ hj]
      exact h _ _ (sem_basic hq n)
    refine ⟨key _ nofun ?_, key _ nofun ?_, key _ nofun ?_, fun k => key _ nofun ?_⟩ <;>
      · intro rec rec' h
        simp only [step, h]

theorem semJoin_relaxed_le (n : Nat) (p : Parser α) :
    (semJoin (C.relaxed r) (den C) n p).le (den C (.join p)) := by
  have generic : (joinGeneric (C.relaxed r) (den C p)).le (den C (.join p)) := by
    rw [joinGeneric_relaxed]
    intro s
    refine ⟨?_, ?_⟩
    · show (parseJoin C (den C p) s).le (Parse C (.join p) s)
      rw [Parse_join_eq]; exact M.le_refl _
    · show (Look C p s).le (Look C (.join p) s)
      rw [Look_join_eq]; exact M.le_refl _
  -- a specialisation: in `C.relaxed r` it is the same as the generic one
  have special : den (C.relaxed r) p = den C p → ∀ P : Sub,
      (∀ rec : Parser α → Sub, semJoin (C.relaxed r) rec n p = P) → P.le (den C (.join p)) := by
    intro hd P hP
    have h1 : P.le (den (C.relaxed r) (.join p)) := by
      have := sem_le_den (C := C.relaxed r) (n + 1) (.join p)
      rwa [show sem (C.relaxed r) (n + 1) (.join p) = semJoin (C.relaxed r) (sem _ n) n p from rfl, hP] at this
    have h2 : den (C.relaxed r) (.join p) = den C (.join p) := by
      have e1 : (fun s => Parse (C.relaxed r) (.join p) s) = fun s => Parse C (.join p) s := by
        funext s
        rw [Parse_join_eq, Parse_join_eq, hd]
        exact congrFun (congrArg Sub.parse (joinGeneric_relaxed (C := C) (r := r) (den C p))) s
      have e2 : (fun s => Look (C.relaxed r) (.join p) s) = fun s => Look C (.join p) s := by
        funext s
        rw [Look_join_eq, Look_join_eq]
        exact congrFun (congrArg Sub.look hd) s
      show (⟨_, _⟩ : Sub) = ⟨_, _⟩
      exact congr (congrArg Sub.mk e1) e2
    rwa [h2] at h1
  have hs := special
  cases p with
  | exactly q k =>
    simp only [semJoin] at hs ⊢
    cases hq : asBasic (C.relaxed r) q with
    | none => exact generic
    | some b =>
      rw [hq] at hs
      exact hs (den_congr fun n => (sem_around hq n).2.2.2 k) _ fun _ => rfl
  | maybe q =>
    simp only [semJoin] at hs ⊢
    cases hq : asBasic (C.relaxed r) q with
    | none => exact generic
    | some b =>
      rw [hq] at hs
      exact hs (den_congr fun n => (sem_around hq n).1) _ fun _ => rfl
  | oneOrMore q =>
    simp only [semJoin] at hs ⊢
    cases hq : asBasic (C.relaxed r) q with
    | none => exact generic
    | some b =>
      rw [hq] at hs
      exact hs (den_congr fun n => (sem_around hq n).2.2.1) _ fun _ => rfl
  | zeroOrMore q =>
    simp only [semJoin] at hs ⊢
    cases hq : asBasic (C.relaxed r) q with
    | none => exact generic
    | some b =>
      rw [hq] at hs
      exact hs (den_congr fun n => (sem_around hq n).2.1) _ fun _ => rfl
  | _ => exact generic

theorem step_den_le (n : Nat) (p : Parser α) : (step C (den C) n p).le (den C p) := fun s => by
  have mono := step_fuel_le (C := C) (den C)
  refine ⟨?_, ?_⟩
  · show M.le _ (Parse C p s)
    rw [Parse_eq]
    exact (Mono.lim (m := fun k => (step C (den C) k p).parse s) fun k => (mono k p s).1).le n
  · show M.le _ (Look C p s)
    rw [Look_eq]
    exact (Mono.lim (m := fun k => (step C (den C) k p).look s) fun k => (mono k p s).2).le n

theorem sem_relaxed_le (n : Nat) (p : Parser α) : (sem (C.relaxed r) n p).le (den C p) := by
  induction n generalizing p with
  | zero => exact fun s => ⟨M.diverge_le _, M.diverge_le _⟩
  | succ n ih =>
    refine Sub.le_trans (step_rec_le (C := C.relaxed r) ih n p) ?_
    by_cases hj : ∃ q, p = .join q
    · obtain ⟨q, rfl⟩ := hj
      exact semJoin_relaxed_le n q
    · rw [step_relaxed _ _ _ fun q h => hj ⟨q, h⟩]
      exact step_den_le n p

theorem den_relaxed_le (p : Parser α) : (den (C.relaxed r) p).le (den C p) := fun s => by
  refine ⟨fun h => ?_, fun h => ?_⟩
  · obtain ⟨n, hn⟩ : ∃ n, (sem (C.relaxed r) n p).parse s = Parse (C.relaxed r) p s := by
      cases hm : Parse (C.relaxed r) p s with
      | diverge => exact (h hm).elim
      | done l x => exact Parse_eq_done.1 hm
    have := (sem_relaxed_le (C := C) (r := r) n p s).1
    rw [hn] at this
    exact this h
  · obtain ⟨n, hn⟩ : ∃ n, (sem (C.relaxed r) n p).look s = Look (C.relaxed r) p s := by
      cases hm : Look (C.relaxed r) p s with
      | diverge => exact (h hm).elim
      | done l x => exact Look_eq_done.1 hm
    have := (sem_relaxed_le (C := C) (r := r) n p s).2
    rw [hn] at this
    exact this h

theorem den_relaxed (p : Parser α) (s : Span) :
    Parse (C.relaxed r) p s = Parse C p s ∧ Look (C.relaxed r) p s = Look C p s := by
  have h1 := den_relaxed_le (C := C) (r := r) p s
  have h2 := den_relaxed_le (C := C.relaxed r) (r := C.relaxedTtp) p s
  exact ⟨M.le_antisymm h1.1 h2.1, M.le_antisymm h1.2 h2.2⟩

end Tok3n
