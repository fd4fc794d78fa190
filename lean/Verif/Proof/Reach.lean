import Verif.Spec.Values
/-
Checking a condition on every node of a concrete parser that `parse` can reach.
-/

namespace Tok3n

variable {α β : Type}

mutual
/-- `ok` holds of every node other than below `ignore` (not looking into custom parsers) -/
def everyNode (ok : Parser α → Bool) : Parser α → Bool
  | .choice ps => ok (.choice ps) && everyNodes ok ps
  | .sequence ps => ok (.sequence ps) && everyNodes ok ps
  | .maybe p => ok (.maybe p) && everyNode ok p
  | .exactly p n => ok (.exactly p n) && everyNode ok p
  | .oneOrMore p => ok (.oneOrMore p) && everyNode ok p
  | .zeroOrMore p => ok (.zeroOrMore p) && everyNode ok p
  | .complete p => ok (.complete p) && everyNode ok p
  | .map p f => ok (.map p f) && everyNode ok p
  | .filter p f => ok (.filter p f) && everyNode ok p
  | .join p => ok (.join p) && everyNode ok p
  | .named p n => ok (.named p n) && everyNode ok p
  | .delimit p d => ok (.delimit p d) && (everyNode ok p && everyNode ok d)
  | p => ok p
def everyNodes (ok : Parser α → Bool) : List (Parser α) → Bool
  | [] => true
  | p :: ps => everyNode ok p && everyNodes ok ps
end

theorem everyNodes_mem {ok : Parser α → Bool} {ps : List (Parser α)} (h : everyNodes ok ps = true) :
    ∀ p ∈ ps, everyNode ok p = true := by
  induction ps with
  | nil => simp
  | cons p ps ih =>
    simp only [everyNodes, Bool.and_eq_true] at h
    intro q hq
    rcases List.mem_cons.1 hq with rfl | hq
    · exact h.1
    · exact ih h.2 q hq

theorem everyNode_ok {ok : Parser α → Bool} {p : Parser α} (h : everyNode ok p = true) : ok p = true := by
  cases p <;> simp only [everyNode, Bool.and_eq_true] at h <;> first | exact h.1 | exact h

/-- every reachable node, if custom parsers are fine too -/
theorem reach_ok {C : Ctx α β} {ok : Parser α → Bool} (hc : ∀ k, everyNode ok (C.custom k).body = true)
    {p q : Parser α} (hp : everyNode ok p = true) (h : ParseReach C p q) : ok q = true := by
  induction h with
  | refl => exact everyNode_ok hp
  | step hch _ ih =>
    apply ih
    cases hch with
    | custom => exact hc _
    | choice h => simp only [everyNode, Bool.and_eq_true] at hp; exact everyNodes_mem hp.2 _ h
    | sequence h => simp only [everyNode, Bool.and_eq_true] at hp; exact everyNodes_mem hp.2 _ h
    | delimiter => simp only [everyNode, Bool.and_eq_true] at hp; exact hp.2.2
    | delimit => simp only [everyNode, Bool.and_eq_true] at hp; exact hp.2.1
    | _ => simp only [everyNode, Bool.and_eq_true] at hp; exact hp.2

/-- the same for a parser that refers to no custom parser -/
theorem reach_closed {C : Ctx α β} {ok : Parser α → Bool} (hc : ∀ k, ok (.custom k) = false)
    {p q : Parser α} (hp : everyNode ok p = true) (h : ParseReach C p q) : everyNode ok q = true := by
  induction h with
  | refl => exact hp
  | step hch _ ih =>
    apply ih
    cases hch with
    | custom => have := everyNode_ok hp; rw [hc] at this; cases this
    | choice h => simp only [everyNode, Bool.and_eq_true] at hp; exact everyNodes_mem hp.2 _ h
    | sequence h => simp only [everyNode, Bool.and_eq_true] at hp; exact everyNodes_mem hp.2 _ h
    | delimiter => simp only [everyNode, Bool.and_eq_true] at hp; exact hp.2.2
    | delimit => simp only [everyNode, Bool.and_eq_true] at hp; exact hp.2.1
    | _ => simp only [everyNode, Bool.and_eq_true] at hp; exact hp.2

end Tok3n
