import Verif.Proof.Fix
/-
Partial-correctness assertions on outcomes, and induction over the fuel.
-/

namespace Tok3n

variable {α β L A B : Type}

/-- If the run ended, its value satisfies `Q`, its error `E`. -/
def Sat (m : M L A) (Q : A → Prop) (E : Err → Prop) : Prop :=
  match m with
  | .diverge => True
  | .done _ (.ok a) => Q a
  | .done _ (.err e) => E e

section
variable {Q Q' : A → Prop} {E E' : Err → Prop}

theorem Sat.diverge : Sat (M.diverge : M L A) Q E := trivial
theorem Sat.pure {a : A} (h : Q a) : Sat (M.pure a : M L A) Q E := h
theorem Sat.fail {e : Err} (h : E e) : Sat (M.fail e : M L A) Q E := h

theorem Sat.bind {m : M L A} {f : A → M L B} {Q' : B → Prop} (h : Sat m Q E)
    (hf : ∀ a, Q a → Sat (f a) Q' E) : Sat (M.bind m f) Q' E := by
  cases m with
  | diverge => trivial
  | done l r =>
    cases r with
    | err e => exact h
    | ok a =>
      have := hf a h
      show Sat ((f a).after l) Q' E
      cases hfa : f a with
      | diverge => trivial
      | done l' r' => rw [hfa] at this; cases r' <;> exact this

theorem Sat.mono {m : M L A} (h : Sat m Q E) (hQ : ∀ a, Q a → Q' a) (hE : ∀ e, E e → E' e) :
    Sat m Q' E' := by
  cases m with
  | diverge => trivial
  | done l r =>
    cases r with
    | ok a => exact hQ a h
    | err e => exact hE e h

theorem Sat.post {m : M L A} (h : Sat m Q E) (hQ : ∀ a, Q a → Q' a) : Sat m Q' E :=
  h.mono hQ fun _ h => h

theorem Sat.and {m : M L A} (h : Sat m Q E) (h' : Sat m Q' E') :
    Sat m (fun a => Q a ∧ Q' a) (fun e => E e ∧ E' e) := by
  cases m with
  | diverge => trivial
  | done l r => cases r <;> exact ⟨h, h'⟩

theorem Sat.ite {c : Prop} [Decidable c] {m m' : M L A} (h : c → Sat m Q E) (h' : ¬c → Sat m' Q E) :
    Sat (if c then m else m') Q E := by
  by_cases hc : c
  · rw [if_pos hc]; exact h hc
  · rw [if_neg hc]; exact h' hc

theorem Sat.ok {m : M L A} (h : Sat m Q E) {l a} (hm : m = .done l (.ok a)) : Q a := by
  rw [hm] at h; exact h
theorem Sat.err {m : M L A} (h : Sat m Q E) {l e} (hm : m = .done l (.err e)) : E e := by
  rw [hm] at h; exact h

theorem Sat.intro {m : M L A} (h : ∀ l a, m = .done l (.ok a) → Q a)
    (h' : ∀ l e, m = .done l (.err e) → E e) : Sat m Q E := by
  cases m with
  | diverge => trivial
  | done l r =>
    cases r with
    | ok a => exact h _ _ rfl
    | err e => exact h' _ _ rfl

theorem Sat.ofOption {o : Option A} {e : Err} (h : ∀ a, o = some a → Q a) (h' : o = none → E e) :
    Sat (M.ofOption e o : M L A) Q E := by
  cases o with
  | none => exact h' rfl
  | some a => exact h a rfl

theorem Sat.log {l : L} {Q : Unit → Prop} (h : Q ()) : Sat (M.log l : M L Unit) Q E := h

end

/-- Anything goes. -/
abbrev anyErr : Err → Prop := fun _ => True

/-- Induction over the fuel: what holds of a parser that does not return and is
preserved by every parser body holds of every parser. -/
theorem sem_induct {C : Ctx α β} (Φ : Parser α → Sub → Prop)
    (bot : ∀ p, Φ p ⟨fun _ => M.diverge, fun _ => M.diverge⟩)
    (hstep : ∀ rec k, (∀ q, Φ q (rec q)) → ∀ p, Φ p (step C rec k p)) (n : Nat) (p : Parser α) :
    Φ p (sem C n p) := by
  induction n generalizing p with
  | zero => exact bot p
  | succ n ih => exact hstep _ _ ih p

theorem Sat.lim {m : Nat → M L A} {a : M L A} (h : Lim m a) {Q : A → Prop} {E : Err → Prop}
    (hm : ∀ n, Sat (m n) Q E) : Sat a Q E := by
  cases ha : a with
  | diverge => trivial
  | done l r =>
    obtain ⟨n, hn⟩ := (h.iff l r).1 ha
    have := hm n
    rw [hn] at this
    exact this

theorem Parse_sat {C : Ctx α β} {p : Parser α} {s : Span} {Q : R → Prop} {E : Err → Prop}
    (h : ∀ n, Sat ((sem C n p).parse s) Q E) : Sat (Parse C p s) Q E :=
  Sat.lim ((sem_lim p).parse s) h

theorem Look_sat {C : Ctx α β} {p : Parser α} {s : Span} {Q : R → Prop} {E : Err → Prop}
    (h : ∀ n, Sat ((sem C n p).look s) Q E) : Sat (Look C p s) Q E :=
  Sat.lim ((sem_lim p).look s) h

end Tok3n
