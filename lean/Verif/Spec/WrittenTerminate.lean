import Verif.Spec.Written
import Verif.Spec.Terminate
/-
Vocabulary for C77: when parsers made with hand-written classes return.
-/

namespace Tok3n

variable {α β : Type}

namespace Written

/-- What is asked of the hand-written classes and of the library's custom parsers for every parser made with them to
return.  `null` is true of those that may succeed without consuming; `rank` orders the library's custom parsers so
that what such a one can reach before something is consumed is hand-written or of lower rank. -/
structure Table (C : Ctx α β) (W : Written) (null : Nat → Bool) (rank : Nat → Nat) : Prop where
  /-- hand-written classes give the input back when they fail and leave an end of it when they succeed … -/
  protocol : ∀ k S, W k = some S → Protocol S
  /-- … they return … -/
  returns : ∀ k S, W k = some S → ∀ s : Span, s.Valid C.mem → S.parse s ≠ .diverge ∧ S.look s ≠ .diverge
  /-- … and consume something whenever they succeed, unless `null` … -/
  consumes : ∀ k S, W k = some S → null k = false → ∀ s log v s',
    (S.parse s = .done log (.ok ⟨some v, s'⟩) → s'.len < s.len) ∧
    (S.look s = .done log (.ok ⟨some v, s'⟩) → s'.len < s.len)
  /-- `null` is true of the library's custom parsers that may succeed without consuming … -/
  nullable : ∀ k, W k = none → (C.custom k).body.nullable null = true ∨ pretends C k = true → null k = true
  /-- … which repeat nothing that may succeed without consuming … -/
  repeats : ∀ k, W k = none → (C.custom k).body.repeatsOK null = true
  /-- … and respect the ranks. -/
  firsts : ∀ k, W k = none →
    (C.custom k).body.firsts null (fun j => (W j).isSome || decide (rank j < rank k)) = true

end Written

end Tok3n
