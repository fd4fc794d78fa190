import Verif.Model.Input
import Verif.Spec.Example
/-
Property C48: what `parse` and `lookahead` see of their argument.
-/

namespace Tok3n

variable {α β L : Type} (isNul : β → Bool) (C : Ctx α β) (p : Parser α)

/-- `arg` stands for the elements `xs`, found at `s`. -/
inductive Sees (isNul : β → Bool) (mem : Mem β) : Arg → Span → List β → Prop where
  /-- a pointer: up to, not including, the first NUL -/
  | charPtr {b o xs z rest} : (mem b).drop o = xs ++ z :: rest → (∀ x ∈ xs, isNul x = false) →
      isNul z = true → Sees isNul mem (.charPtr (.at b o)) ⟨.at b o, xs.length⟩ xs
  /-- a string literal, and every other array of constant characters: likewise -/
  | constCharArray {b xs z rest} : mem b = xs ++ z :: rest → (∀ x ∈ xs, isNul x = false) →
      isNul z = true → Sees isNul mem (.constCharArray b) ⟨.at b 0, xs.length⟩ xs
  /-- an array of characters that are not constant: all of it, NULs included -/
  | mutCharArray {b} : Sees isNul mem (.mutCharArray b) ⟨.at b 0, (mem b).length⟩ (mem b)
  /-- an array of anything else: all of it -/
  | otherArray {b} : Sees isNul mem (.otherArray b) ⟨.at b 0, (mem b).length⟩ (mem b)
  /-- any other range: all of it -/
  | range {b o n} : o + n ≤ (mem b).length →
      Sees isNul mem (.range (.at b o) n) ⟨.at b o, n⟩ (((mem b).drop o).take n)
  /-- an empty range without elements -/
  | empty : Sees isNul mem (.range .null 0) ⟨.null, 0⟩ []

variable {isNul} in
theorem strlen_eq (xs : List β) (z : β) (rest : List β) (i : Nat) (h : ∀ x ∈ xs, isNul x = false)
    (hz : isNul z = true) : strlen (L := L) isNul (xs ++ z :: rest) i = M.pure (i + xs.length) := by
  induction xs generalizing i with
  | nil => simp [strlen, hz]
  | cons x xs ih =>
    simp only [List.cons_append, strlen, h x (by simp)]
    rw [if_neg (by simp), ih (i + 1) fun x hx => h x (by simp [hx])]
    simp only [List.length_cons]; congr 1; omega

variable {isNul} in
theorem strlen_ub (xs : List β) (i : Nat) (h : ∀ x ∈ xs, isNul x = false) :
    strlen (L := L) isNul xs i = M.fail .ub := by
  induction xs generalizing i with
  | nil => rfl
  | cons x xs ih =>
    simp only [strlen, h x (by simp)]
    rw [if_neg (by simp), ih (i + 1) fun x hx => h x (by simp [hx])]

variable {isNul} in
theorem Sees.span {mem : Mem β} {arg : Arg} {s : Span} {xs : List β} (h : Sees isNul mem arg s xs) :
    spanOfArg (L := L) isNul mem arg = M.pure s := by
  cases h with
  | charPtr h1 h2 h3 =>
    rename_i b o z rest
    have hl : o ≤ (mem b).length := by
      by_contra hc
      rw [List.drop_eq_nil_of_le (by omega)] at h1
      simp at h1
    simp only [spanOfArg, spanOfCharPtr, hl, if_true, h1, M.bind_eq]
    rw [strlen_eq _ _ _ _ h2 h3, M.pure_bind, Nat.zero_add]
  | constCharArray h1 h2 h3 =>
    simp only [spanOfArg, spanOfCharPtr, Nat.zero_le, if_true, List.drop_zero, h1, M.bind_eq]
    rw [strlen_eq _ _ _ _ h2 h3, M.pure_bind, Nat.zero_add]
  | mutCharArray => rfl
  | otherArray => rfl
  | range _ => rfl
  | empty => rfl

/-- Whatever is passed to `parse` or `lookahead`, it works on exactly the elements the argument
stands for; these are always readable. -/
theorem C48_argument (arg : Arg) (s : Span) (xs : List β) (h : Sees isNul C.mem arg s xs) :
    parseArg isNul C p arg = Parse C p s ∧ lookArg isNul C p arg = Look C p s ∧
    s.Valid C.mem ∧ s.elems C.mem = xs := by
  refine ⟨?_, ?_, ?_⟩
  · simp only [parseArg, M.bind_eq, h.span, M.pure_bind]
  · simp only [lookArg, M.bind_eq, h.span, M.pure_bind]
  · cases h with
    | charPtr h1 h2 h3 =>
      rename_i b o z rest
      have hl : o + xs.length < (C.mem b).length := by
        have := congrArg List.length h1
        simp at this; omega
      refine ⟨Nat.le_of_lt hl, ?_⟩
      show ((C.mem b).drop o).take xs.length = xs
      rw [h1, List.take_left' rfl]
    | constCharArray h1 h2 h3 =>
      rename_i b z rest
      refine ⟨show 0 + _ ≤ _ by rw [h1]; simp, ?_⟩
      show ((C.mem b).drop 0).take xs.length = xs
      rw [List.drop_zero, h1, List.take_left' rfl]
    | mutCharArray => exact ⟨Nat.le_of_eq (Nat.zero_add _), by simp [Span.elems]⟩
    | otherArray => exact ⟨Nat.le_of_eq (Nat.zero_add _), by simp [Span.elems]⟩
    | range h => exact ⟨h, rfl⟩
    | empty => exact ⟨rfl, rfl⟩

/-- A pointer or an array of constant characters without a NUL is read past its end. -/
theorem C48_no_nul (b o : Nat) (hn : ∀ x ∈ (C.mem b).drop o, isNul x = false) :
    parseArg isNul C p (.charPtr (.at b o)) = .done [] (.err .ub) ∧
    (o = 0 → parseArg isNul C p (.constCharArray b) = .done [] (.err .ub)) := by
  have : ∀ o, (∀ x ∈ (C.mem b).drop o, isNul x = false) →
      spanOfCharPtr (L := Call) isNul C.mem (.at b o) = M.fail .ub := by
    intro o hn
    simp only [spanOfCharPtr, M.bind_eq]
    split
    · rw [strlen_ub _ _ hn]; rfl
    · rfl
  refine ⟨?_, ?_⟩
  · simp only [parseArg, M.bind_eq, spanOfArg, this o hn]; rfl
  · rintro rfl
    simp only [parseArg, M.bind_eq, spanOfArg, this 0 hn]; rfl

/-- So the same characters in a constant and in a mutable array are different inputs: the NUL that
ends a literal is an element of the mutable array. -/
theorem C48_mutable_array (b : Nat) (xs : List β) (z : β) (hm : C.mem b = xs ++ [z])
    (hx : ∀ x ∈ xs, isNul x = false) (hz : isNul z = true) :
    parseArg isNul C p (.constCharArray b) = Parse C p ⟨.at b 0, xs.length⟩ ∧
    parseArg isNul C p (.mutCharArray b) = Parse C p ⟨.at b 0, xs.length + 1⟩ := by
  refine ⟨(C48_argument isNul C p _ _ _ (.constCharArray hm hx hz)).1, ?_⟩
  have := (C48_argument isNul C p _ _ _ (.mutCharArray (b := b))).1
  rwa [hm, List.length_append] at this

-- complete("ab") accepts the literal "ab", not the mutable array holding it, and not all of
-- string_view("ab\0", 3)
example : ∃ log v s', parseArg (· == 0) { Ex.ctx "" with mem := fun _ => [97, 98, 0] } (.complete (Ex.all "ab"))
      (.constCharArray 7) = .done log (.ok ⟨some v, s'⟩) := by
  refine ⟨[], .span ⟨.at 7 0, 2⟩, ⟨.at 7 2, 0⟩, ?_⟩
  rw [(C48_mutable_array _ _ _ 7 [97, 98] 0 rfl (by simp) rfl).1]
  exact Ex.parses _ 9 rfl

example : ∃ log s', parseArg (· == 0) { Ex.ctx "" with mem := fun _ => [97, 98, 0] } (.complete (Ex.all "ab"))
      (.mutCharArray 7) = .done log (.ok ⟨none, s'⟩) := by
  refine ⟨[], ⟨.at 7 0, 3⟩, ?_⟩
  rw [(C48_mutable_array _ _ _ 7 [97, 98] 0 rfl (by simp) rfl).2]
  exact Ex.parses _ 9 rfl

end Tok3n
