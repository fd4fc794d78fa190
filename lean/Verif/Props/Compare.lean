import Verif.Model.Compare
import Verif.Props.Input
import Verif.Props.Literals
/-
C59: comparing a span with a pointer, an array, or another range.
-/

namespace Tok3n

variable {β L : Type} {isNul : β → Bool} {mem : Mem β} [DecidableEq β]

/-- The elements that the right side of `span == arg` stands for. -/
inductive Denotes (isNul : β → Bool) (mem : Mem β) : Arg → List β → Prop where
  /-- a pointer: up to, not including, the first NUL -/
  | charPtr {b o xs z rest} : (mem b).drop o = xs ++ z :: rest → (∀ x ∈ xs, isNul x = false) → isNul z = true →
      Denotes isNul mem (.charPtr (.at b o)) xs
  /-- an array of characters, constant or not: likewise -/
  | constCharArray {b xs z rest} : mem b = xs ++ z :: rest → (∀ x ∈ xs, isNul x = false) → isNul z = true →
      Denotes isNul mem (.constCharArray b) xs
  | mutCharArray {b xs z rest} : mem b = xs ++ z :: rest → (∀ x ∈ xs, isNul x = false) → isNul z = true →
      Denotes isNul mem (.mutCharArray b) xs
  /-- any other range: all of it -/
  | range {b o n} : o + n ≤ (mem b).length → Denotes isNul mem (.range (.at b o) n) (((mem b).drop o).take n)
  | empty : Denotes isNul mem (.range .null 0) []

theorem equal_decide {lhs s : Span} {xs : List β} (hl : lhs.Valid mem) (hs : s.Valid mem) (hx : s.elems mem = xs) :
    (Span.equal mem mem (fun a b => decide (a = b)) lhs s : M L Bool) = .done [] (.ok (decide (lhs.elems mem = xs))) := by
  obtain ⟨r, h1, h2⟩ := C51_span_equality (L := L) (fun a b : β => decide (a = b)) mem mem lhs s hl hs
  rw [h1]
  have : r = true ↔ lhs.elems mem = xs := by
    rw [h2, ← hx, ← List.forall₂_eq_eq_eq]
    simp
  by_cases hr : lhs.elems mem = xs
  · rw [this.2 hr]; simp [hr]
  · have : r = false := by
      cases r with
      | false => rfl
      | true => exact absurd (this.1 rfl) hr
    rw [this]; simp [hr]

/-- `span == arg` is true exactly if the elements of the span are those that `arg` stands for. -/
theorem C59_compare (lhs : Span) (hl : lhs.Valid mem) (arg : Arg) (xs : List β) (h : Denotes isNul mem arg xs) :
    (lhs.equalArg isNul mem (fun a b => decide (a = b)) arg : M L Bool) = .done [] (.ok (decide (lhs.elems mem = xs))) := by
  have key : ∀ {b o xs z rest}, (mem b).drop o = xs ++ z :: rest → (∀ x ∈ xs, isNul x = false) → isNul z = true →
      (do let r ← spanOfCharPtr isNul mem (.at b o)
          Span.equal mem mem (fun a b => decide (a = b)) lhs r : M L Bool) =
        .done [] (.ok (decide (lhs.elems mem = xs))) := by
    intro b o xs z rest h1 h2 h3
    have hb : o ≤ (mem b).length := by
      by_contra hc
      rw [List.drop_eq_nil_of_le (by omega)] at h1
      simp at h1
    have hl' : o + xs.length ≤ (mem b).length := by
      have := congrArg List.length h1
      simp at this; omega
    simp only [spanOfCharPtr, hb, if_true, h1, M.bind_eq]
    rw [strlen_eq _ _ _ _ h2 h3, M.pure_bind, M.pure_bind, Nat.zero_add]
    refine equal_decide hl (s := ⟨.at b o, xs.length⟩) hl' ?_
    show ((mem b).drop o).take xs.length = xs
    rw [h1, List.take_left' rfl]
  cases h with
  | charPtr h1 h2 h3 => exact key h1 h2 h3
  | constCharArray h1 h2 h3 => exact key (by rw [List.drop_zero]; exact h1) h2 h3
  | mutCharArray h1 h2 h3 => exact key (by rw [List.drop_zero]; exact h1) h2 h3
  | range h => exact equal_decide hl (s := ⟨.at _ _, _⟩) h rfl
  | empty => exact equal_decide hl (s := ⟨.null, 0⟩) rfl rfl

/-- What `parse` makes of a pointer, a string literal or a range compares equal to it. -/
theorem C59_same (arg : Arg) (s : Span) (xs : List β) (h : Sees isNul mem arg s xs) (hs : s.Valid mem)
    (hx : s.elems mem = xs) (ha : ∀ b, arg ≠ .mutCharArray b) (ho : ∀ b, arg ≠ .otherArray b) :
    (s.equalArg isNul mem (fun a b => decide (a = b)) arg : M L Bool) = .done [] (.ok true) := by
  have hd : Denotes isNul mem arg xs := by
    cases h with
    | charPtr h1 h2 h3 => exact .charPtr h1 h2 h3
    | constCharArray h1 h2 h3 => exact .constCharArray h1 h2 h3
    | mutCharArray => exact absurd rfl (ha _)
    | otherArray => exact absurd rfl (ho _)
    | range h => exact .range h
    | empty => exact .empty
  rw [C59_compare s hs arg xs hd, hx]
  simp

/-- What `parse` makes of an array of characters that are not constant is all of it, NULs included.  It does not compare
equal to the array if that holds a NUL; otherwise the comparison is undefined. -/
theorem C59_mutable_array (b : Nat) :
    ((∃ x ∈ mem b, isNul x = true) →
      (Span.equalArg isNul mem (fun a b => decide (a = b)) ⟨.at b 0, (mem b).length⟩ (.mutCharArray b) : M L Bool) =
        .done [] (.ok false)) ∧
    ((∀ x ∈ mem b, isNul x = false) →
      (Span.equalArg isNul mem (fun a b => decide (a = b)) ⟨.at b 0, (mem b).length⟩ (.mutCharArray b) : M L Bool) =
        .done [] (.err .ub)) := by
  constructor
  · rintro ⟨x, hx, hz⟩
    have hsplit : ∀ ys : List β, x ∈ ys → ∃ xs z rest, ys = xs ++ z :: rest ∧ (∀ y ∈ xs, isNul y = false) ∧ isNul z = true := by
      intro ys
      induction ys with
      | nil => simp
      | cons y ys ih =>
        intro hm
        by_cases hy : isNul y = true
        · exact ⟨[], y, ys, rfl, by simp, hy⟩
        · rcases List.mem_cons.1 hm with rfl | hm
          · exact absurd hz hy
          · obtain ⟨xs, z, rest, e, h1, h2⟩ := ih hm
            refine ⟨y :: xs, z, rest, by rw [e]; rfl, ?_, h2⟩
            intro w hw
            rcases List.mem_cons.1 hw with rfl | hw
            · simpa using hy
            · exact h1 w hw
    obtain ⟨xs, z, rest, e, h1, h2⟩ := hsplit _ hx
    rw [C59_compare _ (by simp [Span.Valid]) _ xs (.mutCharArray e h1 h2)]
    have : ¬ Span.elems mem ⟨.at b 0, (mem b).length⟩ = xs := by
      simp only [Span.elems, List.drop_zero, List.take_length, e]
      intro hc
      have := congrArg List.length hc
      simp at this
    simp [this]
  · intro h
    simp only [Span.equalArg, spanOfCharPtr, M.bind_eq, Nat.zero_le, if_true, List.drop_zero]
    rw [strlen_ub _ _ h]
    rfl

-- the span over all of `char a[] = "ab"` is not equal to `a`, the span over "ab" is equal to a literal
example : (Span.equalArg (· == 0) (fun _ => [97, 98, 0]) (fun a b => decide (a = b)) ⟨.at 7 0, 3⟩ (.mutCharArray 7) : M Unit Bool) =
    .done [] (.ok false) := (C59_mutable_array 7).1 ⟨0, by simp, rfl⟩
example : (Span.equalArg (· == 0) (fun _ => [97, 98, 0]) (fun a b => decide (a = b)) ⟨.at 7 0, 2⟩ (.constCharArray 3) : M Unit Bool) =
    .done [] (.ok true) :=
  C59_compare ⟨.at 7 0, 2⟩ (by simp [Span.Valid]) _ [97, 98] (.constCharArray (z := 0) (rest := []) rfl (by simp) rfl)

end Tok3n
