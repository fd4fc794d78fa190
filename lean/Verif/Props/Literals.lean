import Verif.Spec.Literals
import Verif.Spec.Example
import Verif.Proof.Sets
/-
C07, C08, C09, C51: the basic parsers.
-/

namespace Tok3n

variable {α β : Type}

/-! ## C51 Span comparison -/

/-- Comparing two readable spans is always defined; it answers "same length and pairwise
equal elements" and does not depend on anything else, in particular not on addresses. -/
theorem C51_span_equality {L : Type} (eqv : α → β → Bool) (memL : Mem α) (memR : Mem β) (a b : Span)
    (ha : a.Valid memL) (hb : b.Valid memR) :
    ∃ r : Bool, (Span.equal memL memR eqv a b : M L Bool) = .done [] (.ok r) ∧
      (r = true ↔ List.Forall₂ (fun x y => eqv x y = true) (a.elems memL) (b.elems memR)) := by
  refine ⟨_, Span.equal_eq eqv ha hb, ?_⟩
  generalize a.elems memL = xs
  generalize b.elems memR = ys
  induction xs generalizing ys with
  | nil => cases ys <;> simp [pairwise]
  | cons x xs ih => cases ys <;> simp [pairwise, ih]

-- "ab" at two different places
example : (Span.equal (fun _ => [1, 2, 3, 1, 2]) (fun _ => [9, 1, 2]) (· == ·) ⟨.at 0 3, 2⟩ ⟨.at 5 1, 2⟩ :
    M Unit Bool) = .done [] (.ok true) := rfl

/-! ## C07 Exact acceptance of the basic parsers -/

theorem startsWith_iff (eqv : α → β → Bool) (arr : List α) (xs : List β) :
    startsWith eqv arr xs = true ↔
      ∃ front rest, xs = front ++ rest ∧ List.Forall₂ (fun a x => eqv a x = true) arr front := by
  induction arr generalizing xs with
  | nil => simp [startsWith]
  | cons a arr ih =>
    cases xs with
    | nil =>
      simp only [startsWith, Bool.false_eq_true, false_iff]
      rintro ⟨front, rest, h, hf⟩
      cases hf; simp at h
    | cons x xs =>
      simp only [startsWith, Bool.and_eq_true, ih]
      constructor
      · rintro ⟨h, front, rest, rfl, hf⟩
        exact ⟨x :: front, rest, rfl, .cons h hf⟩
      · rintro ⟨front, rest, h, hf⟩
        cases hf with
        | cons h1 h2 =>
          simp only [List.cons_append, List.cons.injEq] at h
          obtain ⟨rfl, rfl⟩ := h
          exact ⟨h1, _, _, rfl, h2⟩

/-- the basic parser as data -/
def Parser.basic? : Parser α → Option (BasicP α)
  | .anyOf arr => some (.anyOf arr)
  | .noneOf arr => some (.noneOf arr)
  | .allOf arr => some (.allOf arr)
  | .anything => some .anything
  | _ => none

theorem IsBasic.get {p : Parser α} (h : IsBasic p) : ∃ b, p.basic? = some b := by
  cases p <;> first | exact ⟨_, rfl⟩ | exact h.elim

theorem matches_iff {eqv : α → β → Bool} {p : Parser α} {b : BasicP α} (hb : p.basic? = some b)
    (xs : List β) (k : Nat) : Matches eqv p xs k ↔ k = b.length ∧ b.accepts eqv xs = true := by
  cases p with
  | anyOf arr => cases hb; cases xs <;> simp [Matches, BasicP.accepts, BasicP.length]
  | noneOf arr => cases hb; cases xs <;> simp [Matches, BasicP.accepts, BasicP.length]
  | allOf arr => cases hb; simp only [Matches, BasicP.accepts, BasicP.length, startsWith_iff]
  | anything => cases hb; cases xs <;> simp [Matches, BasicP.accepts, BasicP.length]
  | _ => cases hb

theorem Parse_basic {C : Ctx α β} {p : Parser α} {b : BasicP α} (hb : p.basic? = some b) (s : Span) :
    Parse C p s = parseBasic C b s := by
  cases p with
  | anyOf arr => cases hb; exact Parse_anyOf _ _
  | noneOf arr => cases hb; exact Parse_noneOf _ _
  | allOf arr => cases hb; exact Parse_allOf _ _
  | anything => cases hb; exact Parse_anything _
  | _ => cases hb

theorem Look_basic {C : Ctx α β} {p : Parser α} {b : BasicP α} (hb : p.basic? = some b) (s : Span) :
    Look C p s = lookBasic C b s := by
  cases p with
  | anyOf arr => cases hb; exact Look_anyOf _ _
  | noneOf arr => cases hb; exact Look_noneOf _ _
  | allOf arr => cases hb; exact Look_allOf _ _
  | anything => cases hb; exact Look_anything _
  | _ => cases hb

/-- `parse` of a basic parser on a readable input succeeds exactly on a match; its value is
the span of exactly the matched elements and exactly those are consumed.  It fails exactly
if there is no match, leaving the input.  (So it never does anything else.) -/
theorem C07_basic_parse (C : Ctx α β) (p : Parser α) (hp : IsBasic p) (s : Span) (hs : s.Valid C.mem)
    (log : List Call) (v : Val) (s' : Span) :
    (Parses C p s log v s' ↔ log = [] ∧
      ∃ k, Matches C.eqv p (s.elems C.mem) k ∧ v = .span ⟨s.ptr, k⟩ ∧ s.Advanced k s') ∧
    (ParseFails C p s log s' ↔ log = [] ∧ s' = s ∧ ∀ k, ¬ Matches C.eqv p (s.elems C.mem) k) := by
  obtain ⟨b, hb⟩ := hp.get
  have hlen : ∀ k, Matches C.eqv p (s.elems C.mem) k → k ≤ s.len := by
    intro k hk
    rw [matches_iff hb] at hk
    rw [hk.1, ← hs.elems_length]
    exact BasicP.accepts_length hk.2
  unfold Parses ParseFails
  rw [Parse_basic hb, parseBasic_eq hs]
  simp only [matches_iff hb] at hlen ⊢
  by_cases ha : b.accepts C.eqv (s.elems C.mem) = true
  · have hadv := hs.advanced (hlen b.length ⟨rfl, ha⟩)
    simp only [ha, if_true, M.pure, R.success, M.done.injEq, Res.ok.injEq, R.mk.injEq, Option.some.injEq]
    refine ⟨⟨?_, ?_⟩, ?_⟩
    · rintro ⟨rfl, rfl, rfl⟩; exact ⟨rfl, _, ⟨rfl, trivial⟩, rfl, hadv⟩
    · rintro ⟨rfl, k, ⟨rfl, -⟩, rfl, h⟩; exact ⟨rfl, rfl, h.eq_drop.symm⟩
    · simp
  · simp only [Bool.not_eq_true] at ha
    simp only [ha, M.pure, R.failure, M.done.injEq]
    simp [eq_comm]

-- what a parse found is what is written there
example : Matches (· == ·) (Ex.all "ab") (Ex.str "aby") 2 := by
  obtain ⟨-, k, h, e, -⟩ := ((C07_basic_parse (Ex.ctx "xaby") (Ex.all "ab") trivial ⟨.at 0 1, 3⟩ (by decide) _ _ _).1).1
    (Ex.parses _ 2 rfl : Parses _ _ _ [] (.span ⟨.at 0 1, 2⟩) ⟨.at 0 3, 1⟩)
  cases e; exact h

/-- `lookahead` of a basic parser accepts and consumes the same. -/
theorem C07_basic_lookahead (C : Ctx α β) (p : Parser α) (hp : IsBasic p) (s : Span) (hs : s.Valid C.mem)
    (log : List Call) (s' : Span) :
    (Looks C p s log s' ↔ log = [] ∧ ∃ k, Matches C.eqv p (s.elems C.mem) k ∧ s.Advanced k s') ∧
    (LookFails C p s log s' ↔ log = [] ∧ s' = s ∧ ∀ k, ¬ Matches C.eqv p (s.elems C.mem) k) := by
  obtain ⟨b, hb⟩ := hp.get
  have hlen : ∀ k, Matches C.eqv p (s.elems C.mem) k → k ≤ s.len := by
    intro k hk
    rw [matches_iff hb] at hk
    rw [hk.1, ← hs.elems_length]
    exact BasicP.accepts_length hk.2
  unfold Looks LookFails
  rw [Look_basic hb, lookBasic_eq hs]
  simp only [matches_iff hb] at hlen ⊢
  by_cases ha : b.accepts C.eqv (s.elems C.mem) = true
  · have hadv := hs.advanced (hlen b.length ⟨rfl, ha⟩)
    simp only [ha, if_true, M.pure, R.successVoid, M.done.injEq, Res.ok.injEq, R.mk.injEq]
    refine ⟨⟨?_, ?_⟩, ?_⟩
    · rintro ⟨rfl, -, rfl⟩; exact ⟨rfl, _, ⟨rfl, trivial⟩, hadv⟩
    · rintro ⟨rfl, k, ⟨rfl, -⟩, h⟩; exact ⟨rfl, trivial, h.eq_drop.symm⟩
    · simp
  · simp only [Bool.not_eq_true] at ha
    simp only [ha, M.pure, R.failure, M.done.injEq]
    simp [eq_comm]

example : ∀ k, ¬ Matches (· == ·) (Ex.none "ab") (Ex.str "aby") k :=
  ((C07_basic_lookahead (Ex.ctx "xaby") (Ex.none "ab") trivial ⟨.at 0 1, 3⟩ (by decide) _ _).2.1
    (Ex.looks _ 2 rfl : LookFails _ _ _ [] ⟨.at 0 1, 3⟩)).2.2

/-- `eps` accepts everything and consumes nothing, on every input. -/
theorem C07_epsilon (C : Ctx α β) (s : Span) :
    Parses C .epsilon s [] .unit s ∧ Looks C .epsilon s [] s := ⟨Parse_epsilon s, Look_epsilon s⟩

-- all four kinds, in the middle of a buffer
example : Parses (Ex.ctx "xaby") (Ex.all "ab") ⟨.at 0 1, 3⟩ [] (.span ⟨.at 0 1, 2⟩) ⟨.at 0 3, 1⟩ ∧
    Parses (Ex.ctx "xaby") (Ex.any "ab") ⟨.at 0 1, 3⟩ [] (.span ⟨.at 0 1, 1⟩) ⟨.at 0 2, 2⟩ ∧
    ParseFails (Ex.ctx "xaby") (Ex.none "ab") ⟨.at 0 1, 3⟩ [] ⟨.at 0 1, 3⟩ ∧
    ParseFails (Ex.ctx "xaby") .anything ⟨.at 0 4, 0⟩ [] ⟨.at 0 4, 0⟩ :=
  ⟨Ex.parses _ 2 rfl, Ex.parses _ 2 rfl, Ex.parses _ 2 rfl, Ex.parses _ 2 rfl⟩

/-! ## C08 any/none ignore order and repetition -/

section
variable [LinearOrder α]

/-- Two spellings give the same parser type exactly if they list the same elements. -/
theorem C08_same_set_same_parser (l l' : List α) :
    ((∀ x, x ∈ l ↔ x ∈ l') ↔ anyApi l = anyApi l') ∧
    ((∀ x, x ∈ l ↔ x ∈ l') ↔ noneApi l = noneApi l') := by
  have key : (∀ x, x ∈ l ↔ x ∈ l') ↔ sortAndUnique l = sortAndUnique l' := by
    constructor
    · intro h
      refine sorted_ext (sortAndUnique_sorted l) (sortAndUnique_sorted l') fun x => ?_
      rw [mem_sortAndUnique, mem_sortAndUnique, h]
    · intro h x
      rw [← mem_sortAndUnique l, h, mem_sortAndUnique]
  constructor
  · rw [key]; simp [anyApi]
  · rw [key]; simp [noneApi]

/-- The parser is a valid type and accepts exactly the elements written. -/
theorem C08_accepts_what_is_written (C : Ctx α β) (l : List α) (s : Span) (hs : s.Valid C.mem) :
    (anyApi l).wf = true ∧ (noneApi l).wf = true ∧
    (∀ log v s', Parses C (anyApi l) s log v s' ↔
      log = [] ∧ v = .span ⟨s.ptr, 1⟩ ∧ s.Advanced 1 s' ∧
        ∃ x rest, s.elems C.mem = x :: rest ∧ ∃ a ∈ l, C.eqv a x = true) ∧
    (∀ log v s', Parses C (noneApi l) s log v s' ↔
      log = [] ∧ v = .span ⟨s.ptr, 1⟩ ∧ s.Advanced 1 s' ∧
        ∃ x rest, s.elems C.mem = x :: rest ∧ ∀ a ∈ l, C.eqv a x = false) := by
  refine ⟨?_, ?_, fun log v s' => ?_, fun log v s' => ?_⟩
  · exact (isSortedAndUniqued_iff _).2 (sortAndUnique_sorted l)
  · exact (isSortedAndUniqued_iff _).2 (sortAndUnique_sorted l)
  · rw [(C07_basic_parse C (anyApi l) trivial s hs log v s').1]
    simp only [anyApi, Matches, mem_sortAndUnique]
    constructor
    · rintro ⟨rfl, k, ⟨rfl, h⟩, rfl, ha⟩; exact ⟨rfl, rfl, ha, h⟩
    · rintro ⟨rfl, rfl, ha, h⟩; exact ⟨rfl, 1, ⟨rfl, h⟩, rfl, ha⟩
  · rw [(C07_basic_parse C (noneApi l) trivial s hs log v s').1]
    simp only [noneApi, Matches, mem_sortAndUnique]
    constructor
    · rintro ⟨rfl, k, ⟨rfl, h⟩, rfl, ha⟩; exact ⟨rfl, rfl, ha, h⟩
    · rintro ⟨rfl, rfl, ha, h⟩; exact ⟨rfl, 1, ⟨rfl, h⟩, rfl, ha⟩

example : anyApi [3, 1, 2, 3, 1] = anyApi [2, 2, 1, 3] ∧ anyApi [3, 1, 2, 3, 1] = .anyOf [1, 2, 3] := by
  decide

end

/-! ## C09 Negation is complement -/

/-- `!` is accepted exactly for `any_of`/`none_of`, and is an involution. -/
theorem C09_involution (p q : Parser α) :
    (notOp p = some q → notOp q = some p) ∧
    ((notOp p).isSome = true ↔ ∃ arr, p = .anyOf arr ∨ p = .noneOf arr) := by
  constructor
  · cases p <;> simp only [notOp, reduceCtorEq, false_implies, Option.some.injEq] <;> rintro rfl <;> rfl
  · cases p <;> simp [notOp]

example : notOp (Ex.none "ab") = some (Ex.any "ab") := (C09_involution (Ex.any "ab") (Ex.none "ab")).1 rfl

/-- `!p` succeeds on a readable input exactly if the input is not empty and `p` fails; it
then consumes one element, which is its value.  For `lookahead` alike. -/
theorem C09_complement (C : Ctx α β) (p q : Parser α) (hq : notOp p = some q) (s : Span)
    (hs : s.Valid C.mem) (log : List Call) (v : Val) (s' : Span) :
    (Parses C q s log v s' ↔ ParseFails C p s log s ∧ s.len ≠ 0 ∧ v = .span ⟨s.ptr, 1⟩ ∧ s.Advanced 1 s') ∧
    (Looks C q s log s' ↔ LookFails C p s log s ∧ s.len ≠ 0 ∧ s.Advanced 1 s') := by
  have hl := hs.elems_length
  have key : IsBasic p ∧ IsBasic q ∧
      ((∃ k, Matches C.eqv q (s.elems C.mem) k) ↔ (∀ k, ¬ Matches C.eqv p (s.elems C.mem) k) ∧ s.len ≠ 0) ∧
      ∀ k, Matches C.eqv q (s.elems C.mem) k → k = 1 := by
    rw [← hl]
    cases p <;> simp only [notOp, reduceCtorEq, Option.some.injEq] at hq
    all_goals
      subst hq
      refine ⟨trivial, trivial, ?_, fun k hk => hk.1⟩
      cases s.elems C.mem <;> simp [Matches]
  obtain ⟨hbp, hbq, hm, hk⟩ := key
  rw [(C07_basic_parse C q hbq s hs log v s').1, (C07_basic_parse C p hbp s hs log v s).2,
    (C07_basic_lookahead C q hbq s hs log s').1, (C07_basic_lookahead C p hbp s hs log s).2]
  constructor
  · constructor
    · rintro ⟨rfl, k, h1, rfl, h2⟩
      have := hk k h1; subst this
      exact ⟨⟨rfl, rfl, (hm.1 ⟨_, h1⟩).1⟩, (hm.1 ⟨_, h1⟩).2, rfl, h2⟩
    · rintro ⟨⟨rfl, -, h1⟩, h2, rfl, h3⟩
      obtain ⟨k, h4⟩ := hm.2 ⟨h1, h2⟩
      have := hk k h4; subst this
      exact ⟨rfl, 1, h4, rfl, h3⟩
  · constructor
    · rintro ⟨rfl, k, h1, h2⟩
      have := hk k h1; subst this
      exact ⟨⟨rfl, rfl, (hm.1 ⟨_, h1⟩).1⟩, (hm.1 ⟨_, h1⟩).2, h2⟩
    · rintro ⟨⟨rfl, -, h1⟩, h2, h3⟩
      obtain ⟨k, h4⟩ := hm.2 ⟨h1, h2⟩
      have := hk k h4; subst this
      exact ⟨rfl, 1, h4, h3⟩

example : notOp (Ex.any "ab") = some (Ex.none "ab") ∧ notOp (Ex.all "ab") = none ∧
    Parses (Ex.ctx "xy") (Ex.none "ab") (Ex.input "xy") [] (.span ⟨.at 0 0, 1⟩) ⟨.at 0 1, 1⟩ :=
  ⟨rfl, rfl, Ex.parses _ 2 rfl⟩

end Tok3n
