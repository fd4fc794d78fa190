import Verif.Proof.Choice
import Verif.Proof.Default
import Verif.Props.Lookahead
/-
C10, C11, C12, C13, C14, C52: choices and `operator|`.
-/

namespace Tok3n

variable {α β : Type}

/-! ## C10 Character-class union -/

section
variable [LinearOrder α]

/-- For two character classes, `p | q` is one class with a sorted and duplicate free list,
and parses and looks ahead exactly as the ordered choice of the two: same success, value,
remaining input, and (no) callbacks. -/
theorem C10_class_union (C : Ctx α β) (hu : C.EqUnique) (p q : Parser α) (hp : IsClass p) (hq : IsClass q)
    (hpw : p.wf = true) (hqw : q.wf = true) :
    IsClass (choiceOp p q) ∧ (choiceOp p q).wf = true ∧
    ∀ s : Span, s.Valid C.mem →
      Parse C (choiceOp p q) s = Parse C (.choice [p, q]) s ∧
      Look C (choiceOp p q) s = Look C (.choice [p, q]) s := by
  obtain ⟨bp, hbp, -⟩ := class_basic hp
  obtain ⟨bq, hbq, -⟩ := class_basic hq
  obtain ⟨b, -, -, h1, h2, -⟩ := choiceOp_class (C := C) hp hq hpw hqw (.inl hu) hbp hbq
  refine ⟨h1, h2, fun s hs => ?_⟩
  obtain ⟨h3, h4⟩ := class_union hp hq hpw hqw (.inl hu) hs
  rw [h3, h4, Look_choice_eq, Parse_choice_pair (parseOK_classes hp hq) (by rw [resultFor_class hp]; nofun)
    (by rw [resultFor_class hp, resultFor_class hq])]
  exact ⟨rfl, rfl⟩

/-- Two `any_of`, or a class with itself or with its negation: whatever the element
comparison. -/
theorem C10_class_union_any_equality (C : Ctx α β) (p q : Parser α) (hp : IsClass p) (hq : IsClass q)
    (hpw : p.wf = true) (hqw : q.wf = true)
    (h : (∃ l r, p = .anyOf l ∧ q = .anyOf r) ∨ p = q ∨ notOp p = some q) (s : Span) (hs : s.Valid C.mem) :
      Parse C (choiceOp p q) s = Parse C (.choice [p, q]) s ∧
      Look C (choiceOp p q) s = Look C (.choice [p, q]) s := by
  obtain ⟨h3, h4⟩ := class_union hp hq hpw hqw (.inr h) hs
  rw [h3, h4, Look_choice_eq, Parse_choice_pair (parseOK_classes hp hq) (by rw [resultFor_class hp]; nofun)
    (by rw [resultFor_class hp, resultFor_class hq])]
  exact ⟨rfl, rfl⟩

/-- The set operations the operator is made of, on sorted and duplicate free lists: each gives the
sorted and duplicate free list of exactly the elements its name says.  The loop is run twice, first
to count the elements (that is the size of the resulting array) and then to write them; both runs
agree, for all lists, so the second run writes every element of the array and none behind it. -/
theorem C10_operations (l r : List α) :
    (∀ o, setOperationCount o l r = (setOperation o l r).length) ∧
    (l.Pairwise (· < ·) → r.Pairwise (· < ·) →
      (∀ o, (setOperation o l r).Pairwise (· < ·)) ∧
      ∀ x, (x ∈ setUnion l r ↔ x ∈ l ∨ x ∈ r) ∧ (x ∈ setIntersection l r ↔ x ∈ l ∧ x ∈ r) ∧
        (x ∈ setDifferenceLeft l r ↔ x ∈ l ∧ x ∉ r) ∧ (x ∈ setDifferenceRight l r ↔ x ∈ r ∧ x ∉ l)) := by
  refine ⟨fun o => setOperationCount_eq o l r, fun hl hr => ⟨fun o => setOperation_sorted o l r hl hr, fun x =>
    ⟨?_, ?_, ?_, ?_⟩⟩⟩
  · exact mem_setOperation .union l r hl hr x
  · exact mem_setOperation .intersection l r hl hr x
  · exact mem_setOperation .differenceLeft l r hl hr x
  · have h := mem_setOperation .differenceRight l r hl hr x
    simp only [SetOp.keeps] at h
    exact h.trans (by tauto)

end

example : ([1, 2, 4] : List Nat).Pairwise (· < ·) ∧ ([2, 3] : List Nat).Pairwise (· < ·) ∧
    setUnion [1, 2, 4] [2, 3] = [1, 2, 3, 4] ∧ setOperationCount .union [1, 2, 4] [2, 3] = 4 ∧
    setDifferenceRight [1, 2, 4] [2, 3] = [3] := by decide +kernel

theorem Ex.ctx_unique (text : String) : (Ex.ctx text).EqUnique := by
  intro a a' x h h'
  simp only [Ex.ctx, beq_iff_eq] at h h'
  rw [h, h']

example : IsClass (Ex.none "ab") ∧ (Ex.none "ab").wf = true ∧ IsClass (Ex.any "bc") ∧
    Parses (Ex.ctx "b") (.choice [Ex.none "ab", Ex.any "bc"]) (Ex.input "b") [] (.span ⟨.at 0 0, 1⟩) ⟨.at 0 1, 0⟩ :=
  ⟨trivial, rfl, trivial, Ex.parses _ 3 rfl⟩

/-- `==` comparing only the parity: the input element 3 equals the literal elements 1 and
5 alike. -/
def Ex.parity (text : String) : Ctx Nat Nat := { Ex.ctx text with eqv := fun a b => a % 2 == b % 2 }

/-- Without `EqUnique` it is false: with a comparison that equates the input element with
two different elements of the lists, `none('1') | none('3')` (the characters 49 and 51)
becomes `none()`, which accepts "5" although neither operand does. -/
theorem C10_needs_unique_equality :
    choiceOp (Ex.none "1") (Ex.none "3") = .noneOf [] ∧
    Parses (Ex.parity "5") (.noneOf []) (Ex.input "5") [] (.span ⟨.at 0 0, 1⟩) ⟨.at 0 1, 0⟩ ∧
    ParseFails (Ex.parity "5") (.choice [Ex.none "1", Ex.none "3"]) (Ex.input "5") [] (Ex.input "5") := by
  refine ⟨?_, Ex.parses _ 2 rfl, Ex.parses _ 3 rfl⟩
  simp only [choiceOp, setIntersection]
  rw [if_neg (by decide)]
  simp only [Ex.str]
  show Parser.noneOf (setOperation .intersection [49] [51]) = _
  rw [setOperation, if_pos (by decide)]
  rw [setOperation, setOperation]
  rfl

/-! ## C11 Ordered choice -/

/-- `lookahead` of a choice, for every list of alternatives: the first success; failure if
all fail. -/
theorem C11_lookahead (C : Ctx α β) (ps : List (Parser α)) (s s' : Span) (log : List Call) :
    (Looks C (.choice ps) s log s' ↔ log = [] ∧ ∃ before p after, ps = before ++ p :: after ∧
      (∀ q ∈ before, LookFails C q s [] s) ∧ Looks C p s [] s') ∧
    (LookFails C (.choice ps) s log s' ↔ log = [] ∧ s' = s ∧ ∀ q ∈ ps, LookFails C q s [] s) := by
  have hfail : ∀ (qs : List (Parser α)) l, AllFail (qs.map fun p => Look C p s) l ↔
      l = [] ∧ ∀ q ∈ qs, LookFails C q s [] s := by
    intro qs
    induction qs with
    | nil =>
      intro l
      constructor
      · intro h; cases h; simp
      · rintro ⟨rfl, -⟩; exact .nil
    | cons q qs ih =>
      intro l
      constructor
      · intro h
        cases h with
        | cons h1 h2 =>
          obtain ⟨rfl, h3⟩ := (ih _).1 h2
          obtain ⟨rfl, h4⟩ := Look_unit h1
          obtain ⟨-, rfl⟩ := h4.resolve_right (by simp)
          refine ⟨rfl, fun x hx => ?_⟩
          rcases List.mem_cons.1 hx with rfl | hx
          · exact h1
          · exact h3 x hx
      · rintro ⟨rfl, h⟩
        exact .cons (l := []) (log := []) (h q (by simp)) ((ih _).2 ⟨rfl, fun x hx => h x (by simp [hx])⟩)
  constructor
  · unfold Looks
    rw [Look_choice_eq, firstOf_some]
    constructor
    · rintro ⟨before, m, after, l, l', he, hf, hm, rfl⟩
      obtain ⟨qs, rest, rfl, rfl, hr⟩ := List.map_eq_append_iff.1 he
      obtain ⟨p, after', rfl, rfl, rfl⟩ := List.map_eq_cons_iff.1 hr
      obtain ⟨rfl, hf'⟩ := (hfail _ _).1 hf
      obtain ⟨rfl, -⟩ := Look_unit hm
      exact ⟨rfl, qs, p, after', rfl, hf', hm⟩
    · rintro ⟨rfl, before, p, after, rfl, hf, hm⟩
      exact ⟨_, _, _, [], [], by rw [List.map_append, List.map_cons], (hfail _ _).2 ⟨rfl, hf⟩, hm, rfl⟩
  · unfold LookFails
    rw [Look_choice_eq, firstOf_none, hfail]
    constructor
    · rintro ⟨rfl, rfl, h⟩; exact ⟨rfl, rfl, h⟩
    · rintro ⟨rfl, rfl, h⟩; exact ⟨rfl, rfl, h⟩

-- the third alternative, although the first starts like it
example : ∃ before p after, [Ex.all "ax", Ex.all "b", Ex.all "ab"] = before ++ p :: after ∧
    (∀ q ∈ before, LookFails (Ex.ctx "abc") q (Ex.input "abc") [] (Ex.input "abc")) ∧
    Looks (Ex.ctx "abc") p (Ex.input "abc") [] ⟨.at 0 2, 1⟩ :=
  ((C11_lookahead (Ex.ctx "abc") _ (Ex.input "abc") _ _).1.1 (Ex.looks _ 4 rfl : Looks _ _ _ [] ⟨.at 0 2, 1⟩)).2

/-- A choice that compiles and whose type indices are right (see C12) succeeds exactly
with the first alternative that succeeds; the ones before it have been run and have failed,
the ones after it have not been run (the callbacks run are those before and of it).  It
fails exactly if all alternatives fail, leaving the input.

`partRun` is `parse`, for alternatives without value `lookahead`: what is missing from C11
is that for those `parse` is what counts (C44, and the next theorem), and the choices whose
indices are wrong. -/
theorem C11_ordered_choice_partial [LinearOrder α] (C : Ctx α β) (ps : List (Parser α))
    (hc : Compiles C (.choice ps)) (hi : Indexable (ps.map (resultFor C))) (s s' : Span) (log : List Call) :
    (∀ w, Parses C (.choice ps) s log w s' ↔ ∃ before p after blog plog v,
      ps = before ++ p :: after ∧ AllFail (before.map fun q => partRun C q s) blog ∧
      partRun C p s = .done plog (.ok ⟨some v, s'⟩) ∧ log = blog ++ plog ∧
      ∃ d, IsDefault C (resultFor C (.choice ps)) d ∧
        w = choiceValue (distinct (ps.map (resultFor C))) d (resultFor C p) v) ∧
    (ParseFails C (.choice ps) s log s' ↔ s' = s ∧ AllFail (ps.map fun q => partRun C q s) log) := by
  rw [← resultsFor_eq] at *
  obtain ⟨d, hd⟩ := defaultVal_choice hc.parse
  simp only [isDefault_iff]
  rw [resultFor_choice, hd]
  constructor
  · intro w
    unfold Parses
    rw [Parse_choice_eq hc.parse hi hd, firstOf_some]
    constructor
    · rintro ⟨before, m, after, l, l', he, hf, hm, rfl⟩
      obtain ⟨qs, rest, rfl, rfl, hr⟩ := List.map_eq_append_iff.1 he
      obtain ⟨p, after', rfl, rfl, rfl⟩ := List.map_eq_cons_iff.1 hr
      obtain ⟨v, hv, rfl⟩ := mapVal_some.1 hm
      exact ⟨qs, p, after', _, _, v, rfl, allFail_mapVal.1 hf, hv, rfl, d, rfl, rfl⟩
    · rintro ⟨before, p, after, blog, plog, v, rfl, hf, hv, rfl, d', hd', rfl⟩
      cases hd'
      refine ⟨_, _, _, blog, plog, by rw [List.map_append, List.map_cons], ?_, ?_, rfl⟩
      · exact allFail_mapVal.2 hf
      · exact mapVal_some.2 ⟨v, hv, rfl⟩
  · unfold ParseFails
    rw [Parse_choice_eq hc.parse hi hd, firstOf_none, allFail_mapVal]

/-- If no alternative contains `filter` or `join` and no callback throws: the choice accepts
exactly what its first accepting alternative accepts, leaving the same; it rejects exactly
if all reject.  (For every list of alternatives, also those with wrong indices.) -/
theorem C11_first_success [LinearOrder α] (C : Ctx α β) (ps : List (Parser α))
    (hpl : ∀ p ∈ ps, Plain C p) (s s' : Span)
    (hthrow : ∀ log e, ¬ ParseErr C (.choice ps) s log e) (hthrows : ∀ p ∈ ps, ∀ log e, ¬ ParseErr C p s log e) :
    ((∃ log v, Parses C (.choice ps) s log v s') ↔ ∃ before p after, ps = before ++ p :: after ∧
      (∀ q ∈ before, ∃ log, ParseFails C q s log s) ∧ ∃ log v, Parses C p s log v s') ∧
    ((∃ log, ParseFails C (.choice ps) s log s') ↔ s' = s ∧ ∀ q ∈ ps, ∃ log, ParseFails C q s log s) := by
  obtain ⟨-, -, -, h⟩ := C05_lookahead_partial C (.choice ps) (.choice hpl) s
  have hcs := h hthrow s'
  have hp : ∀ p ∈ ps, ∀ t, _ := fun p hp => (C05_lookahead_partial C p (hpl p hp) s).2.2.2 (hthrows p hp)
  have hlog : ∀ q t, (∃ log, LookFails C q s log t) ↔ LookFails C q s [] t := by
    intro q t
    constructor
    · rintro ⟨l, h⟩; obtain ⟨rfl, -⟩ := Look_unit h; exact h
    · intro h; exact ⟨_, h⟩
  have hlog' : ∀ q t, (∃ log, Looks C q s log t) ↔ Looks C q s [] t := by
    intro q t
    constructor
    · rintro ⟨l, h⟩; obtain ⟨rfl, -⟩ := Look_unit h; exact h
    · intro h; exact ⟨_, h⟩
  rw [hcs.1, hcs.2]
  constructor
  · constructor
    · rintro ⟨log, hl⟩
      obtain ⟨-, before, p, after, rfl, h1, h2⟩ := (C11_lookahead C ps s s' log).1.1 hl
      refine ⟨before, p, after, rfl, fun q hq => ?_, ?_⟩
      · exact ((hp q (by simp [hq]) s).2).2 ⟨_, h1 q hq⟩
      · exact ((hp p (by simp) s').1).2 ⟨_, h2⟩
    · rintro ⟨before, p, after, rfl, h1, h2⟩
      refine ⟨[], (C11_lookahead C _ s s' []).1.2 ⟨rfl, before, p, after, rfl, fun q hq => ?_, ?_⟩⟩
      · exact (hlog _ _).1 (((hp q (by simp [hq]) s).2).1 (h1 q hq))
      · exact (hlog' _ _).1 (((hp p (by simp) s').1).1 h2)
  · constructor
    · rintro ⟨log, hl⟩
      obtain ⟨-, rfl, h1⟩ := (C11_lookahead C ps s s' log).2.1 hl
      exact ⟨rfl, fun q hq => ((hp q hq s').2).2 ⟨_, h1 q hq⟩⟩
    · rintro ⟨rfl, h1⟩
      exact ⟨[], (C11_lookahead C _ s' s' []).2.2 ⟨rfl, rfl, fun q hq =>
        (hlog _ _).1 (((hp q hq s').2).1 (h1 q hq))⟩⟩

-- three alternatives, the first fails after running a callback, the second is taken, the
-- third is not run
example : Compiles (Ex.ctx "b") (.choice [.filter (Ex.any "ab") (.user 2), .map (Ex.all "b") (.user 0),
      .map (Ex.all "b") (.user 3)]) ∧
    Indexable ([.filter (Ex.any "ab") (.user 2), .map (Ex.all "b") (.user 0), .map (Ex.all "b") (.user 3)].map
      (resultFor (Ex.ctx "b"))) ∧
    Parses (Ex.ctx "b") (.choice [.filter (Ex.any "ab") (.user 2), .map (Ex.all "b") (.user 0),
      .map (Ex.all "b") (.user 3)]) (Ex.input "b")
      [⟨.user 2, [.span ⟨.at 0 0, 1⟩]⟩, ⟨.user 0, [.span ⟨.at 0 0, 1⟩]⟩]
      (.var 1 (.user 0 0 [.span ⟨.at 0 0, 1⟩])) ⟨.at 0 1, 0⟩ := by
  refine ⟨⟨Ex.ctx_ok _, rfl, rfl, rfl⟩, ?_, Ex.parses _ 4 rfl⟩
  exact (filterOutVoidDeduplicate_snd _).1 rfl

/-- In general it is false: the alternative without value `filter<false>(ignore("a"))`
rejects "a", but the choice takes it. -/
theorem C11_refuted_void_filter :
    let p := Parser.filter (.ignore (Ex.all "a")) (.user 2)
    (∃ log, ParseFails (Ex.ctx "a") p (Ex.input "a") log (Ex.input "a")) ∧
    (∃ log v, Parses (Ex.ctx "a") (.choice [p, Ex.all "b"]) (Ex.input "a") log v ⟨.at 0 1, 0⟩) ∧
    ParseFails (Ex.ctx "a") (Ex.all "b") (Ex.input "a") [] (Ex.input "a") :=
  ⟨⟨_, Ex.parses _ 4 rfl⟩, ⟨_, _, Ex.parses _ 5 rfl⟩, Ex.parses _ 2 rfl⟩

/-- … and of `ignore("x") | "a" | filter<false>("b")`, because of the wrong index of the
third alternative. -/
theorem C11_refuted_index :
    let p := Parser.filter (Ex.all "b") (.user 2)
    (∃ log, ParseFails (Ex.ctx "b") p (Ex.input "b") log (Ex.input "b")) ∧
    (∃ log v, Parses (Ex.ctx "b") (choiceOp (choiceOp (.ignore (Ex.all "x")) (Ex.all "a")) p) (Ex.input "b") log v
      ⟨.at 0 1, 0⟩) :=
  ⟨⟨_, Ex.parses _ 3 rfl⟩, ⟨_, _, Ex.parses _ 5 rfl⟩⟩

/-! ## C12 The value of a choice -/

/-- The type of a choice: nothing if all alternatives are void, the type itself if there is
only one, otherwise a variant of the distinct non-void ones in order of first
appearance. -/
theorem C12_type (C : Ctx α β) (ps : List (Parser α)) :
    resultFor C (.choice ps) = choiceType (ps.map (resultFor C)) := by
  rw [resultFor_choice, resultsFor_eq]

example : resultFor (Ex.ctx "") (.choice [Ex.all "a", .ignore (Ex.all "b"), .map (Ex.all "c") (.user 0), Ex.all "d"]) =
    choiceType [.span, .void, .user 0, .span] := C12_type _ _

/-- `distinct` lists exactly the non-void types, each once, in the order of their first
appearance. -/
theorem C12_distinct (ts : List Ty) :
    (∀ t, t ∈ distinct ts ↔ t ∈ ts ∧ t ≠ .void) ∧ (distinct ts).Nodup ∧ (distinct ts).Sublist ts ∧
    ∀ us t, t ≠ .void → t ∉ us → distinct (us ++ [t]) = distinct us ++ [t] := by
  refine ⟨mem_distinct ts, distinct_nodup ts, ?_, ?_⟩
  · induction ts using List.reverseRecOn with
    | nil => exact .refl _
    | append_singleton ts t ih =>
      rw [distinct_snoc]
      split
      · exact ih.trans (List.sublist_append_left _ _)
      · exact ih.append (.refl _)
  · intro us t hv ht
    rw [distinct_snoc, if_neg]
    rintro (h | h)
    · exact hv h
    · exact ht ((mem_distinct _ _).1 h).1

example : distinct [.span, .void, .user 0, .span] = [.span, .user 0] ∧
    distinct ([.span, .void, .user 0, .span] ++ [.user 1]) = [.span, .user 0, .user 1] :=
  ⟨rfl, (C12_distinct [.span, .void, .user 0, .span]).2.2.2 [.span, .void, .user 0, .span] (.user 1) nofun (by decide)⟩

/-- The value of a choice whose types are `Indexable`: if the alternatives before `p` fail
and `p`, of type `t`, succeeds with `v`, the value is `v` itself if there is only one
distinct type, and otherwise the variant engaged at `t`'s place in the variant's list of
types, holding `v`. -/
theorem C12_index_partial [LinearOrder α] (C : Ctx α β) (before : List (Parser α)) (p : Parser α)
    (after : List (Parser α)) (hc : Compiles C (.choice (before ++ p :: after)))
    (hi : Indexable ((before ++ p :: after).map (resultFor C))) (hv : resultFor C p ≠ .void)
    (s s' : Span) (blog plog : List Call) (v : Val)
    (hb : AllFail (before.map fun q => partRun C q s) blog) (hp : Parses C p s plog v s') :
    (resultFor C (.choice (before ++ p :: after)) = resultFor C p ∧
      Parses C (.choice (before ++ p :: after)) s (blog ++ plog) v s') ∨
    ∃ us i, resultFor C (.choice (before ++ p :: after)) = .var us ∧ us[i]? = some (resultFor C p) ∧
      (∀ j, us[j]? = some (resultFor C p) → j = i) ∧
      Parses C (.choice (before ++ p :: after)) s (blog ++ plog) (.var i v) s' := by
  obtain ⟨d, hd⟩ := defaultVal_choice hc.parse
  rw [← resultFor_choice] at hd
  have h := ((C11_ordered_choice_partial C _ hc hi s s' (blog ++ plog)).1
    (choiceValue (distinct ((before ++ p :: after).map (resultFor C))) d (resultFor C p) v)).2
    ⟨before, p, after, blog, plog, v, rfl, hb, by rw [partRun, if_neg hv]; exact hp, rfl, d, (isDefault_iff ..).2 hd, rfl⟩
  have hm : resultFor C p ∈ distinct ((before ++ p :: after).map (resultFor C)) := by
    rw [mem_distinct]; exact ⟨List.mem_map_of_mem (by simp), hv⟩
  have hn := distinct_nodup ((before ++ p :: after).map (resultFor C))
  have ht := C12_type C (before ++ p :: after)
  unfold choiceType at ht
  generalize distinct ((before ++ p :: after).map (resultFor C)) = us at h hm hn ht
  match us, hm, hn, ht, h with
  | [t], hm, _, ht, h =>
    simp only [List.mem_singleton] at hm
    left
    refine ⟨by rw [ht, hm], ?_⟩
    simpa [choiceValue, hv] using h
  | a :: b :: us, hm, hn, ht, h =>
    right
    have hx : (a :: b :: us)[(a :: b :: us).idxOf (resultFor C p)]? = some (resultFor C p) := by
      rw [List.getElem?_eq_getElem (List.idxOf_lt_length_iff.2 hm), List.getElem_idxOf]
    refine ⟨a :: b :: us, (a :: b :: us).idxOf (resultFor C p), by rw [ht], hx, ?_, ?_⟩
    · intro j hj
      have hj' := (List.getElem?_eq_some_iff.1 hj)
      obtain ⟨hjl, hje⟩ := hj'
      have hx' := (List.getElem?_eq_some_iff.1 hx)
      obtain ⟨hxl, hxe⟩ := hx'
      exact (List.Nodup.getElem_inj_iff hn).1 (hje.trans hxe.symm)
    · simpa [choiceValue, hv] using h

-- [span, user 0, span]: a repeated type
example : Compiles (Ex.ctx "c") (.choice [Ex.all "a", .map (Ex.all "b") (.user 0), Ex.all "c"]) ∧
    Parses (Ex.ctx "c") (.choice [Ex.all "a", .map (Ex.all "b") (.user 0), Ex.all "c"]) (Ex.input "c") []
      (.var 0 (.span ⟨.at 0 0, 1⟩)) ⟨.at 0 1, 0⟩ :=
  ⟨⟨Ex.ctx_ok _, rfl, rfl, rfl⟩, Ex.parses _ 4 rfl⟩

/-- `Indexable` is exactly the condition under which the index the library records for
every alternative is its type's place (-1, here `none`, if void). -/
theorem C12_indices_right_iff (ts : List Ty) :
    (choiceTrait ts).seq = ts.map (fun t => if t = .void then none else some ((distinct ts).idxOf t)) ↔
      Indexable ts := by
  rw [choiceTrait_seq]; exact filterOutVoidDeduplicate_snd ts

/-- It holds in particular if no type is repeated, or all are the same. -/
theorem C12_indexable_of (ts : List Ty) (h : ts.Nodup ∨ ∃ t, ∀ u ∈ ts, u = t) : Indexable ts := by
  intro before t after he hv ht
  rcases h with h | ⟨u, h⟩
  · rw [he, List.nodup_append] at h
    exact (h.2.2 t ht t (by simp) rfl).elim
  · have hb : ∀ x ∈ before, x = t := fun x hx => by
      rw [h x (by simp [he, hx]), h t (by simp [he])]
    cases before with
    | nil => simp at ht
    | cons x xs =>
      have := hb x (by simp)
      subst this
      simp

example : Indexable [.span, .void, .user 0] := C12_indexable_of _ (.inl (by decide))

/-- Outside that class it is false: in `ignore("x") | "a" | "b"` (a choice compiling to the
result type span) the alternative "b" is taken but its value is the empty default span. -/
theorem C12_refuted_void_first :
    let p := choiceOp (choiceOp (.ignore (Ex.all "x")) (Ex.all "a")) (Ex.all "b")
    Compiles (Ex.ctx "b") p ∧ resultFor (Ex.ctx "b") p = .span ∧
    Parses (Ex.ctx "b") (Ex.all "b") (Ex.input "b") [] (.span ⟨.at 0 0, 1⟩) ⟨.at 0 1, 0⟩ ∧
    Parses (Ex.ctx "b") p (Ex.input "b") [] (.span Span.default) ⟨.at 0 1, 0⟩ :=
  ⟨⟨Ex.ctx_ok _, rfl, rfl, rfl⟩, rfl, Ex.parses _ 3 rfl, Ex.parses _ 4 rfl⟩

/-- … and `"a" | "b" | map("c", f) | map("d", g)` with `f` and `g` of the same type does
not compile; if that type converts to a span, the value is engaged at the wrong index. -/
theorem C12_refuted_repeat :
    let ps := [Ex.all "a", Ex.all "b", .map (Ex.all "c") (.user 0), .map (Ex.all "d") (.user 0)]
    parseOK (Ex.ctx "d") (.choice ps) = false ∧
    (∀ p ∈ ps, parseOK (Ex.ctx "d") p = true) ∧
    let C := { Ex.ctx "d" with conv := fun _ _ => some fun _ => .span Span.default }
    parseOK C (.choice ps) = true ∧ resultFor C (.choice ps) = .var [.span, .user 0] ∧
    ∃ log, Parses C (.choice ps) (Ex.input "d") log (.var 0 (.span Span.default)) ⟨.at 0 1, 0⟩ := by
  refine ⟨rfl, ?_, rfl, rfl, _, Ex.parses _ 5 rfl⟩
  intro p hp
  simp only [List.mem_cons, List.not_mem_nil, or_false] at hp
  rcases hp with rfl | rfl | rfl | rfl <;> rfl

/-! ## C52 Taking an alternative without value -/

/-- The value is the default constructed value of the result type. -/
theorem C52_void_alternative [LinearOrder α] (C : Ctx α β) (before : List (Parser α)) (p : Parser α)
    (after : List (Parser α)) (hc : Compiles C (.choice (before ++ p :: after)))
    (hv : resultFor C p = .void) (s s' : Span)
    (hb : ∀ q ∈ before, (∃ log, ParseFails C q s log s) ∧ LookFails C q s [] s) (hp : Looks C p s [] s') :
    ∃ log d, IsDefault C (resultFor C (.choice (before ++ p :: after))) d ∧
      Parses C (.choice (before ++ p :: after)) s log d s' := by
  obtain ⟨d, hd⟩ := defaultVal_choice hc.parse
  have hd' := hd
  rw [← resultFor_choice] at hd'
  have hok := hc.parse
  simp only [parseOK, Bool.and_eq_true] at hok
  rw [← choiceTrait_ty] at hd
  have hl := filterOutVoidDeduplicate_length (resultsFor C (before ++ p :: after))
  rw [← choiceTrait_seq] at hl
  have hnone := choiceTrait_void (resultsFor C (before ++ p :: after)) before.length
    (by rw [resultsFor_eq]; simp [hv])
  have heq := Parse_choice_general hd hok.1.2 s
  generalize choiceTrait (resultsFor C (before ++ p :: after)) = tr at *
  rw [resultsFor_eq, List.length_map, List.length_append, List.length_cons] at hl
  have hsplit : tr.seq = tr.seq.take before.length ++ none :: tr.seq.drop (before.length + 1) := by
    obtain ⟨hlt, he⟩ := List.getElem?_eq_some_iff.1 hnone
    rw [← he, List.getElem_cons_drop, List.take_append_drop]
  rw [hsplit, List.zipWith_append (by simp; omega), List.zipWith_cons_cons] at heq
  have hf : ∀ (qs : List (Parser α)) is, (∀ q ∈ qs, (∃ log, ParseFails C q s log s) ∧ LookFails C q s [] s) →
      ∃ l, AllFail (List.zipWith (altRun C tr d s) qs is) l := by
    intro qs
    induction qs with
    | nil => exact fun _ _ => ⟨[], .nil⟩
    | cons q qs ih =>
      intro is hb
      cases is with
      | nil => exact ⟨[], .nil⟩
      | cons i is =>
        obtain ⟨l, hl⟩ := ih is fun x hx => hb x (by simp [hx])
        obtain ⟨⟨lq, h1⟩, h2⟩ := hb q (by simp)
        cases i with
        | none => exact ⟨_, .cons (mapVal_none.2 h2) hl⟩
        | some i => exact ⟨_, .cons (mapVal_none.2 h1) hl⟩
  obtain ⟨l, hf⟩ := hf before (tr.seq.take before.length) hb
  refine ⟨l, d, (isDefault_iff ..).2 hd', ?_⟩
  unfold Parses
  rw [heq]
  exact firstOf_some.2 ⟨_, _, _, l, [], rfl, hf, mapVal_some.2 ⟨.unit, hp, rfl⟩, by simp⟩

-- the second of [span, void, user 0] is taken: an empty span, at index 0
example : let p := Parser.choice [Ex.all "a", .ignore (Ex.all "b"), .map (Ex.all "c") (.user 0)]
    Compiles (Ex.ctx "b") p ∧ resultFor (Ex.ctx "b") (.ignore (Ex.all "b")) = .void ∧
    Looks (Ex.ctx "b") (.ignore (Ex.all "b")) (Ex.input "b") [] ⟨.at 0 1, 0⟩ ∧
    Parses (Ex.ctx "b") p (Ex.input "b") [] (.var 0 (.span Span.default)) ⟨.at 0 1, 0⟩ :=
  ⟨⟨Ex.ctx_ok _, rfl, rfl, rfl⟩, rfl, Ex.looks _ 3 rfl, Ex.parses _ 4 rfl⟩

/-! ## C13 `operator|` -/

section
variable [LinearOrder α]

/-- `lookahead`: `p | q`, with all rewrites, says the same as the plain two-way choice and
as trying `p`, then `q`.  For all parsers. -/
theorem C13_lookahead (C : Ctx α β) (hu : C.EqUnique) (p q : Parser α) (hpw : p.wf = true) (hqw : q.wf = true)
    (s : Span) (hs : s.Valid C.mem) :
    lookVerdict C (choiceOp p q) s = lookVerdict C (.choice [p, q]) s ∧
    lookVerdict C (choiceOp p q) s = (lookVerdict C p s).orElse (lookVerdict C q s) := by
  rw [lookVerdict_choiceOp hu hpw hqw hs, lookVerdict_choice]
  exact ⟨(orElses_pair _ _).symm, rfl⟩

-- classes are merged
example : lookVerdict (Ex.ctx "b") (choiceOp (Ex.none "ab") (Ex.any "bc")) (Ex.input "b") =
    (lookVerdict (Ex.ctx "b") (Ex.none "ab") (Ex.input "b")).orElse (lookVerdict (Ex.ctx "b") (Ex.any "bc") (Ex.input "b")) :=
  (C13_lookahead _ (Ex.ctx_unique _) (Ex.none "ab") (Ex.any "bc") rfl rfl _ (Ex.input_valid _)).2

/-- `parse`: `p | q` accepts, rejects, throws and loops exactly where the plain two-way
choice does, leaving the same input, if the variants' indices of the choices involved are
right (see C12) and it is not the rewriting of `p | p` to `p` for a `p` without value.
Missing: those cases; it is false of them (below). -/
theorem C13_flatten_partial (C : Ctx α β) (hu : C.EqUnique) (p q : Parser α)
    (hc : Compiles C (.choice [p, q])) (hr : Compiles C (choiceOp p q))
    (hip : WellIndexed C p) (hiq : WellIndexed C q) (hir : WellIndexed C (choiceOp p q))
    (hv : p = q → resultFor C p ≠ .void) (s : Span) (hs : s.Valid C.mem) :
    parseVerdict C (choiceOp p q) s = parseVerdict C (.choice [p, q]) s := by
  have hpw : p.wf = true := by have := hc.wf; simp [Parser.wf, Parser.wfs] at this; exact this.1
  have hqw : q.wf = true := by have := hc.wf; simp [Parser.wf, Parser.wfs] at this; exact this.2
  have h2 : Indexable (resultsFor C [p, q]) := indexable_pair _ _
  rw [parseVerdict_choice hc.parse h2]
  show _ = orElses [_, _]
  rw [orElses_pair, ← partVerdict_choiceOp hu hpw hqw hc.parse (fun _ => hr.parse) hip hiq hir hs]
  refine parseVerdict_eq_part hr.parse hir ?_ s
  have h := choiceOp_case p q
  generalize heq : choiceOp p q = r at h
  cases h with
  | cls h1 h2 =>
    obtain ⟨bp, hbp, -⟩ := class_basic h1
    obtain ⟨bq, hbq, -⟩ := class_basic h2
    obtain ⟨b, -, -, h3, -, -⟩ := choiceOp_class (C := C) h1 h2 hpw hqw (.inl hu) hbp hbq
    left; rw [resultFor_class h3]; nofun
  | same h => exact .inl (hv h)
  | both h1 h2 => exact .inr ⟨_, rfl⟩
  | left h1 => exact .inr ⟨_, rfl⟩
  | right h1 => exact .inr ⟨_, rfl⟩
  | plain => exact .inr ⟨_, rfl⟩

/-- Without `filter` and `join` no such conditions are needed, if no callback throws. -/
theorem C13_flatten_plain (C : Ctx α β) (hu : C.EqUnique) (p q : Parser α) (hpw : p.wf = true)
    (hqw : q.wf = true) (hp : Plain C p) (hq : Plain C q) (s : Span) (hs : s.Valid C.mem)
    (he : ∀ log e, ¬ ParseErr C (choiceOp p q) s log e) (he' : ∀ log e, ¬ ParseErr C (.choice [p, q]) s log e) :
    parseVerdict C (choiceOp p q) s = parseVerdict C (.choice [p, q]) s := by
  rw [plain_verdict (hp.choiceOp hq) he, plain_verdict _ he']
  · exact (C13_lookahead C hu p q hpw hqw s hs).1
  · refine .choice fun x hx => ?_
    simp only [List.mem_cons, List.not_mem_nil, or_false] at hx
    rcases hx with rfl | rfl
    · exact hp
    · exact hq

/-- Regrouping a chain of `|`: `lookahead`. -/
theorem C13_regroup_lookahead (C : Ctx α β) (hu : C.EqUnique) (p q r : Parser α) (hpw : p.wf = true)
    (hqw : q.wf = true) (hrw : r.wf = true) (s : Span) (hs : s.Valid C.mem) :
    lookVerdict C (choiceOp (choiceOp p q) r) s = lookVerdict C (choiceOp p (choiceOp q r)) s := by
  rw [lookVerdict_choiceOp hu (choiceOp_wf hpw hqw) hrw hs, lookVerdict_choiceOp hu hpw hqw hs,
    lookVerdict_choiceOp hu hpw (choiceOp_wf hqw hrw) hs,
    lookVerdict_choiceOp hu hqw hrw hs, Verdict.orElse_assoc]

example : lookVerdict (Ex.ctx "b") (choiceOp (choiceOp (Ex.none "ab") (Ex.any "bc")) (Ex.all "x")) (Ex.input "b") =
    lookVerdict (Ex.ctx "b") (choiceOp (Ex.none "ab") (choiceOp (Ex.any "bc") (Ex.all "x"))) (Ex.input "b") :=
  C13_regroup_lookahead _ (Ex.ctx_unique _) _ _ _ rfl rfl rfl _ (Ex.input_valid _)

/-- Regrouping a chain of `|`: `parse`. -/
theorem C13_regroup_plain (C : Ctx α β) (hu : C.EqUnique) (p q r : Parser α) (hpw : p.wf = true)
    (hqw : q.wf = true) (hrw : r.wf = true) (hp : Plain C p) (hq : Plain C q) (hr : Plain C r) (s : Span) (hs : s.Valid C.mem)
    (he : ∀ log e, ¬ ParseErr C (choiceOp (choiceOp p q) r) s log e)
    (he' : ∀ log e, ¬ ParseErr C (choiceOp p (choiceOp q r)) s log e) :
    parseVerdict C (choiceOp (choiceOp p q) r) s = parseVerdict C (choiceOp p (choiceOp q r)) s := by
  rw [plain_verdict ((hp.choiceOp hq).choiceOp hr) he, plain_verdict (hp.choiceOp (hq.choiceOp hr)) he']
  exact C13_regroup_lookahead C hu p q r hpw hqw hrw s hs

/-- Regrouping a chain of `|`: `parse` of non-void operands with right indices. -/
theorem C13_regroup_partial (C : Ctx α β) (hu : C.EqUnique) (p q r : Parser α)
    (hpq : Compiles C (.choice [p, q])) (hpq' : Compiles C (choiceOp p q))
    (hqr : Compiles C (.choice [q, r])) (hqr' : Compiles C (choiceOp q r))
    (hl : Compiles C (.choice [choiceOp p q, r])) (hl' : Compiles C (choiceOp (choiceOp p q) r))
    (hr : Compiles C (.choice [p, choiceOp q r])) (hr' : Compiles C (choiceOp p (choiceOp q r)))
    (hi : ∀ x ∈ [p, q, r, choiceOp p q, choiceOp q r, choiceOp (choiceOp p q) r, choiceOp p (choiceOp q r)],
      WellIndexed C x)
    (hv : resultFor C (choiceOp (choiceOp p q) r) ≠ .void) (hv' : resultFor C (choiceOp p (choiceOp q r)) ≠ .void)
    (s : Span) (hs : s.Valid C.mem) :
    parseVerdict C (choiceOp (choiceOp p q) r) s = parseVerdict C (choiceOp p (choiceOp q r)) s := by
  have wf : ∀ {a b : Parser α}, Compiles C (.choice [a, b]) → a.wf = true ∧ b.wf = true := by
    intro a b h; have := h.wf; simpa [Parser.wf, Parser.wfs] using this
  rw [← partVerdict_parse hv, ← partVerdict_parse hv',
    partVerdict_choiceOp hu (wf hl).1 (wf hl).2 hl.parse (fun _ => hl'.parse) (hi _ (by simp)) (hi _ (by simp))
      (hi _ (by simp)) hs,
    partVerdict_choiceOp hu (wf hpq).1 (wf hpq).2 hpq.parse (fun _ => hpq'.parse) (hi _ (by simp)) (hi _ (by simp))
      (hi _ (by simp)) hs,
    partVerdict_choiceOp hu (wf hr).1 (wf hr).2 hr.parse (fun _ => hr'.parse) (hi _ (by simp)) (hi _ (by simp))
      (hi _ (by simp)) hs,
    partVerdict_choiceOp hu (wf hqr).1 (wf hqr).2 hqr.parse (fun _ => hqr'.parse) (hi _ (by simp)) (hi _ (by simp))
      (hi _ (by simp)) hs,
    Verdict.orElse_assoc]

end

-- ("a" | f("b")) | ("c" | filter<true>("d")) is flattened and meets the hypotheses
example :
    let p := choiceOp (Ex.all "a") (.map (Ex.all "b") (.user 0))
    let q := choiceOp (Ex.all "c") (.filter (Ex.all "d") (.user 1))
    choiceOp p q = .choice [Ex.all "a", .map (Ex.all "b") (.user 0), Ex.all "c", .filter (Ex.all "d") (.user 1)] ∧
    Compiles (Ex.ctx "d") (.choice [p, q]) ∧ Compiles (Ex.ctx "d") (choiceOp p q) ∧
    WellIndexed (Ex.ctx "d") p ∧ WellIndexed (Ex.ctx "d") q ∧ WellIndexed (Ex.ctx "d") (choiceOp p q) ∧
    parseVerdict (Ex.ctx "d") (choiceOp p q) (Ex.input "d") = .accept ⟨.at 0 1, 0⟩ := by
  refine ⟨rfl, ⟨Ex.ctx_ok _, rfl, rfl, rfl⟩, ⟨Ex.ctx_ok _, rfl, rfl, rfl⟩, ?_, ?_, ?_, ?_⟩
  · exact (filterOutVoidDeduplicate_snd _).1 rfl
  · exact (filterOutVoidDeduplicate_snd _).1 rfl
  · exact (filterOutVoidDeduplicate_snd _).1 rfl
  · rw [parseVerdict, Ex.parses (l := [⟨.user 1, [.span ⟨.at 0 0, 1⟩]⟩])
      (r := .ok ⟨some (.var 0 (.span ⟨.at 0 0, 1⟩)), ⟨.at 0 1, 0⟩⟩) _ 5 rfl]; rfl

/-- False in general, 1: `p | p` for `p = filter<false>(ignore("a"))` is rewritten to `p`,
which rejects "a"; the plain two-way choice accepts it. -/
theorem C13_refuted_same :
    let p := Parser.filter (.ignore (Ex.all "a")) (.user 2)
    Compiles (Ex.ctx "a") (.choice [p, p]) ∧ choiceOp p p = p ∧
    (∃ log, ParseFails (Ex.ctx "a") (choiceOp p p) (Ex.input "a") log (Ex.input "a")) ∧
    (∃ log v, Parses (Ex.ctx "a") (.choice [p, p]) (Ex.input "a") log v ⟨.at 0 1, 0⟩) :=
  ⟨⟨Ex.ctx_ok _, rfl, rfl, rfl⟩, rfl, ⟨_, Ex.parses _ 5 rfl⟩, ⟨_, _, Ex.parses _ 5 rfl⟩⟩

/-- False in general, 2: flattening `(ignore("x") | "a") | filter<false>("b")` gives the
last alternative a wrong index, so that it is only looked ahead and "b" is accepted; the
plain two-way choice rejects it. -/
theorem C13_refuted_flatten :
    let p := choiceOp (.ignore (Ex.all "x")) (Ex.all "a")
    let q := Parser.filter (Ex.all "b") (.user 2)
    Compiles (Ex.ctx "b") (.choice [p, q]) ∧ Compiles (Ex.ctx "b") (choiceOp p q) ∧
    (∃ log v, Parses (Ex.ctx "b") (choiceOp p q) (Ex.input "b") log v ⟨.at 0 1, 0⟩) ∧
    (∃ log, ParseFails (Ex.ctx "b") (.choice [p, q]) (Ex.input "b") log (Ex.input "b")) :=
  ⟨⟨Ex.ctx_ok _, rfl, rfl, rfl⟩, ⟨Ex.ctx_ok _, rfl, rfl, rfl⟩, ⟨_, _, Ex.parses _ 5 rfl⟩, ⟨_, Ex.parses _ 5 rfl⟩⟩

/-! ## C14 `p | p` -/

section
variable [LinearOrder α]

/-- `p | p` is `p`. -/
theorem C14_same (p : Parser α) : choiceOp p p = p := by
  cases p <;> simp [choiceOp]

/-- For a `p` with a value the plain choice of `p` and `p` does the same as `p`: same
success, value, remaining input, exception.  (Only a failing `p` is run twice.) -/
theorem C14_idempotent_partial (C : Ctx α β) (p : Parser α) (hc : Compiles C (.choice [p, p]))
    (hv : resultFor C p ≠ .void) (s : Span) :
    (∀ log v s', Parses C (.choice [p, p]) s log v s' ↔ Parses C p s log v s') ∧
    (∀ log s', ParseFails C p s log s' → ParseFails C (.choice [p, p]) s (log ++ log) s') ∧
    (∀ log s', ParseFails C (.choice [p, p]) s log s' → ∃ log', ParseFails C p s log' s') ∧
    (∀ log e, ParseErr C (.choice [p, p]) s log e ↔ ParseErr C p s log e) ∧
    (ParseLoops C (.choice [p, p]) s ↔ ParseLoops C p s) := by
  simp only [Parses, ParseFails, ParseErr, ParseLoops, Parse_choice_pair hc.parse hv rfl]
  cases hm : Parse C p s with
  | diverge => simp [firstOf, M.bind]
  | done l r =>
    cases r with
    | err e => simp [firstOf, M.bind]
    | ok r =>
      have hg := (Parse_good p s).ok hm
      obtain ⟨rv, rr⟩ := r
      cases rv with
      | some v => simp [firstOf, M.bind, M.pure, M.after]
      | none =>
        have : rr = s := hg.2 rfl
        subst this
        simp [firstOf, M.bind, M.pure, M.after]

-- the callback that rejects is called twice, and the choice still fails
example : let p := Parser.filter (Ex.any "ab") (.user 2)
    ParseFails (Ex.ctx "b") (.choice [p, p]) (Ex.input "b")
      ([⟨.user 2, [.span ⟨.at 0 0, 1⟩]⟩] ++ [⟨.user 2, [.span ⟨.at 0 0, 1⟩]⟩]) (Ex.input "b") :=
  (C14_idempotent_partial _ _ ⟨Ex.ctx_ok _, rfl, rfl, rfl⟩ (by decide) _).2.1 _ _ (Ex.parses _ 3 rfl)

/-- For a `p` without value and without `filter` and `join`, likewise if no callback
throws. -/
theorem C14_idempotent_plain (C : Ctx α β) (p : Parser α) (hc : Compiles C (.choice [p, p]))
    (hp : Plain C p) (s : Span) (he : ∀ log e, ¬ ParseErr C p s log e) :
    parseVerdict C (.choice [p, p]) s = parseVerdict C p s := by
  have h2 : Indexable (resultsFor C [p, p]) := indexable_pair _ _
  rw [parseVerdict_choice hc.parse h2]
  show orElses [_, _] = _
  rw [orElses_pair, Verdict.orElse_self]
  show partVerdict C p s = _
  by_cases hv : resultFor C p = .void
  · rw [partVerdict_look hv, plain_verdict hp he]
  · rw [partVerdict_parse hv]

end

example : let p := Parser.filter (Ex.any "ab") (.user 1)
    Compiles (Ex.ctx "b") (.choice [p, p]) ∧ resultFor (Ex.ctx "b") p = .span ∧ choiceOp p p = p :=
  ⟨⟨Ex.ctx_ok _, rfl, rfl, rfl⟩, rfl, rfl⟩

/-- For a void filter it is false: see `C13_refuted_same`. -/
theorem C14_refuted_void_filter :
    let p := Parser.filter (.ignore (Ex.all "a")) (.user 2)
    Compiles (Ex.ctx "a") (.choice [p, p]) ∧
    (∃ log, ParseFails (Ex.ctx "a") p (Ex.input "a") log (Ex.input "a")) ∧
    (∃ log v, Parses (Ex.ctx "a") (.choice [p, p]) (Ex.input "a") log v ⟨.at 0 1, 0⟩) :=
  ⟨⟨Ex.ctx_ok _, rfl, rfl, rfl⟩, ⟨_, Ex.parses _ 5 rfl⟩, ⟨_, _, Ex.parses _ 5 rfl⟩⟩

end Tok3n
