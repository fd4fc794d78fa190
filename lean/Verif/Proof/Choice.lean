import Verif.Proof.Verdict
import Verif.Props.Literals
/-
The cases of `operator|` and `operator>>`, and their verdicts.
-/

namespace Tok3n

variable {α β : Type}

/-- A character class. -/
def IsClass : Parser α → Prop
  | .anyOf _ | .noneOf _ => True
  | _ => False

/-- No element of the input equals two different elements of a literal. -/
def Ctx.EqUnique (C : Ctx α β) : Prop := ∀ a a' x, C.eqv a x = true → C.eqv a' x = true → a = a'

/-- as a choice, its indices are right -/
def WellIndexed (C : Ctx α β) : Parser α → Prop
  | .choice ps => Indexable (resultsFor C ps)
  | _ => True

theorem resultFor_choice (C : Ctx α β) (ps : List (Parser α)) :
    resultFor C (.choice ps) = choiceType (resultsFor C ps) := by rw [resultFor, choiceTrait_ty]

theorem resultFor_sequence (C : Ctx α β) (ps : List (Parser α)) :
    resultFor C (.sequence ps) = sequenceType (resultsFor C ps) := by rw [resultFor, sequenceTrait_ty]

theorem parsesOK_mem {C : Ctx α β} {ps : List (Parser α)} {is : List (Option Nat)}
    (h : parsesOK C ps is = true) : ∀ x ∈ ps.zip is, x.2 ≠ none → parseOK C x.1 = true := by
  induction ps generalizing is with
  | nil => simp
  | cons p ps ih =>
    cases is with
    | nil => simp
    | cons i is =>
      cases i with
      | none =>
        simp only [parsesOK] at h
        intro x hx hn
        rcases List.mem_cons.1 hx with rfl | hx
        · simp at hn
        · exact ih h x hx hn
      | some i =>
        simp only [parsesOK, Bool.and_eq_true] at h
        intro x hx hn
        rcases List.mem_cons.1 hx with rfl | hx
        · exact h.1
        · exact ih h.2 x hx hn

/-- the non-void alternatives of a choice whose indices are right have a `parse` -/
theorem parseOK_alternative {C : Ctx α β} {ps : List (Parser α)} (h : parseOK C (.choice ps) = true)
    (hi : Indexable (resultsFor C ps)) {p : Parser α} (hp : p ∈ ps) (hv : resultFor C p ≠ .void) :
    parseOK C p = true := by
  simp only [parseOK, Bool.and_eq_true] at h
  have h2 := parsesOK_mem h.2
  rw [choiceTrait_seq, (filterOutVoidDeduplicate_snd _).2 hi] at h2
  have hz : (p, wanted (distinct (resultsFor C ps)) (resultFor C p)) ∈
      ps.zip ((resultsFor C ps).map (wanted (distinct (resultsFor C ps)))) := by
    generalize distinct (resultsFor C ps) = us
    rw [resultsFor_eq, List.map_map]
    clear h h2 hi
    induction ps with
    | nil => simp at hp
    | cons q ps ih =>
      rcases List.mem_cons.1 hp with rfl | hp
      · simp
      · exact List.mem_cons_of_mem _ (ih hp)
  exact h2 _ hz (by simp [wanted, hv])

theorem mapVal_id (m : Run R) : mapVal (fun v => v) m = m := by
  unfold mapVal
  conv_rhs => rw [← M.bind_pure m]
  apply M.bind_congr
  intro r
  obtain ⟨rv, rr⟩ := r
  cases rv <;> rfl

/-- two alternatives of the same non-void type: no variant -/
theorem Parse_choice_pair {C : Ctx α β} {p q : Parser α} (hp : parseOK C (.choice [p, q]) = true)
    (hv : resultFor C p ≠ .void) (hq : resultFor C q = resultFor C p) (s : Span) :
    Parse C (.choice [p, q]) s = firstOf s [Parse C p s, Parse C q s] := by
  obtain ⟨d, hd⟩ := defaultVal_choice hp
  have hr : resultsFor C [p, q] = [resultFor C p, resultFor C p] := by simp [resultsFor, hq]
  rw [Parse_choice_eq hp (by rw [hr]; exact indexable_pair _ _) hd]
  have hdis : distinct (resultsFor C [p, q]) = [resultFor C p] := by
    rw [hr]; simp [distinct, hv]
  rw [hdis]
  have h1 : choiceValue [resultFor C p] d (resultFor C p) = fun v => v := by
    funext v; simp [choiceValue, hv]
  simp only [List.map_cons, List.map_nil, hq, h1, mapVal_id, partRun, hv, if_false]

theorem orElses_pair (a b : Verdict) : orElses [a, b] = a.orElse b := by
  show a.orElse (b.orElse .reject) = _
  rw [Verdict.orElse_reject]

section
variable [LinearOrder α]

/-- the cases of `choiceOp` -/
inductive ChoiceOpCase (p q : Parser α) : Parser α → Prop where
  | cls : IsClass p → IsClass q → ChoiceOpCase p q (choiceOp p q)
  | same : p = q → ChoiceOpCase p q p
  | both {ps qs} : p = .choice ps → q = .choice qs → ChoiceOpCase p q (.choice (ps ++ qs))
  | left {ps} : p = .choice ps → ChoiceOpCase p q (.choice (ps ++ [q]))
  | right {qs} : q = .choice qs → ChoiceOpCase p q (.choice (p :: qs))
  | plain : ChoiceOpCase p q (.choice [p, q])

theorem choiceOp_case (p q : Parser α) : ChoiceOpCase p q (choiceOp p q) := by
  by_cases hc : IsClass p ∧ IsClass q
  · exact .cls hc.1 hc.2
  · unfold choiceOp
    split
    · exact (hc ⟨trivial, trivial⟩).elim
    · exact (hc ⟨trivial, trivial⟩).elim
    · exact (hc ⟨trivial, trivial⟩).elim
    · exact (hc ⟨trivial, trivial⟩).elim
    · split
      · next h => exact .same (by rw [h])
      · exact .both rfl rfl
    · exact .left rfl
    · exact .right rfl
    · split
      · next h => exact .same h
      · exact .plain

theorem choiceOp_self (p : Parser α) : choiceOp p p = p ∨ ∃ l, p = .anyOf l ∨ p = .noneOf l := by
  cases p <;> simp [choiceOp]

/-! ### Character classes -/

theorem class_basic {p : Parser α} (h : IsClass p) : ∃ b, p.basic? = some b ∧ b.length = 1 := by
  cases p with
  | anyOf l => exact ⟨_, rfl, rfl⟩
  | noneOf l => exact ⟨_, rfl, rfl⟩
  | _ => exact h.elim

theorem Parse_class {C : Ctx α β} {p : Parser α} {b : BasicP α} (hb : p.basic? = some b) {s : Span}
    (hs : s.Valid C.mem) : Parse C p s = M.pure
      (if b.accepts C.eqv (s.elems C.mem) then R.success (.span ⟨s.ptr, b.length⟩) (s.drop b.length)
       else R.failure s) := by rw [Parse_basic hb, parseBasic_eq hs]

theorem Look_class {C : Ctx α β} {p : Parser α} {b : BasicP α} (hb : p.basic? = some b) {s : Span}
    (hs : s.Valid C.mem) : Look C p s = M.pure
      (if b.accepts C.eqv (s.elems C.mem) then R.successVoid (s.drop b.length) else R.failure s) := by
  rw [Look_basic hb, lookBasic_eq hs]

/-- acceptance of the combined class -/
theorem choiceOp_class {C : Ctx α β} {p q : Parser α} (hp : IsClass p) (hq : IsClass q)
    (hpw : p.wf = true) (hqw : q.wf = true)
    (hu : C.EqUnique ∨ (∃ l r, p = .anyOf l ∧ q = .anyOf r) ∨ p = q ∨ notOp p = some q) {bp bq : BasicP α}
    (hbp : p.basic? = some bp) (hbq : q.basic? = some bq) :
    ∃ b, (choiceOp p q).basic? = some b ∧ b.length = 1 ∧ IsClass (choiceOp p q) ∧ (choiceOp p q).wf = true ∧
      ∀ xs, b.accepts C.eqv xs = (bp.accepts C.eqv xs || bq.accepts C.eqv xs) := by
  have key : ∀ (u : Parser α) (b bp bq : BasicP α), choiceOp p q = u → u.basic? = some b → IsClass u →
      u.wf = true → p.basic? = some bp → q.basic? = some bq →
      (∀ xs, b.accepts C.eqv xs = (bp.accepts C.eqv xs || bq.accepts C.eqv xs)) →
      ∀ bp' bq', p.basic? = some bp' → q.basic? = some bq' →
      ∃ b, (choiceOp p q).basic? = some b ∧ b.length = 1 ∧ IsClass (choiceOp p q) ∧ (choiceOp p q).wf = true ∧
      ∀ xs, b.accepts C.eqv xs = (bp'.accepts C.eqv xs || bq'.accepts C.eqv xs) := by
    intro u b bp bq h1 h2 h3 h4 h5 h6 h7 bp' bq' h8 h9
    rw [h5] at h8; rw [h6] at h9; cases h8; cases h9
    refine ⟨b, by rw [h1, h2], ?_, by rw [h1]; exact h3, by rw [h1]; exact h4, h7⟩
    obtain ⟨b', h, hl⟩ := class_basic h3
    rw [h] at h2; cases h2; exact hl
  have bool : ∀ {x y : Bool}, (x = true ↔ y = true) → x = y := fun h => by
    cases ‹Bool› <;> cases ‹Bool› <;> simp_all
  match p, q, hp, hq with
  | .anyOf l, .anyOf r, _, _ =>
    simp only [Parser.wf, isSortedAndUniqued_iff] at hpw hqw
    by_cases h : l = r
    · subst h
      refine key (.anyOf l) (.anyOf l) _ _ (by simp [choiceOp]) rfl trivial
        ((isSortedAndUniqued_iff _).2 hpw) rfl rfl ?_ _ _ hbp hbq
      intro xs; rw [Bool.or_self]
    · refine key (.anyOf (setUnion l r)) (.anyOf _) _ _ (by simp [choiceOp, h]) rfl trivial
        ((isSortedAndUniqued_iff _).2 (setOperation_sorted _ _ _ hpw hqw)) rfl rfl ?_ _ _ hbp hbq
      rintro (_ | ⟨x, xs⟩)
      · rfl
      apply bool
      simp only [BasicP.accepts, List.any_eq_true, Bool.or_eq_true, setUnion,
        mem_setOperation _ _ _ hpw hqw, SetOp.keeps]
      constructor
      · rintro ⟨a, h | h, he⟩
        · exact .inl ⟨a, h, he⟩
        · exact .inr ⟨a, h, he⟩
      · rintro (⟨a, h, he⟩ | ⟨a, h, he⟩)
        · exact ⟨a, .inl h, he⟩
        · exact ⟨a, .inr h, he⟩
  | .noneOf l, .noneOf r, _, _ =>
    simp only [Parser.wf, isSortedAndUniqued_iff] at hpw hqw
    by_cases h : l = r
    · subst h
      refine key (.noneOf l) (.noneOf l) _ _ (by simp [choiceOp]) rfl trivial
        ((isSortedAndUniqued_iff _).2 hpw) rfl rfl ?_ _ _ hbp hbq
      intro xs; rw [Bool.or_self]
    · refine key (.noneOf (setIntersection l r)) (.noneOf _) _ _ (by simp [choiceOp, h]) rfl trivial
        ((isSortedAndUniqued_iff _).2 (setOperation_sorted _ _ _ hpw hqw)) rfl rfl ?_ _ _ hbp hbq
      replace hu : C.EqUnique := by simpa [h, notOp] using hu
      rintro (_ | ⟨x, xs⟩)
      · rfl
      apply bool
      simp only [BasicP.accepts, List.any_eq_true, Bool.or_eq_true, Bool.not_eq_true', List.any_eq_false,
        setIntersection, mem_setOperation _ _ _ hpw hqw, SetOp.keeps]
      constructor
      · intro hn
        by_cases hl : ∀ a ∈ l, ¬ C.eqv a x = true
        · exact .inl hl
        · push Not at hl
          obtain ⟨a, ha, hax⟩ := hl
          right
          intro a' ha' hax'
          have := hu _ _ _ hax hax'
          subst this
          exact hn a ⟨ha, ha'⟩ hax
      · rintro (hn | hn) a ⟨h1, h2⟩
        · exact hn a h1
        · exact hn a h2
  | .anyOf l, .noneOf r, _, _ =>
    simp only [Parser.wf, isSortedAndUniqued_iff] at hpw hqw
    by_cases h : l = r
    · subst h
      refine key (.noneOf []) (.noneOf []) _ _ (by simp [choiceOp]) rfl trivial rfl rfl rfl ?_ _ _ hbp hbq
      rintro (_ | ⟨x, xs⟩)
      · rfl
      · simp [BasicP.accepts]
    · refine key (.noneOf (setDifferenceRight l r)) (.noneOf _) _ _ (by simp [choiceOp, h]) rfl trivial
        ((isSortedAndUniqued_iff _).2 (setOperation_sorted _ _ _ hpw hqw)) rfl rfl ?_ _ _ hbp hbq
      replace hu : C.EqUnique := by simpa [h, notOp] using hu
      rintro (_ | ⟨x, xs⟩)
      · rfl
      apply bool
      simp only [BasicP.accepts, List.any_eq_true, Bool.or_eq_true, Bool.not_eq_true', List.any_eq_false,
        setDifferenceRight, mem_setOperation _ _ _ hpw hqw, SetOp.keeps]
      constructor
      · intro hn
        by_cases hl : ∃ a ∈ l, C.eqv a x = true
        · exact .inl hl
        · right
          intro a ha hax
          exact hn a ⟨ha, fun h => hl ⟨a, h, hax⟩⟩ hax
      · rintro (⟨a, ha, hax⟩ | hn) a' ⟨h1, h2⟩ hax'
        · have := hu _ _ _ hax hax'
          subst this
          exact h2 ha
        · exact hn a' h1 hax'
  | .noneOf l, .anyOf r, _, _ =>
    simp only [Parser.wf, isSortedAndUniqued_iff] at hpw hqw
    by_cases h : l = r
    · subst h
      refine key (.noneOf []) (.noneOf []) _ _ (by simp [choiceOp]) rfl trivial rfl rfl rfl ?_ _ _ hbp hbq
      rintro (_ | ⟨x, xs⟩)
      · rfl
      · simp [BasicP.accepts]
    · refine key (.noneOf (setDifferenceLeft l r)) (.noneOf _) _ _ (by simp [choiceOp, h]) rfl trivial
        ((isSortedAndUniqued_iff _).2 (setOperation_sorted _ _ _ hpw hqw)) rfl rfl ?_ _ _ hbp hbq
      replace hu : C.EqUnique := by simpa [h, notOp] using hu
      rintro (_ | ⟨x, xs⟩)
      · rfl
      apply bool
      simp only [BasicP.accepts, List.any_eq_true, Bool.or_eq_true, Bool.not_eq_true', List.any_eq_false,
        setDifferenceLeft, mem_setOperation _ _ _ hpw hqw, SetOp.keeps]
      constructor
      · intro hn
        by_cases hl : ∃ a ∈ r, C.eqv a x = true
        · exact .inr hl
        · left
          intro a ha hax
          exact hn a ⟨ha, fun h => hl ⟨a, h, hax⟩⟩ hax
      · rintro (hn | ⟨a, ha, hax⟩) a' ⟨h1, h2⟩ hax'
        · exact hn a' h1 hax'
        · have := hu _ _ _ hax hax'
          subst this
          exact h2 ha

theorem resultFor_class {C : Ctx α β} {p : Parser α} (h : IsClass p) : resultFor C p = .span := by
  cases p with
  | anyOf l => rfl
  | noneOf l => rfl
  | _ => exact h.elim

theorem parseOK_classes {C : Ctx α β} {p q : Parser α} (hp : IsClass p) (hq : IsClass q) :
    parseOK C (.choice [p, q]) = true := by
  match p, q, hp, hq with
  | .anyOf l, .anyOf r, _, _ => rfl
  | .noneOf l, .noneOf r, _, _ => rfl
  | .anyOf l, .noneOf r, _, _ => rfl
  | .noneOf l, .anyOf r, _, _ => rfl

theorem class_union {C : Ctx α β} {p q : Parser α} (hp : IsClass p) (hq : IsClass q)
    (hpw : p.wf = true) (hqw : q.wf = true)
    (hu : C.EqUnique ∨ (∃ l r, p = .anyOf l ∧ q = .anyOf r) ∨ p = q ∨ notOp p = some q)
    {s : Span} (hs : s.Valid C.mem) :
    Parse C (choiceOp p q) s = firstOf s [Parse C p s, Parse C q s] ∧
    Look C (choiceOp p q) s = firstOf s [Look C p s, Look C q s] := by
  obtain ⟨bp, hbp, hlp⟩ := class_basic hp
  obtain ⟨bq, hbq, hlq⟩ := class_basic hq
  obtain ⟨b, hb, hl, hc, -, ha⟩ := choiceOp_class hp hq hpw hqw hu hbp hbq
  rw [Parse_class hb hs, Parse_class hbp hs, Parse_class hbq hs, Look_class hb hs, Look_class hbp hs,
    Look_class hbq hs, ha, hl, hlp, hlq]
  cases bp.accepts C.eqv (s.elems C.mem) <;> cases bq.accepts C.eqv (s.elems C.mem) <;> exact ⟨rfl, rfl⟩

theorem wfs_append (ps qs : List (Parser α)) : Parser.wfs (ps ++ qs) = (Parser.wfs ps && Parser.wfs qs) := by
  induction ps with
  | nil => simp [Parser.wfs]
  | cons p ps ih => simp [Parser.wfs, ih, Bool.and_assoc]

/-- `|` of valid parser types is a valid parser type -/
theorem choiceOp_wf {p q : Parser α} (hp : p.wf = true) (hq : q.wf = true) : (choiceOp p q).wf = true := by
  have h := choiceOp_case p q
  generalize hr : choiceOp p q = r at h
  cases h with
  | cls h1 h2 =>
    match p, q, h1, h2 with
    | .anyOf l, .anyOf r, _, _ =>
      simp only [Parser.wf, isSortedAndUniqued_iff] at hp hq
      simp only [choiceOp]
      split
      · exact (isSortedAndUniqued_iff _).2 hp
      · exact (isSortedAndUniqued_iff _).2 (setOperation_sorted _ _ _ hp hq)
    | .noneOf l, .noneOf r, _, _ =>
      simp only [Parser.wf, isSortedAndUniqued_iff] at hp hq
      simp only [choiceOp]
      split
      · exact (isSortedAndUniqued_iff _).2 hp
      · exact (isSortedAndUniqued_iff _).2 (setOperation_sorted _ _ _ hp hq)
    | .anyOf l, .noneOf r, _, _ =>
      simp only [Parser.wf, isSortedAndUniqued_iff] at hp hq
      simp only [choiceOp]
      split
      · rfl
      · exact (isSortedAndUniqued_iff _).2 (setOperation_sorted _ _ _ hp hq)
    | .noneOf l, .anyOf r, _, _ =>
      simp only [Parser.wf, isSortedAndUniqued_iff] at hp hq
      simp only [choiceOp]
      split
      · rfl
      · exact (isSortedAndUniqued_iff _).2 (setOperation_sorted _ _ _ hp hq)
  | same h => exact hp
  | both h1 h2 => subst h1 h2; simp_all [Parser.wf, wfs_append]
  | left h1 => subst h1; simp_all [Parser.wf, wfs_append, Parser.wfs]
  | right h1 => subst h1; simp_all [Parser.wf, Parser.wfs]
  | plain => simp_all [Parser.wf, Parser.wfs]

/-! ### Verdicts of `|` -/

theorem lookVerdict_choiceOp {C : Ctx α β} (hu : C.EqUnique) {p q : Parser α} (hpw : p.wf = true)
    (hqw : q.wf = true) {s : Span} (hs : s.Valid C.mem) :
    lookVerdict C (choiceOp p q) s = (lookVerdict C p s).orElse (lookVerdict C q s) := by
  have h := choiceOp_case p q
  generalize hr : choiceOp p q = r at h
  cases h with
  | cls h1 h2 =>
    rw [lookVerdict, (class_union h1 h2 hpw hqw (.inl hu) hs).2, verdict_firstOf]
    exact orElses_pair _ _
  | same h => subst h; rw [Verdict.orElse_self]
  | both h1 h2 => subst h1 h2; simp only [lookVerdict_choice, List.map_append, orElses_append]
  | left h1 =>
    subst h1
    simp only [lookVerdict_choice, List.map_append, orElses_append, List.map_cons, List.map_nil]
    congr 1
    exact Verdict.orElse_reject _
  | right h1 => subst h1; simp only [lookVerdict_choice, List.map_cons]; rfl
  | plain => simp only [lookVerdict_choice, List.map_cons, List.map_nil, orElses_pair]

theorem partVerdict_choiceOp {C : Ctx α β} (hu : C.EqUnique) {p q : Parser α} (hpw : p.wf = true)
    (hqw : q.wf = true) (hok : parseOK C (.choice [p, q]) = true)
    (hr : resultFor C (choiceOp p q) ≠ .void → parseOK C (choiceOp p q) = true)
    (hip : WellIndexed C p) (hiq : WellIndexed C q)
    (hir : WellIndexed C (choiceOp p q)) {s : Span} (hs : s.Valid C.mem) :
    partVerdict C (choiceOp p q) s = (partVerdict C p s).orElse (partVerdict C q s) := by
  have hi2 : Indexable (resultsFor C [p, q]) := indexable_pair _ _
  have hpp : resultFor C p ≠ .void → parseOK C p = true := parseOK_alternative hok hi2 (by simp)
  have hqp : resultFor C q ≠ .void → parseOK C q = true := parseOK_alternative hok hi2 (by simp)
  have h := choiceOp_case p q
  generalize hreq : choiceOp p q = r at h hr hir
  cases h with
  | cls h1 h2 =>
    obtain ⟨bp, hbp, hlp⟩ := class_basic h1
    obtain ⟨bq, hbq, hlq⟩ := class_basic h2
    obtain ⟨b, hb, hl, hc, -, -⟩ := choiceOp_class h1 h2 hpw hqw (.inl hu) hbp hbq
    rw [partVerdict_parse (by rw [resultFor_class hc]; nofun), partVerdict_parse (by rw [resultFor_class h1]; nofun),
      partVerdict_parse (by rw [resultFor_class h2]; nofun)]
    rw [parseVerdict, (class_union h1 h2 hpw hqw (.inl hu) hs).1, verdict_firstOf]
    exact orElses_pair _ _
  | same h => subst h; rw [Verdict.orElse_self]
  | both h1 h2 =>
    subst h1 h2
    rw [partVerdict_choice hr hir, partVerdict_choice hpp hip, partVerdict_choice hqp hiq, List.map_append, orElses_append]
  | left h1 =>
    subst h1
    rw [partVerdict_choice hr hir, partVerdict_choice hpp hip, List.map_append, orElses_append]
    congr 1
    exact Verdict.orElse_reject _
  | right h1 =>
    subst h1
    rw [partVerdict_choice hr hir, partVerdict_choice hqp hiq]
    rfl
  | plain => rw [partVerdict_choice hr hir]; exact orElses_pair _ _

/-- the verdict of parsing a choice is that of the choice as a part -/
theorem parseVerdict_eq_part {C : Ctx α β} {p : Parser α} (hp : parseOK C p = true) (hi : WellIndexed C p)
    (h : resultFor C p ≠ .void ∨ ∃ ps, p = .choice ps) (s : Span) :
    parseVerdict C p s = partVerdict C p s := by
  by_cases hv : resultFor C p = .void
  · obtain ⟨ps, rfl⟩ := h.resolve_left (fun h => h hv)
    rw [parseVerdict_choice hp hi, partVerdict_choice (fun _ => hp) hi]
  · rw [partVerdict_parse hv]

end

/-! ### Plain parsers -/

theorem plain_verdict {C : Ctx α β} {p : Parser α} (hp : Plain C p) {s : Span}
    (he : ∀ log e, ¬ ParseErr C p s log e) : parseVerdict C p s = lookVerdict C p s := by
  have h := Look_follows hp s
  unfold parseVerdict lookVerdict
  cases hm : Parse C p s with
  | diverge => rw [hm] at h; rw [show Look C p s = .diverge from h]
  | done l r =>
    rw [hm] at h
    cases r with
    | err e => exact (he _ _ hm).elim
    | ok r =>
      obtain ⟨⟨rv', rr'⟩, hl, hv, hr⟩ := h
      obtain ⟨rv, rr⟩ := r
      simp only at hv hr
      subst hr hv
      rw [hl]
      cases rv <;> rfl

theorem Plain.choice {C : Ctx α β} {ps : List (Parser α)} (h : ∀ p ∈ ps, Plain C p) : Plain C (.choice ps) := by
  intro q hq
  cases hq with
  | refl => exact ⟨nofun, nofun, nofun⟩
  | step hc hr => cases hc with | choice hm => exact h _ hm _ hr

theorem Plain.sequence {C : Ctx α β} {ps : List (Parser α)} (h : ∀ p ∈ ps, Plain C p) : Plain C (.sequence ps) := by
  intro q hq
  cases hq with
  | refl => exact ⟨nofun, nofun, nofun⟩
  | step hc hr => cases hc with | sequence hm => exact h _ hm _ hr

theorem Plain.cls {C : Ctx α β} {p : Parser α} (h : IsClass p) : Plain C p := by
  intro q hq
  cases p with
  | anyOf l => cases hq with | refl => exact ⟨nofun, nofun, nofun⟩ | step hc hr => cases hc
  | noneOf l => cases hq with | refl => exact ⟨nofun, nofun, nofun⟩ | step hc hr => cases hc
  | _ => exact h.elim

theorem Plain.choiceOp [LinearOrder α] {C : Ctx α β} {p q : Parser α} (hp : Plain C p) (hq : Plain C q) :
    Plain C (choiceOp p q) := by
  have h := choiceOp_case p q
  generalize hr : Tok3n.choiceOp p q = r at h
  cases h with
  | cls h1 h2 =>
    apply Plain.cls
    match p, q, h1, h2 with
    | .anyOf l, .anyOf r, _, _ => simp only [Tok3n.choiceOp]; split <;> trivial
    | .noneOf l, .noneOf r, _, _ => simp only [Tok3n.choiceOp]; split <;> trivial
    | .anyOf l, .noneOf r, _, _ => simp only [Tok3n.choiceOp]; split <;> trivial
    | .noneOf l, .anyOf r, _, _ => simp only [Tok3n.choiceOp]; split <;> trivial
  | same h => exact hp
  | both h1 h2 =>
    subst h1 h2
    refine .choice fun x hx => ?_
    rcases List.mem_append.1 hx with hx | hx
    · exact hp.child (.choice hx)
    · exact hq.child (.choice hx)
  | left h1 =>
    subst h1
    refine .choice fun x hx => ?_
    rcases List.mem_append.1 hx with hx | hx
    · exact hp.child (.choice hx)
    · simp only [List.mem_singleton] at hx; subst hx; exact hq
  | right h1 =>
    subst h1
    refine .choice fun x hx => ?_
    rcases List.mem_cons.1 hx with rfl | hx
    · exact hp
    · exact hq.child (.choice hx)
  | plain =>
    refine .choice fun x hx => ?_
    simp only [List.mem_cons, List.not_mem_nil, or_false] at hx
    rcases hx with rfl | rfl
    · exact hp
    · exact hq

end Tok3n
