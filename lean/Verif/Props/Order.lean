import Verif.Proof.Order
import Verif.Props.Laws
import Verif.Props.Choice
import Verif.Props.Json
/-
C69: when the alternatives of a choice can be put in another order, and when one can be left out.
-/

namespace Tok3n

variable {α β : Type}

/-! ### Verdicts -/

def Verdict.accepts : Verdict → Bool
  | .accept _ => true
  | _ => false

/-- The first of some verdicts, if each is an acceptance or a rejection and at most one an acceptance. -/
theorem orElses_perm {vs ws : List Verdict} (h : vs.Perm ws) :
    (∀ v ∈ vs, v.accepts = true ∨ v = .reject) → vs.Pairwise (fun v w => ¬ (v.accepts = true ∧ w.accepts = true)) →
    orElses vs = orElses ws := by
  induction h with
  | nil => exact fun _ _ => rfl
  | cons v _ ih =>
    intro hv hp
    rw [orElses_cons, orElses_cons, ih (fun w hw => hv w (List.mem_cons_of_mem _ hw)) (List.pairwise_cons.1 hp).2]
  | swap v w l =>
    intro hv hp
    simp only [orElses_cons]
    have h1 := hv v (by simp)
    have h2 := hv w (by simp)
    have h3 := (List.pairwise_cons.1 hp).1 v (by simp)
    cases v <;> cases w <;> simp_all [Verdict.accepts, Verdict.orElse]
  | trans h1 _ ih1 ih2 =>
    intro hv hp
    rw [ih1 hv hp]
    exact ih2 (fun v hm => hv v (h1.mem_iff.2 hm)) (h1.pairwise hp fun h h' => h ⟨h'.2, h'.1⟩)

section
variable (C : Ctx α β)

theorem lookVerdict_accept {p : Parser α} {s s' : Span} (h : lookVerdict C p s = .accept s') : ∃ log, Looks C p s log s' := by
  unfold lookVerdict verdict at h
  split at h
  · cases h
  · cases h
  · next l r hr =>
    split at h
    · next hv =>
      cases h
      obtain ⟨v, s''⟩ := r
      cases v with
      | none => exact nomatch hv
      | some v =>
        obtain ⟨-, h⟩ := Look_unit hr
        simp only [reduceCtorEq, false_and, Option.some.injEq, false_or] at h
        exact ⟨l, h ▸ hr⟩
    · cases h

theorem lookVerdict_reject {p : Parser α} {s : Span} (h : lookVerdict C p s = .reject) : ∃ log s', LookFails C p s log s' := by
  unfold lookVerdict verdict at h
  split at h
  · cases h
  · cases h
  · next l r hr =>
    split at h
    · cases h
    · next hv =>
      obtain ⟨v, s'⟩ := r
      cases v with
      | none => exact ⟨l, s', hr⟩
      | some v => exact (hv rfl).elim

theorem lookVerdict_cases {p : Parser α} {s : Span} (hs : s.Valid C.mem) (hr : ¬ LookLoops C p s) :
    (lookVerdict C p s).accepts = true ∨ lookVerdict C p s = .reject := by
  cases h : lookVerdict C p s with
  | accept s' => exact .inl rfl
  | reject => exact .inr rfl
  | loop =>
    unfold lookVerdict verdict at h
    split at h
    · next hd => exact (hr hd).elim
    · cases h
    · split at h <;> cases h
  | error e =>
    unfold lookVerdict verdict at h
    split at h
    · cases h
    · next hd => exact ((C45_lookahead C p s hs).2.2.2 _ _ hd).elim
    · split at h <;> cases h

theorem lookVerdict_accepts {p : Parser α} {s : Span} :
    (lookVerdict C p s).accepts = true ↔ ∃ log s', Looks C p s log s' := by
  constructor
  · intro h
    cases hv : lookVerdict C p s with
    | accept s' => exact (lookVerdict_accept C hv).imp fun log h => ⟨s', h⟩
    | _ => rw [hv] at h; exact nomatch h
  · rintro ⟨log, s', h⟩
    rw [lookVerdict, show Look C p s = _ from h]; rfl

/-- **C69.** If no input is accepted by two of the alternatives, a choice looks ahead the same in every order. -/
theorem C69_reorder (ps qs : List (Parser α)) (hp : ps.Perm qs) (ha : ps.Pairwise (Apart C))
    (hr : ∀ p ∈ ps, LookReturns C p) : SameLookahead C (.choice ps) (.choice qs) := by
  refine sameLookahead_of_verdict C fun s hs => ?_
  rw [lookVerdict_choice, lookVerdict_choice]
  refine orElses_perm (hp.map _) (fun v hv => ?_) ?_
  · obtain ⟨p, hm, rfl⟩ := List.mem_map.1 hv
    exact lookVerdict_cases C hs (hr p hm s hs)
  · refine List.pairwise_map.2 (ha.imp fun h h' => h s hs ?_)
    exact ⟨(lookVerdict_accepts C).1 h'.1, (lookVerdict_accepts C).1 h'.2⟩

/-- **C69.** An alternative after one that accepts wherever it does makes no difference. -/
theorem C69_dead (xs ys zs : List (Parser α)) (p q : Parser α) (hc : Covers C p q) (hr : LookReturns C q) :
    SameLookahead C (.choice (xs ++ p :: (ys ++ q :: zs))) (.choice (xs ++ p :: (ys ++ zs))) := by
  refine sameLookahead_of_verdict C fun s hs => ?_
  simp only [lookVerdict_choice, List.map_append, List.map_cons, orElses_append, orElses_cons]
  congr 1
  cases hv : lookVerdict C p s with
  | reject =>
    rcases lookVerdict_cases C hs (hr s hs) with h | h
    · have := (lookVerdict_accepts C).2 (hc s hs ((lookVerdict_accepts C).1 h))
      rw [hv] at this
      exact nomatch this
    · rw [h]; rfl
  | _ => rfl

end

/-! ### What the alternatives parse -/

section
variable [LinearOrder α] (C : Ctx α β)

omit [LinearOrder α] in
theorem allFail_iff {ps : List (Parser α)} {s : Span} :
    (∃ log, AllFail (ps.map fun q => partRun C q s) log) ↔ ∀ p ∈ ps, AltRejects C s p := by
  induction ps with
  | nil => exact ⟨fun _ => nofun, fun _ => ⟨[], .nil⟩⟩
  | cons p ps ih =>
    rw [List.forall_mem_cons, ← ih]
    constructor
    · rintro ⟨log, h⟩
      cases h with
      | cons h h' => exact ⟨⟨_, _, h⟩, _, h'⟩
    · rintro ⟨⟨l, s', h⟩, log, h'⟩
      exact ⟨_, .cons h h'⟩

theorem choice_default {ps : List (Parser α)} (hc : Compiles C (.choice ps)) :
    ∃ d, IsDefault C (resultFor C (.choice ps)) d := by
  obtain ⟨d, hd⟩ := defaultVal_choice hc.parse
  exact ⟨d, (isDefault_iff C _ _).2 (resultFor_choice C ps ▸ hd)⟩

/-- **C69.** Parsing: if every alternative accepts or rejects `s`, and at most one accepts it, then in every order the
choice fails, or succeeds with the same value of the same alternative and leaves the same.  (If the alternatives have
different types the variant's alternatives are in another order too: `choiceValue`.) -/
theorem C69_reorder_parse (ps qs : List (Parser α)) (hp : ps.Perm qs)
    (hc : Compiles C (.choice ps)) (hi : Indexable (ps.map (resultFor C)))
    (hc' : Compiles C (.choice qs)) (hi' : Indexable (qs.map (resultFor C))) (s : Span)
    (hr : ∀ p ∈ ps, AltAccepts C s p ∨ AltRejects C s p)
    (ha : ps.Pairwise fun p q => ¬ (AltAccepts C s p ∧ AltAccepts C s q)) :
    (∀ s', (∃ log, ParseFails C (.choice ps) s log s') ↔ ∃ log, ParseFails C (.choice qs) s log s') ∧
    ∀ log w s', Parses C (.choice ps) s log w s' → ∃ p ∈ ps, ∃ plog v, partRun C p s = .done plog (.ok ⟨some v, s'⟩) ∧
      (∃ d, IsDefault C (resultFor C (.choice ps)) d ∧
        w = choiceValue (distinct (ps.map (resultFor C))) d (resultFor C p) v) ∧
      ∃ log' d, IsDefault C (resultFor C (.choice qs)) d ∧
        Parses C (.choice qs) s log' (choiceValue (distinct (qs.map (resultFor C))) d (resultFor C p) v) s' := by
  have fails : ∀ (ps : List (Parser α)), Compiles C (.choice ps) → Indexable (ps.map (resultFor C)) → ∀ s',
      (∃ log, ParseFails C (.choice ps) s log s') ↔ s' = s ∧ ∀ p ∈ ps, AltRejects C s p := by
    intro ps hc hi s'
    rw [← allFail_iff C, ← exists_and_left]
    exact exists_congr fun log => (C11_ordered_choice_partial C ps hc hi s s' log).2
  constructor
  · intro s'
    rw [fails ps hc hi, fails qs hc' hi']
    exact and_congr_right fun _ => forall_congr' fun p => imp_congr_left hp.mem_iff
  · intro log w s' h
    obtain ⟨before, p, after, blog, plog, v, rfl, -, hv, -, d, hd, rfl⟩ :=
      ((C11_ordered_choice_partial C ps hc hi s s' log).1 w).1 h
    refine ⟨p, by simp, plog, v, hv, ⟨d, hd, rfl⟩, ?_⟩
    obtain ⟨b, a, e⟩ := List.append_of_mem (hp.mem_iff.1 (show p ∈ before ++ p :: after by simp))
    have ha' := hp.pairwise ha fun h h' => h ⟨h'.2, h'.1⟩
    rw [e] at ha'
    have hb : ∀ q ∈ b, AltRejects C s q := fun q hq =>
      (hr q (hp.mem_iff.2 (by simp [e, hq]))).resolve_left fun h =>
        (List.pairwise_append.1 ha').2.2 q hq p (by simp) ⟨h, _, _, _, hv⟩
    obtain ⟨blog', hb⟩ := (allFail_iff C).2 hb
    obtain ⟨d', hd'⟩ := choice_default C hc'
    exact ⟨blog' ++ plog, d', hd', ((C11_ordered_choice_partial C qs hc' hi' s s' _).1 _).2
      ⟨b, p, a, blog', plog, v, e, hb, hv, rfl, d', hd', rfl⟩⟩

omit [LinearOrder α] in
theorem choice_type_of_distinct {ps qs : List (Parser α)}
    (hd : distinct (ps.map (resultFor C)) = distinct (qs.map (resultFor C))) :
    resultFor C (.choice ps) = resultFor C (.choice qs) := by
  rw [resultFor_choice, resultFor_choice, resultsFor_eq, resultsFor_eq, choiceType, choiceType, hd]

/-- **C69.** If the types come in the same order (for instance, if there is only one) the value is the same. -/
theorem C69_same_value (ps qs : List (Parser α)) (hp : ps.Perm qs)
    (hc : Compiles C (.choice ps)) (hi : Indexable (ps.map (resultFor C)))
    (hc' : Compiles C (.choice qs)) (hi' : Indexable (qs.map (resultFor C)))
    (hd : distinct (ps.map (resultFor C)) = distinct (qs.map (resultFor C))) (s : Span)
    (hr : ∀ p ∈ ps, AltAccepts C s p ∨ AltRejects C s p)
    (ha : ps.Pairwise fun p q => ¬ (AltAccepts C s p ∧ AltAccepts C s q)) (w : Val) (s' : Span) :
    (∃ log, Parses C (.choice ps) s log w s') ↔ ∃ log, Parses C (.choice qs) s log w s' := by
  have key : ∀ (ps qs : List (Parser α)), ps.Perm qs → Compiles C (.choice ps) → Indexable (ps.map (resultFor C)) →
      Compiles C (.choice qs) → Indexable (qs.map (resultFor C)) →
      distinct (ps.map (resultFor C)) = distinct (qs.map (resultFor C)) →
      (∀ p ∈ ps, AltAccepts C s p ∨ AltRejects C s p) →
      (ps.Pairwise fun p q => ¬ (AltAccepts C s p ∧ AltAccepts C s q)) →
      (∃ log, Parses C (.choice ps) s log w s') → ∃ log, Parses C (.choice qs) s log w s' := by
    rintro ps qs hp hc hi hc' hi' hd hr ha ⟨log, h⟩
    obtain ⟨p, -, plog, v, -, ⟨d, hd1, rfl⟩, log', d', hd2, h⟩ :=
      (C69_reorder_parse C ps qs hp hc hi hc' hi' s hr ha).2 log w s' h
    rw [choice_type_of_distinct C hd, isDefault_iff] at hd1
    rw [isDefault_iff, hd1, Option.some.injEq] at hd2
    exact ⟨log', by rw [hd, hd2]; exact h⟩
  exact ⟨key ps qs hp hc hi hc' hi' hd hr ha, key qs ps hp.symm hc' hi' hc hi hd.symm
    (fun p hm => hr p (hp.mem_iff.2 hm)) (hp.pairwise ha fun h h' => h ⟨h'.2, h'.1⟩)⟩

/-- `p` is the first of the alternatives that does not reject -/
def FirstAlt (s : Span) (ps : List (Parser α)) (p : Parser α) : Prop :=
  ∃ before after, ps = before ++ p :: after ∧ ∀ q ∈ before, AltRejects C s q

omit [LinearOrder α] in
theorem firstAlt_cons {s : Span} {a : Parser α} {ps : List (Parser α)} {p : Parser α} :
    FirstAlt C s (a :: ps) p ↔ a = p ∨ (AltRejects C s a ∧ FirstAlt C s ps p) := by
  constructor
  · rintro ⟨before, after, e, hb⟩
    cases before with
    | nil => exact .inl (List.cons.inj e).1
    | cons b before =>
      obtain ⟨rfl, rfl⟩ := List.cons.inj e
      rw [List.forall_mem_cons] at hb
      exact .inr ⟨hb.1, before, after, rfl, hb.2⟩
  · rintro (rfl | ⟨ha, before, after, rfl, hb⟩)
    · exact ⟨[], ps, rfl, nofun⟩
    · exact ⟨a :: before, after, rfl, List.forall_mem_cons.2 ⟨ha, hb⟩⟩

theorem choice_parses {ps : List (Parser α)} (hc : Compiles C (.choice ps)) (hi : Indexable (ps.map (resultFor C)))
    {s s' : Span} {w : Val} : (∃ log, Parses C (.choice ps) s log w s') ↔
      ∃ p plog v, FirstAlt C s ps p ∧ partRun C p s = .done plog (.ok ⟨some v, s'⟩) ∧
        ∃ d, IsDefault C (resultFor C (.choice ps)) d ∧
          w = choiceValue (distinct (ps.map (resultFor C))) d (resultFor C p) v := by
  constructor
  · rintro ⟨log, h⟩
    obtain ⟨before, p, after, blog, plog, v, e, hb, hv, -, d, hd, rfl⟩ :=
      ((C11_ordered_choice_partial C ps hc hi s s' log).1 w).1 h
    exact ⟨p, plog, v, ⟨before, after, e, (allFail_iff C).1 ⟨blog, hb⟩⟩, hv, d, hd, rfl⟩
  · rintro ⟨p, plog, v, ⟨before, after, e, hb⟩, hv, d, hd, rfl⟩
    obtain ⟨blog, hb⟩ := (allFail_iff C).2 hb
    exact ⟨blog ++ plog, ((C11_ordered_choice_partial C ps hc hi s s' _).1 _).2
      ⟨before, p, after, blog, plog, v, e, hb, hv, rfl, d, hd, rfl⟩⟩

omit [LinearOrder α] in
theorem alt_exclusive {s : Span} {p : Parser α} (h : AltAccepts C s p) (h' : AltRejects C s p) : False := by
  obtain ⟨l, v, s', h⟩ := h
  obtain ⟨l', s'', h'⟩ := h'
  rw [h] at h'
  cases h'

/-- **C69.** Parsing with an alternative `q` that accepts only where an earlier one `p` does, and without it, is the same,
if `q` brings no new type. -/
theorem C69_dead_parse (xs ys zs : List (Parser α)) (p q : Parser α)
    (hc : Compiles C (.choice (xs ++ p :: (ys ++ q :: zs))))
    (hi : Indexable ((xs ++ p :: (ys ++ q :: zs)).map (resultFor C)))
    (hc' : Compiles C (.choice (xs ++ p :: (ys ++ zs))))
    (hi' : Indexable ((xs ++ p :: (ys ++ zs)).map (resultFor C)))
    (hd : distinct ((xs ++ p :: (ys ++ q :: zs)).map (resultFor C)) = distinct ((xs ++ p :: (ys ++ zs)).map (resultFor C)))
    (s : Span) (hq : AltAccepts C s p ∨ AltRejects C s q) (s' : Span) :
    (∀ w, (∃ log, Parses C (.choice (xs ++ p :: (ys ++ q :: zs))) s log w s') ↔
      ∃ log, Parses C (.choice (xs ++ p :: (ys ++ zs))) s log w s') ∧
    ((∃ log, ParseFails C (.choice (xs ++ p :: (ys ++ q :: zs))) s log s') ↔
      ∃ log, ParseFails C (.choice (xs ++ p :: (ys ++ zs))) s log s') := by
  have append : ∀ (l l' : List (Parser α)) (r : Parser α), (FirstAlt C s l r ↔ FirstAlt C s l' r) →
      ∀ xs, FirstAlt C s (xs ++ l) r ↔ FirstAlt C s (xs ++ l') r := by
    intro l l' r h xs
    induction xs with
    | nil => exact h
    | cons x xs ih => rw [List.cons_append, List.cons_append, firstAlt_cons, firstAlt_cons, ih]
  constructor
  · intro w
    rw [choice_parses C hc hi, choice_parses C hc' hi', choice_type_of_distinct C hd, hd]
    refine exists_congr fun r => exists_congr fun rlog => exists_congr fun v => ?_
    refine and_congr_left fun h => append _ _ r ?_ xs
    rw [firstAlt_cons, firstAlt_cons]
    refine or_congr_right (and_congr_right fun hp => append _ _ r ?_ ys)
    have hq := hq.resolve_left fun h => alt_exclusive C h hp
    rw [firstAlt_cons]
    constructor
    · rintro (rfl | h')
      · exact (alt_exclusive C ⟨_, _, _, h.1⟩ hq).elim
      · exact h'.2
    · exact fun h' => .inr ⟨hq, h'⟩
  · have fails : ∀ (ps : List (Parser α)), Compiles C (.choice ps) → Indexable (ps.map (resultFor C)) →
        ((∃ log, ParseFails C (.choice ps) s log s') ↔ s' = s ∧ ∀ p ∈ ps, AltRejects C s p) := by
      intro ps hc hi
      rw [← allFail_iff C, ← exists_and_left]
      exact exists_congr fun log => (C11_ordered_choice_partial C ps hc hi s s' log).2
    rw [fails _ hc hi, fails _ hc' hi']
    refine and_congr_right fun _ => ⟨fun h r hr => h r ?_, fun h r hr => ?_⟩
    · simp only [List.mem_append, List.mem_cons] at hr ⊢; tauto
    · by_cases he : r = q
      · subst he
        exact hq.resolve_left fun h' => alt_exclusive C h' (h p (by simp))
      · refine h r ?_
        simp only [List.mem_append, List.mem_cons] at hr ⊢; tauto

end

/-! ### How to see that two alternatives are apart -/

section
variable (C : Ctx α β)

/-- **C69.** What an expression that cannot match nothing accepts begins with an element the check lists. -/
theorem C69_begins (null : Nat → Bool) (begin' : Nat → β → Bool) (ht : BeginTable C null begin') (p : Parser α)
    (hn : p.nullable null = false) (s s' : Span) (hs : s.Valid C.mem) (log : List Call) (h : Looks C p s log s') :
    ∃ x rest, s.elems C.mem = x :: rest ∧ p.begins C.eqv null begin' x = true := by
  obtain ⟨-, k, hk, -⟩ := ((C45_lookahead C p s hs).1 log s').1 h
  have := peg_begins ht hk k rfl
  refine this.2 (Nat.pos_of_ne_zero fun h0 => ?_)
  rw [this.1 h0] at hn
  exact nomatch hn

/-- **C69.** So two such expressions are apart if no element is listed for both. -/
theorem C69_apart (null : Nat → Bool) (begin' : Nat → β → Bool) (ht : BeginTable C null begin') (p q : Parser α)
    (hp : p.nullable null = false) (hq : q.nullable null = false)
    (h : ∀ x, ¬ (p.begins C.eqv null begin' x = true ∧ q.begins C.eqv null begin' x = true)) : Apart C p q := by
  rintro s hs ⟨⟨l, s', h1⟩, l', s'', h2⟩
  obtain ⟨x, rest, e, hx⟩ := C69_begins C null begin' ht p hp s s' hs l h1
  obtain ⟨y, rest', e', hy⟩ := C69_begins C null begin' ht q hq s s'' hs l' h2
  rw [e] at e'
  obtain ⟨rfl, rfl⟩ := List.cons.inj e'
  exact h x ⟨hx, hy⟩

theorem accepts_peg {p : Parser α} {s : Span} (hs : s.Valid C.mem) :
    (∃ log s', Looks C p s log s') ↔ ∃ k, Peg C.eqv (fun k => (C.custom k).body) p (s.elems C.mem) (some k) := by
  constructor
  · rintro ⟨log, s', h⟩
    obtain ⟨-, k, h, -⟩ := ((C45_lookahead C p s hs).1 log s').1 h
    exact ⟨k, h⟩
  · rintro ⟨k, h⟩
    rw [← lookVerdict_accepts C]
    refine (lookVerdict_cases C hs fun hl => (C45_lookahead C p s hs).2.2.1.1 hl _ h).resolve_right fun hr => ?_
    obtain ⟨l, s', hr⟩ := lookVerdict_reject C hr
    exact nomatch C45_deterministic _ _ _ _ _ _ (((C45_lookahead C p s hs).2.1 l s').1 hr).2.2 h

theorem forall₂_append {r : α → β → Prop} {a b : List α} {f : List β} (h : List.Forall₂ r (a ++ b) f) :
    ∃ x y, f = x ++ y ∧ List.Forall₂ r a x := by
  induction a generalizing f with
  | nil => exact ⟨[], f, rfl, .nil⟩
  | cons a as ih =>
    cases h with
    | cons h h' =>
      obtain ⟨x, y, rfl, hx⟩ := ih h'
      exact ⟨_ :: x, y, rfl, .cons h hx⟩

/-- **C69.** A literal accepts wherever a longer one that starts with it does: in `"in"_all | "int"_all` the second is
dead. -/
theorem C69_prefix (a b : List α) : Covers C (.allOf a) (.allOf (a ++ b)) := by
  rintro s hs ⟨log, s', h⟩
  obtain ⟨-, k, ⟨-, front, rest, e, hf⟩, -⟩ :=
    ((C07_basic_lookahead C (.allOf (a ++ b)) (show True from trivial) s hs log s').1).1 h
  obtain ⟨x, y, rfl, hx⟩ := forall₂_append hf
  exact (accepts_peg C hs).2 ⟨a.length, .hit (show True from trivial) ⟨rfl, x, y ++ rest, by rw [e, List.append_assoc], hx⟩⟩

end

/-! ### Examples -/

-- in `"in"_all | "int"_all | "x"_all` the second alternative is dead
example (text : String) : SameLookahead (Ex.ctx text) (.choice [Ex.all "in", Ex.all "int", Ex.all "x"])
    (.choice [Ex.all "in", Ex.all "x"]) :=
  C69_dead (Ex.ctx text) [] [] [Ex.all "x"] (Ex.all "in") (Ex.all "int") (C69_prefix _ _ [116])
    fun s hs => (C39_checked _ (Ex.all "int") [] (fun _ => false) id rfl s hs).2

-- and leaving it out does not change what is parsed
example (w : Val) (s' : Span) :
    (∃ log, Parses (Ex.ctx "int") (.choice [Ex.all "in", Ex.all "int"]) (Ex.input "int") log w s') ↔
      ∃ log, Parses (Ex.ctx "int") (.choice [Ex.all "in"]) (Ex.input "int") log w s' :=
  (C69_dead_parse (Ex.ctx "int") [] [] [] (Ex.all "in") (Ex.all "int") ⟨Ex.ctx_ok _, rfl, rfl, rfl⟩
    (C12_indexable_of _ (.inr ⟨.span, by decide⟩)) ⟨Ex.ctx_ok _, rfl, rfl, rfl⟩ (C12_indexable_of _ (.inl (by decide))) rfl (Ex.input "int")
    (.inl ⟨[], .span ⟨.at 0 0, 2⟩, ⟨.at 0 2, 1⟩, Ex.parses _ 2 rfl⟩) s').1 w

-- `"a"_all | "b"_all` and `"b"_all | "a"_all` parse the same
example (w : Val) (s' : Span) :
    (∃ log, Parses (Ex.ctx "bc") (.choice [Ex.all "a", Ex.all "b"]) (Ex.input "bc") log w s') ↔
      ∃ log, Parses (Ex.ctx "bc") (.choice [Ex.all "b", Ex.all "a"]) (Ex.input "bc") log w s' := by
  have ha : AltRejects (Ex.ctx "bc") (Ex.input "bc") (Ex.all "a") := ⟨[], Ex.input "bc", Ex.parses _ 2 rfl⟩
  have hb : AltAccepts (Ex.ctx "bc") (Ex.input "bc") (Ex.all "b") :=
    ⟨[], .span ⟨.at 0 0, 1⟩, ⟨.at 0 1, 1⟩, Ex.parses _ 2 rfl⟩
  refine C69_same_value (Ex.ctx "bc") [Ex.all "a", Ex.all "b"] [Ex.all "b", Ex.all "a"] (.swap _ _ _)
    ⟨Ex.ctx_ok _, rfl, rfl, rfl⟩ (indexable_pair _ _) ⟨Ex.ctx_ok _, rfl, rfl, rfl⟩ (indexable_pair _ _) rfl _ ?_ ?_ w s'
  · simpa using ⟨.inr ha, .inl hb⟩
  · simpa using fun h => (alt_exclusive _ h ha).elim

-- without the order of the alternatives a match is another one
example : ¬ Apart (Ex.ctx "int") (Ex.all "in") (Ex.all "int") := fun h =>
  h (Ex.input "int") (Ex.input_valid _) ⟨⟨[], ⟨.at 0 2, 1⟩, Ex.looks _ 2 rfl⟩, [], ⟨.at 0 3, 0⟩, Ex.looks _ 2 rfl⟩

namespace Json

/-- the elements what a custom parser of the example consumes can begin with -/
def beginTable (k x : Nat) : Bool :=
  match k with
  | 0 => true
  | 1 => x == 123
  | 2 => x == 91
  | _ => false

theorem beginTable_ok (m : Machine) : BeginTable (ctx m) (fun k => decide (3 ≤ k)) beginTable := by
  constructor
  · intro k
    match k with
    | 0 =>
      show valueBody.nullable _ = true → _
      rw [valueBody_eq, number_eq, string_eq, chars, validChar_eq, integer_eq, fraction_eq, exponent_eq]
      exact fun h => nomatch h
    | 1 =>
      show objectBody.nullable _ = true → _
      rw [objectBody_eq, pair_eq, chars, validChar_eq]
      exact fun h => nomatch h
    | 2 =>
      show arrayBody.nullable _ = true → _
      rw [arrayBody_eq]
      exact fun h => nomatch h
    | k + 3 => exact fun _ => by simp
  · intro k x
    match k with
    | 0 => exact fun _ => rfl
    | 1 =>
      show objectBody.begins _ _ _ x = true → _
      rw [objectBody_eq]
      simp only [Parser.begins, sequenceBegins, Parser.nullable, List.isEmpty_cons, Bool.false_and, Bool.or_false, beginTable, ctx, beq_iff_eq]
      exact Eq.symm
    | 2 =>
      show arrayBody.begins _ _ _ x = true → _
      rw [arrayBody_eq]
      simp only [Parser.begins, sequenceBegins, Parser.nullable, List.isEmpty_cons, Bool.false_and, Bool.or_false, beginTable, ctx, beq_iff_eq]
      exact Eq.symm
    | k + 3 => exact fun h => nomatch h

/-- what `p` accepts begins with one of `cs` -/
def BeginsWith (p : Parser Nat) (cs : List Nat) : Prop :=
  p.nullable (fun k => decide (3 ≤ k)) = false ∧
    ∀ x, p.begins (· == ·) (fun k => decide (3 ≤ k)) beginTable x = true → x ∈ cs

/-- the alternatives of a value, and what they begin with -/
def valueStarts : List (Parser Nat × List Nat) :=
  [(string, [34]), (number, 45 :: digitClass), (jsonObject, [123]), (jsonArray, [91]), (trueP, [116]), (falseP, [102]),
    (nullP, [110])]

theorem valueStarts_begin : ∀ e ∈ valueStarts, BeginsWith e.1 e.2 := by
  simp only [valueStarts, List.forall_mem_cons, List.not_mem_nil, false_implies, implies_true, and_true]
  refine ⟨⟨?_, ?_⟩, ⟨?_, ?_⟩, ⟨rfl, ?_⟩, ⟨rfl, ?_⟩, ⟨rfl, ?_⟩, ⟨rfl, ?_⟩, ⟨rfl, ?_⟩⟩
  · rw [string_eq]; rfl
  · intro x
    rw [string_eq]
    simp only [Parser.begins, sequenceBegins, Parser.nullable, List.isEmpty_cons, Bool.false_and, Bool.or_false,
      beq_iff_eq, List.mem_singleton]
    exact Eq.symm
  · rw [number_eq, integer_eq]; rfl
  · intro x
    rw [number_eq, integer_eq]
    simp only [Parser.begins, sequenceBegins, someBegins, Parser.nullable, someNullable, allNullable, List.isEmpty_cons,
      Bool.false_and, Bool.false_or, Bool.or_false, Bool.true_and, beq_iff_eq, Bool.or_eq_true, List.any_eq_true,
      List.mem_cons, Bool.and_false]
    rintro (h | h | ⟨a, ha, rfl⟩)
    · exact .inl h.symm
    · exact .inr (.inl h.symm)
    · exact .inr (.inr ha)
  all_goals
    intro x
    simp only [Parser.begins, beginTable, beq_iff_eq, List.mem_singleton, jsonObject, jsonArray]
  · exact id
  · exact id
  · exact Eq.symm
  · exact Eq.symm
  · exact Eq.symm

/-- **C69**, in the JSON example: the alternatives of a value (string, number, object, array, `true`, `false`, `null`)
recognise the same in every order. -/
theorem C69_json (m : Machine) (ps : List (Parser Nat))
    (hp : [string, number, jsonObject, jsonArray, trueP, falseP, nullP].Perm ps) :
    SameLookahead (ctx m) valueParser (.choice ps) := by
  have hd : (valueStarts.map Prod.snd).Pairwise (fun cs ds => ∀ x ∈ cs, x ∉ ds) := by decide
  refine C69_reorder (ctx m) (valueStarts.map Prod.fst) ps hp ?_ ?_
  · rw [List.pairwise_map] at hd ⊢
    refine hd.imp_of_mem fun {e f} he hf h => ?_
    obtain ⟨n1, b1⟩ := valueStarts_begin e he
    obtain ⟨n2, b2⟩ := valueStarts_begin f hf
    exact C69_apart (ctx m) _ _ (beginTable_ok m) e.1 f.1 n1 n2 fun x hx => h x (b1 x hx.1) (b2 x hx.2)
  · intro p hm s hs
    have closed : ∀ p : Parser Nat, p.customs (fun _ => false) = true → p.repeatsOK (fun _ => true) = true →
        ¬ LookLoops (ctx m) p s := fun p h h' => (C39_closed (ctx m) p h h' s hs).2
    have checked : ∀ p ∈ [jsonValue, jsonObject, jsonArray, string, number], ¬ LookLoops (ctx m) p s :=
      fun p h => (C39_checked (ctx m) p _ _ _ (json_productive h) s hs).2
    simp only [valueStarts, List.map_cons, List.map_nil, List.mem_cons, List.not_mem_nil, or_false] at hm
    rcases hm with rfl | rfl | rfl | rfl | rfl | rfl | rfl
    · exact checked _ (by simp)
    · exact checked _ (by simp)
    · exact checked _ (by simp)
    · exact checked _ (by simp)
    · exact closed _ rfl rfl
    · exact closed _ rfl rfl
    · exact closed _ rfl rfl

end Json

end Tok3n
