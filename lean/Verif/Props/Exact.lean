import Verif.Proof.Recorded
import Verif.Props.Sequence
import Verif.Props.Modify
import Verif.Props.Compile
/-
C11, C13–C15, C26, C44, C57, C60: every choice that compiles, and exactly when the laws of choices and sequences hold.
-/

namespace Tok3n

variable {α β : Type}

/-! ## C60 Every choice -/

/-- The library records exactly this (`Recorded`), for every list of types; there is no other such record. -/
theorem C60_recorded (ts : List Ty) (is : List (Option Nat)) : Recorded ts is ↔ is = (choiceTrait ts).seq := by
  rw [choiceTrait_seq]
  exact ⟨fun h => h.unique (recorded ts), fun h => h ▸ recorded ts⟩

theorem mem_zip_getElem? {γ δ : Type} {as : List γ} {bs : List δ} {x : γ × δ} (h : x ∈ as.zip bs) :
    ∃ n : Nat, as[n]? = some x.1 ∧ bs[n]? = some x.2 := by
  obtain ⟨n, hn, rfl⟩ := List.getElem_of_mem h
  rw [List.length_zip] at hn
  refine ⟨n, ?_, ?_⟩
  · rw [List.getElem?_eq_getElem (by omega), List.getElem_zip]
  · rw [List.getElem?_eq_getElem (by omega), List.getElem_zip]

theorem elementsOK_of_get {C : Ctx α β} {tr : Trait} {ps : List (Parser α)} {is : List (Option Nat)}
    (hl : is.length = ps.length)
    (h : ∀ (n i : Nat) p, ps[n]? = some p → is[n]? = some (some i) → elementOK C true tr (resultFor C p) (some i) = true) :
    elementsOK C true tr (resultsFor C ps) is = true := by
  induction ps generalizing is with
  | nil => simp at hl; subst hl; rfl
  | cons p ps ih =>
    cases is with
    | nil => simp at hl
    | cons i is =>
      simp only [resultsFor, elementsOK, Bool.and_eq_true]
      refine ⟨?_, ih (by simpa using hl) fun n i q hq hi => h (n + 1) i q hq hi⟩
      cases i with
      | none => rfl
      | some i => exact h 0 i p rfl rfl

theorem parsesOK_of_get {C : Ctx α β} {ps : List (Parser α)} {is : List (Option Nat)}
    (h : ∀ (n i : Nat) p, ps[n]? = some p → is[n]? = some (some i) → parseOK C p = true) :
    parsesOK C ps is = true := by
  induction ps generalizing is with
  | nil => simp [parsesOK]
  | cons p ps ih =>
    cases is with
    | nil => simp [parsesOK]
    | cons i is =>
      have hi := ih (is := is) fun n i q hq hi => h (n + 1) i q hq hi
      cases i with
      | none => simpa [parsesOK] using hi
      | some i => simp only [parsesOK, Bool.and_eq_true]; exact ⟨h 0 i p rfl rfl, hi⟩

section
variable [LinearOrder α] (C : Ctx α β)

/-- What every choice that compiles does: it tries its alternatives in order up to the first success, those with a
recorded index by `parse`, putting the value at that index, those without by `lookahead`, with the default constructed
value. -/
theorem C60_every_choice (ps : List (Parser α)) (hc : Compiles C (.choice ps)) (is : List (Option Nat))
    (hr : Recorded (ps.map (resultFor C)) is) (d : Val) (hd : IsDefault C (resultFor C (.choice ps)) d)
    (s : Span) :
    Parse C (.choice ps) s =
      firstOf s (List.zipWith (recordedRun C (distinct (ps.map (resultFor C))) d s) ps is) := by
  have hlt := hr.lt
  rw [isDefault_iff] at hd
  rw [C60_recorded] at hr
  subst hr
  rw [← resultsFor_eq] at *
  have hok := hc.parse
  simp only [parseOK, Bool.and_eq_true] at hok
  have hd' : defaultVal C (choiceTrait (resultsFor C ps)).ty = some d := by
    rw [choiceTrait_ty, ← resultFor_choice]; exact hd
  rw [Parse_choice_general hd' hok.1.2]
  have hz := elementsOK_zip hok.1.2
  have hU := choiceTrait_unwrapped (resultsFor C ps)
  have hty := choiceTrait_ty (resultsFor C ps)
  unfold choiceType at hty
  congr 1
  rw [zipWith_eq_map, zipWith_eq_map]
  apply List.map_congr_left
  rintro ⟨p, i⟩ hpi
  have hz := hz _ hpi
  obtain ⟨n, -, hn⟩ := mem_zip_getElem? hpi
  have hnv : .void ∉ distinct (resultsFor C ps) := fun h => ((mem_distinct _ _).1 h).2 rfl
  generalize distinct (resultsFor C ps) = us at *
  cases i with
  | none => rfl
  | some i =>
    have hlt := hlt n i hn
    simp only [altRun, recordedRun]
    congr 1
    funext v
    unfold injectAt
    match us, hlt, hU, hty, hnv with
    | [t], hlt, hU, hty, hnv =>
      simp only [List.mem_singleton] at hnv
      simp only at hty
      rw [hU.2 (by simp), if_pos rfl, if_neg (by rw [hty]; exact fun h => hnv h.symm)]
    | a :: b :: us, hlt, hU, hty, hnv =>
      simp only at hty
      have : ¬ (choiceTrait (resultsFor C ps)).unwrapped = true := by rw [hU]; simp
      rw [if_neg this]
      simp only [hty]
      rfl

/-- If `lookahead` says what `parse` says for the alternatives recorded without index (those without value, and those
with a wrong record), a choice accepts, rejects, throws and loops as its alternatives' `parse`, tried in order. -/
theorem C11_first_verdict (ps : List (Parser α)) (hc : Compiles C (.choice ps)) (is : List (Option Nat))
    (hr : Recorded (ps.map (resultFor C)) is) (s : Span)
    (hl : ∀ (n : Nat) p, ps[n]? = some p → is[n]? = some none → lookVerdict C p s = parseVerdict C p s) :
    parseVerdict C (.choice ps) s = orElses (ps.map fun p => parseVerdict C p s) := by
  obtain ⟨d, hd⟩ := defaultVal_choice hc.parse
  rw [← resultFor_choice, ← isDefault_iff] at hd
  rw [parseVerdict, C60_every_choice C ps hc is hr d hd, verdict_firstOf, List.map_zipWith]
  congr 1
  have hlen := hr.length
  rw [List.length_map] at hlen
  apply List.ext_getElem?
  intro n
  rw [List.getElem?_zipWith, List.getElem?_map]
  cases hn : ps[n]? with
  | none => rfl
  | some p =>
    have : n < is.length := by rw [hlen]; exact (List.getElem?_eq_some_iff.1 hn).1
    obtain ⟨i, hi⟩ : ∃ i, is[n]? = some i := ⟨_, List.getElem?_eq_getElem this⟩
    rw [hi]
    cases i with
    | none => simp only [recordedRun, verdict_mapVal, Option.map_some]; rw [← hl n p hn hi]; rfl
    | some i => simp only [recordedRun, verdict_mapVal, Option.map_some]; rfl

theorem recorded_converts (ps : List (Parser α)) (hok : parseOK C (.choice ps) = true) (is : List (Option Nat))
    (hr : Recorded (ps.map (resultFor C)) is) (n i : Nat) (p : Parser α) (hp : ps[n]? = some p)
    (hi : is[n]? = some (some i)) :
    resultFor C p ≠ .void ∧ ∃ u, (distinct (ps.map (resultFor C)))[i]? = some u ∧
      (u = resultFor C p ∨ (C.conv (resultFor C p) u).isSome) := by
  have hlt := hr.lt n i hi
  have hv : resultFor C p ≠ .void := by
    intro h
    have hm : (ps.map (resultFor C))[n]? = some .void := by rw [List.getElem?_map, hp, ← h]; rfl
    obtain ⟨hn, he⟩ := List.getElem?_eq_some_iff.1 hm
    have := hr.void ((ps.map (resultFor C)).take n) ((ps.map (resultFor C)).drop (n + 1))
      (by rw [← he, List.getElem_cons_drop, List.take_append_drop])
    rw [List.length_take, Nat.min_eq_left (by omega), hi] at this
    simp at this
  obtain ⟨u, hu⟩ : ∃ u, (distinct (ps.map (resultFor C)))[i]? = some u := ⟨_, List.getElem?_eq_getElem hlt⟩
  refine ⟨hv, u, hu, ?_⟩
  have hmem : resultFor C p ∈ distinct (ps.map (resultFor C)) :=
    (mem_distinct _ _).2 ⟨List.mem_map_of_mem (List.mem_of_getElem? hp), hv⟩
  rw [C60_recorded] at hr
  subst hr
  simp only [← resultsFor_eq] at *
  simp only [parseOK, Bool.and_eq_true] at hok
  have hz := elementsOK_zip hok.1.2 (p, some i) (by
    apply List.mem_of_getElem? (i := n)
    rw [List.getElem?_zip_eq_some]
    exact ⟨hp, hi⟩)
  simp only [elementOK] at hz
  have hU := choiceTrait_unwrapped (resultsFor C ps)
  have hty := choiceTrait_ty (resultsFor C ps)
  unfold choiceType at hty
  generalize distinct (resultsFor C ps) = us at *
  match us, hlt, hU, hty, hmem, hu with
  | [t], hlt, hU, hty, hmem, hu =>
    simp only [List.mem_singleton] at hmem
    simp only [List.length_singleton, Nat.lt_one_iff] at hlt
    subst hlt
    exact .inl ((Option.some.inj hu).symm.trans hmem.symm)
  | a :: b :: us, hlt, hU, hty, hmem, hu =>
    have : ¬ (choiceTrait (resultsFor C ps)).unwrapped = true := by rw [hU]; simp
    rw [if_neg this] at hz
    simp only at hty
    rw [hty] at hz
    simp only [Bool.true_and, hu, convOK, Bool.or_eq_true, decide_eq_true_eq] at hz
    exact hz.imp Eq.symm id

/-- In every choice that compiles, an alternative is recorded at a place of the variant to whose type its value
converts. -/
theorem C60_converts (ps : List (Parser α)) (hc : Compiles C (.choice ps)) (is : List (Option Nat))
    (hr : Recorded (ps.map (resultFor C)) is) (n i : Nat) (p : Parser α) (hp : ps[n]? = some p)
    (hi : is[n]? = some (some i)) :
    resultFor C p ≠ .void ∧ ∃ u, (distinct (ps.map (resultFor C)))[i]? = some u ∧
      (u = resultFor C p ∨ (C.conv (resultFor C p) u).isSome) :=
  recorded_converts C ps hc.parse is hr n i p hp hi

/-- If no alternative's type converts to that of another, every choice that compiles returns, when it takes an
alternative, the right value (`choiceValue`: engaged at the alternative's type) or, for an alternative it only looked
ahead, the default constructed value: never a value at a wrong place. -/
theorem C60_right_or_default (ps : List (Parser α)) (hc : Compiles C (.choice ps))
    (hconv : ∀ p ∈ ps, ∀ q ∈ ps, resultFor C p ≠ resultFor C q → C.conv (resultFor C p) (resultFor C q) = none)
    (s s' : Span) (log : List Call) (w : Val)
    (h : Parses C (.choice ps) s log w s') :
    ∃ p ∈ ps, ∃ d, IsDefault C (resultFor C (.choice ps)) d ∧
      ((resultFor C p ≠ .void ∧ ∃ plog v, Parses C p s plog v s' ∧
        w = choiceValue (distinct (ps.map (resultFor C))) d (resultFor C p) v) ∨
       (Looks C p s [] s' ∧ w = d)) := by
  obtain ⟨d, hd⟩ := defaultVal_choice hc.parse
  rw [← resultFor_choice, ← isDefault_iff] at hd
  have hr := (C60_recorded (ps.map (resultFor C)) _).2 rfl
  unfold Parses at h
  rw [C60_every_choice C ps hc _ hr d hd, firstOf_some] at h
  obtain ⟨before, m, after, l, l', he, -, hm, -⟩ := h
  have hmem : m ∈ List.zipWith (recordedRun C (distinct (ps.map (resultFor C))) d s) ps
      (choiceTrait (ps.map (resultFor C))).seq := by rw [he]; simp
  rw [zipWith_eq_map, List.mem_map] at hmem
  obtain ⟨⟨p, i⟩, hpi, rfl⟩ := hmem
  obtain ⟨n, hn, hi⟩ := mem_zip_getElem? hpi
  refine ⟨p, List.mem_of_getElem? hn, d, hd, ?_⟩
  cases i with
  | none =>
    right
    obtain ⟨v, hv, rfl⟩ := mapVal_some.1 hm
    obtain ⟨rfl, h' | h'⟩ := Look_unit hv
    · simp at h'
    · cases h'; exact ⟨hv, rfl⟩
  | some i =>
    left
    obtain ⟨hv, u, hu, hu'⟩ := C60_converts C ps hc _ hr n i p hn hi
    have hu' : u = resultFor C p := by
      rcases hu' with h | h
      · exact h
      · by_contra hne
        obtain ⟨q, hq, rfl⟩ := List.mem_map.1 ((mem_distinct _ _).1 (List.mem_of_getElem? hu)).1
        rw [hconv p (List.mem_of_getElem? hn) q hq (Ne.symm hne)] at h
        simp at h
    subst hu'
    obtain ⟨v, hp, rfl⟩ := mapVal_some.1 hm
    refine ⟨hv, _, v, hp, ?_⟩
    have hnd := distinct_nodup (ps.map (resultFor C))
    simp only [choiceValue, hv, if_false]
    generalize distinct (ps.map (resultFor C)) = us at *
    match us, hu with
    | [t], hu => rfl
    | a :: b :: us, hu =>
      obtain ⟨hlt, he⟩ := List.getElem?_eq_some_iff.1 hu
      have : (a :: b :: us).idxOf (resultFor C p) = i := by
        rw [← he]; exact hnd.idxOf_getElem i hlt
      simp only [this, converted, List.getD, hu, Option.getD_some, if_true]

theorem parseOK_choice_iff (ps : List (Parser α)) (is : List (Option Nat)) (ht : tysOK C ps = true)
    (hr : Recorded (ps.map (resultFor C)) is) :
    parseOK C (.choice ps) = true ↔
      (∀ t, (distinct (ps.map (resultFor C))).head? = some t → HasDefault C t) ∧
      ∀ (n i : Nat) p, ps[n]? = some p → is[n]? = some (some i) → parseOK C p = true ∧
        ∃ u, (distinct (ps.map (resultFor C)))[i]? = some u ∧ (u = resultFor C p ∨ (C.conv (resultFor C p) u).isSome) := by
  constructor
  · intro h3
    have hcv := fun n i p h1 h2 => (recorded_converts C ps h3 is hr n i p h1 h2).2
    rw [C60_recorded] at hr
    subst hr
    simp only [parseOK, Bool.and_eq_true] at h3
    simp only [← resultsFor_eq] at *
    refine ⟨?_, fun n i p hp hi => ⟨?_, hcv n i p hp hi⟩⟩
    · have := h3.1.1.2
      rw [choiceTrait_ty] at this
      exact (hasDefault_choiceType _).1 (hasDefault_iff.2 this)
    · refine parsesOK_mem h3.2 (p, some i) ?_ (by simp)
      apply List.mem_of_getElem? (i := n)
      rw [List.getElem?_zip_eq_some]
      exact ⟨hp, hi⟩
  · rintro ⟨h2, h3⟩
    have hlt := hr.lt
    have hlen := hr.length
    have hvoid := hr.void
    rw [C60_recorded] at hr
    subst hr
    simp only [← resultsFor_eq] at *
    have hw : ∀ (n i : Nat) p, ps[n]? = some p → (choiceTrait (resultsFor C ps)).seq[n]? = some (some i) →
        elementOK C true (choiceTrait (resultsFor C ps)) (resultFor C p) (some i) = true := by
      intro n i p hp hi
      obtain ⟨-, u, hu, hu'⟩ := h3 n i p hp hi
      have hv : resultFor C p ≠ .void := by
        intro h
        have hm : (resultsFor C ps)[n]? = some .void := by rw [resultsFor_eq, List.getElem?_map, hp, ← h]; rfl
        obtain ⟨hn, he⟩ := List.getElem?_eq_some_iff.1 hm
        have := hvoid ((resultsFor C ps).take n) ((resultsFor C ps).drop (n + 1))
          (by rw [← he, List.getElem_cons_drop, List.take_append_drop])
        rw [List.length_take, Nat.min_eq_left (by omega), hi] at this
        simp at this
      have hmem : resultFor C p ∈ distinct (resultsFor C ps) :=
        (mem_distinct _ _).2 ⟨by rw [resultsFor_eq]; exact List.mem_map_of_mem (List.mem_of_getElem? hp), hv⟩
      simp only [elementOK]
      have hU := choiceTrait_unwrapped (resultsFor C ps)
      have hty := choiceTrait_ty (resultsFor C ps)
      unfold choiceType at hty
      generalize distinct (resultsFor C ps) = us at *
      match us, hU, hty, hmem, hu with
      | [t], hU, hty, hmem, hu =>
        simp only [List.mem_singleton] at hmem
        simp only at hty
        rw [hU.2 (by simp), if_pos rfl, hty, hmem]
        simp
      | a :: b :: us, hU, hty, hmem, hu =>
        have : ¬ (choiceTrait (resultsFor C ps)).unwrapped = true := by rw [hU]; simp
        rw [if_neg this]
        simp only at hty
        rw [hty]
        simp only [hu, convOK, Bool.true_and, Bool.or_eq_true, decide_eq_true_eq]
        exact hu'.imp Eq.symm id
    simp only [parseOK, Bool.and_eq_true]
    refine ⟨⟨⟨ht, ?_⟩, ?_⟩, ?_⟩
    · rw [choiceTrait_ty]; exact hasDefault_iff.1 ((hasDefault_choiceType _).2 h2)
    · generalize choiceTrait (resultsFor C ps) = tr at *
      exact elementsOK_of_get (by rw [resultsFor_eq, List.length_map] at hlen; exact hlen) hw
    · generalize (choiceTrait (resultsFor C ps)).seq = is at *
      exact parsesOK_of_get fun n i p hp hi => (h3 n i p hp hi).1

/-- A choice, of any types, compiles exactly if it has alternatives, their types are known, the value of the first that
has one can be default constructed, and those with a recorded index can be parsed and convert to the type at that
index. -/
theorem C57_every_choice (hC : C.OK) (ps : List (Parser α)) (is : List (Option Nat))
    (hr : Recorded (ps.map (resultFor C)) is) :
    Compiles C (.choice ps) ↔ ps ≠ [] ∧ (∀ p ∈ ps, p.wf = true ∧ tyOK C p = true) ∧
      (∀ t, (distinct (ps.map (resultFor C))).head? = some t → HasDefault C t) ∧
      ∀ (n i : Nat) p, ps[n]? = some p → is[n]? = some (some i) → parseOK C p = true ∧
        ∃ u, (distinct (ps.map (resultFor C)))[i]? = some u ∧ (u = resultFor C p ∨ (C.conv (resultFor C p) u).isSome) := by
  constructor
  · rintro ⟨-, h1, h2, h3⟩
    simp only [Parser.wf, Bool.and_eq_true, Bool.not_eq_true', List.isEmpty_eq_false_iff] at h1
    exact ⟨h1.1, fun p hm => ⟨wfs_iff.1 h1.2 p hm, tysOK_iff.1 h2 p hm⟩, (parseOK_choice_iff C ps is h2 hr).1 h3⟩
  · rintro ⟨h0, h1, h2⟩
    have ht : tysOK C ps = true := tysOK_iff.2 fun p hm => (h1 p hm).2
    refine ⟨hC, ?_, ht, (parseOK_choice_iff C ps is ht hr).2 h2⟩
    simp only [Parser.wf, Bool.and_eq_true, Bool.not_eq_true', List.isEmpty_eq_false_iff]
    exact ⟨h0, wfs_iff.2 fun p hm => (h1 p hm).1⟩

/-! ## Exactly when -/

/-- A parser in which no `filter` and no `join` ever rejects what the parser in it matched and no custom parser succeeds
where its body fails, and whose callbacks do not throw, is looked ahead exactly. -/
theorem C05_exact_partial (p : Parser α) (hp : NeverOverrules C p)
    (he : ∀ s, s.Valid C.mem → ∀ log e, ¬ ParseErr C p s log e) : LookaheadExactOn C p := by
  intro s hs
  obtain ⟨h1, h2, h3⟩ := (C05_never_rejects_partial C p).2 hp p .refl
  unfold lookVerdict parseVerdict
  cases hm : Parse C p s with
  | diverge => rw [show Look C p s = .diverge from h3 s hs hm]
  | done l r =>
    cases r with
    | err e => exact (he s hs _ _ hm).elim
    | ok r =>
      obtain ⟨rv, rr⟩ := r
      cases rv with
      | none => rw [show Look C p s = _ from h2 s hs _ _ hm]; rfl
      | some v => rw [show Look C p s = _ from h1 s hs _ _ _ hm]; rfl

/-- The plain choice of `p` and `p` accepts, rejects, throws and loops as `p` on every readable input exactly if `p` has
a value or its `lookahead` says what its `parse` says. -/
theorem C14_exactly (p : Parser α) (hc : Compiles C (.choice [p, p])) :
    (∀ s, s.Valid C.mem → parseVerdict C (.choice [p, p]) s = parseVerdict C (choiceOp p p) s) ↔
      (resultFor C p = .void → LookaheadExactOn C p) := by
  have key : ∀ s, parseVerdict C (.choice [p, p]) s = partVerdict C p s := by
    intro s
    rw [parseVerdict_choice hc.parse (indexable_pair _ _)]
    show orElses [_, _] = _
    rw [orElses_pair, Verdict.orElse_self]
  simp only [key, C14_same]
  constructor
  · intro h hv s hs
    rw [← h s hs, partVerdict_look hv]
  · intro h s hs
    by_cases hv : resultFor C p = .void
    · rw [partVerdict_look hv, h hv s hs]
    · rw [partVerdict_parse hv]

theorem partVerdict_exactOn {p : Parser α} (h : resultFor C p = .void → LookaheadExactOn C p) {s : Span}
    (hs : s.Valid C.mem) : partVerdict C p s = parseVerdict C p s := by
  by_cases hv : resultFor C p = .void
  · rw [partVerdict_look hv, h hv s hs]
  · rw [partVerdict_parse hv]

/-- A sequence accepts, rejects, throws and loops on readable input as its parts' `parse`, run one after the other, if
`lookahead` of the parts without value says there what their `parse` says. -/
theorem C15_in_turn (ps : List (Parser α)) (hc : Compiles C (.sequence ps))
    (hf : ∀ p ∈ ps, resultFor C p = .void → LookaheadExactOn C p) (s : Span) (hs : s.Valid C.mem) :
    parseVerdict C (.sequence ps) s = andThens (ps.map (parseVerdict C)) s := by
  rw [parseVerdict_sequence hc.parse]
  clear hc
  induction ps generalizing s with
  | nil => rfl
  | cons p ps ih =>
    simp only [List.map_cons, andThens_cons]
    rw [← partVerdict_exactOn C (hf p (by simp)) hs]
    exact Verdict.andThen_congr fun s1 h1 => ih (fun q hq => hf q (by simp [hq])) s1 (accept_valid hs h1)

/-- That condition is needed: for a `p` without value it holds exactly if every `p >> q` is `p`, then `q`. -/
theorem C15_exactly (p : Parser α) (hp : Compiles C p) (hv : resultFor C p = .void) :
    (∀ q, (resultFor C q = .void → LookaheadExactOn C q) → Compiles C (.sequence [p, q]) → ∀ s, s.Valid C.mem →
      parseVerdict C (.sequence [p, q]) s = (parseVerdict C p s).andThen (parseVerdict C q)) ↔
    LookaheadExactOn C p := by
  constructor
  · intro h s hs
    have hc : Compiles C (.sequence [p, .epsilon]) := by
      rw [C57_sequence C hp.ctx]
      refine ⟨by simp, fun q hq => ?_⟩
      simp only [List.mem_cons, List.not_mem_nil, or_false] at hq
      rcases hq with rfl | rfl
      · exact ⟨hp.wf, hp.ty, fun _ => hp.parse, by rw [hv]; exact .void⟩
      · exact ⟨rfl, rfl, fun _ => rfl, .void⟩
    have := h .epsilon (fun _ s _ => (C15_lookahead_exact C p).1 s) hc s hs
    have he : parseVerdict C .epsilon = .accept := by
      funext s; rw [parseVerdict, Parse_epsilon]; rfl
    rw [he, Verdict.andThen_accept] at this
    rw [← this, parseVerdict_sequence hc.parse]
    show _ = andThens [_, _] s
    rw [andThens_pair, partVerdict_look hv]
    rw [Verdict.andThen_congr (g := .accept), Verdict.andThen_accept]
    intro s1 _
    rw [partVerdict_look (by rfl), lookVerdict, Look_epsilon]; rfl
  · intro h q hq hc s hs
    rw [C15_in_turn C _ hc _ s hs]
    · exact andThens_pair _ _ _
    · intro x hx hvx
      simp only [List.mem_cons, List.not_mem_nil, or_false] at hx
      rcases hx with rfl | rfl
      · exact h
      · exact hq hvx

/-- Ignoring the first part of a sequence never changes what is accepted and what remains, exactly if the part has no
value anyway or its `lookahead` says what its `parse` says. -/
theorem C26_exactly (p : Parser α) (hp : Compiles C p) (hd : HasDefault C (resultFor C p)) :
    (∀ q, Compiles C (.sequence [p, q]) → ∀ s, s.Valid C.mem →
      parseVerdict C (.sequence [.ignore p, q]) s = parseVerdict C (.sequence [p, q]) s) ↔
    (resultFor C p ≠ .void → LookaheadExactOn C p) := by
  have hiv : resultFor C (.ignore p) = .void := by rw [resultFor]
  have hig : ∀ q, Compiles C (.sequence [p, q]) → Compiles C (.sequence [.ignore p, q]) := by
    intro q h
    rw [C57_sequence C hp.ctx] at h ⊢
    refine ⟨by simp, fun x hx => ?_⟩
    simp only [List.mem_cons, List.not_mem_nil, or_false] at hx
    rcases hx with rfl | rfl
    · exact ⟨hp.wf, rfl, fun _ => rfl, by rw [hiv]; exact .void⟩
    · exact h.2 x (by simp)
  have hl : ∀ s, partVerdict C (.ignore p) s = lookVerdict C p s := fun s => by
    rw [partVerdict_look hiv, lookVerdict, Look_ignore, lookVerdict]
  have he : ∀ s, partVerdict C .epsilon s = .accept s := fun s => by
    rw [partVerdict_look (by rfl), lookVerdict, Look_epsilon]; rfl
  constructor
  · intro h hv s hs
    have hc : Compiles C (.sequence [p, .epsilon]) := by
      rw [C57_sequence C hp.ctx]
      refine ⟨by simp, fun q hq => ?_⟩
      simp only [List.mem_cons, List.not_mem_nil, or_false] at hq
      rcases hq with rfl | rfl
      · exact ⟨hp.wf, hp.ty, fun _ => hp.parse, hd⟩
      · exact ⟨rfl, rfl, fun _ => rfl, .void⟩
    have := h .epsilon hc s hs
    rw [parseVerdict_sequence hc.parse, parseVerdict_sequence (hig _ hc).parse] at this
    change andThens [_, _] s = andThens [_, _] s at this
    rw [andThens_pair, andThens_pair, hl, partVerdict_parse hv] at this
    rwa [show partVerdict C .epsilon = .accept from funext he, Verdict.andThen_accept, Verdict.andThen_accept] at this
  · intro h q hc s hs
    rw [parseVerdict_sequence hc.parse, parseVerdict_sequence (hig _ hc).parse]
    show andThens [_, _] s = andThens [_, _] s
    rw [andThens_pair, andThens_pair, hl]
    congr 1
    by_cases hv : resultFor C p = .void
    · rw [partVerdict_look hv]
    · rw [partVerdict_parse hv, h hv s hs]

omit [LinearOrder α] in
theorem inTurn_valid {ps : List (Parser α)} {s s' : Span} {log : List Call} {vs : List Val} (hs : s.Valid C.mem)
    (h : InTurn (ps.map (partRun C)) s log vs s') : s'.Valid C.mem := by
  induction ps generalizing s log vs with
  | nil => cases h; exact hs
  | cons p ps ih =>
    cases h with
    | cons h1 h2 => exact ih (accept_valid (p := p) hs (by rw [partVerdict, h1]; rfl)) h2

/-- A part without value makes every sequence it stands in fail wherever its own `parse` fails, exactly if its
`lookahead` fails there too. -/
theorem C44_sequence_exactly (p : Parser α) (hp : Compiles C p) (hv : resultFor C p = .void) :
    (∀ before after, Compiles C (.sequence (before ++ p :: after)) →
      ∀ s s1 s2 blog plog vs, s.Valid C.mem → InTurn (before.map (partRun C)) s blog vs s1 →
        ParseFails C p s1 plog s2 → ∃ log, ParseFails C (.sequence (before ++ p :: after)) s log s) ↔
    LookaheadFailsToo C p := by
  constructor
  · intro h s hs log s' hf
    have hc : Compiles C (.sequence ([] ++ p :: [])) := by
      rw [C57_sequence C hp.ctx]
      refine ⟨by simp, fun q hq => ?_⟩
      simp only [List.nil_append, List.mem_singleton] at hq
      subst hq
      exact ⟨hp.wf, hp.ty, fun _ => hp.parse, by rw [hv]; exact .void⟩
    obtain ⟨l, hl⟩ := h [] [] hc s s s' [] log [] hs .nil hf
    obtain ⟨-, before, x, after, blog, plog, vs, s1, s2, he, h1, h2, -⟩ := (C15_sequence_partial C _ hc s s l).2.1 hl
    have hlen := congrArg List.length he
    simp only [List.nil_append, List.length_append, List.length_cons] at hlen
    cases before with
    | cons _ _ => simp at hlen; omega
    | nil =>
      simp only [List.nil_append, List.cons.injEq] at he
      obtain ⟨rfl, -⟩ := he
      cases h1
      rw [partRun, if_pos hv] at h2
      obtain ⟨rfl, h' | h'⟩ := Look_unit h2
      · simp only [true_and] at h'
        subst h'
        have : s' = s2 := ((Parse_good p s2).ok hf).2 rfl
        rw [this]
        exact h2
      · simp at h'
  · intro h before after hc s s1 s2 blog plog vs hs hb hf
    have h2 := h s1 (inTurn_valid C hs hb) _ _ hf
    exact ⟨_, (C15_sequence_partial C _ hc s s _).2.2
      ⟨rfl, before, p, after, blog, [], vs, s1, s2, rfl, hb, by rw [partRun, if_pos hv]; exact h2, rfl⟩⟩

/-- Every choice that compiles fails where the `parse` of all its alternatives fails, if the `lookahead` of those
recorded without index fails there too. -/
theorem C44_every_choice (ps : List (Parser α)) (hc : Compiles C (.choice ps)) (is : List (Option Nat))
    (hr : Recorded (ps.map (resultFor C)) is) (s : Span)
    (hl : ∀ (n : Nat) p, ps[n]? = some p → is[n]? = some none → LookFails C p s [] s)
    (hf : ∀ p ∈ ps, ∃ log, ParseFails C p s log s) : ∃ log, ParseFails C (.choice ps) s log s := by
  obtain ⟨d, hd⟩ := defaultVal_choice hc.parse
  rw [← resultFor_choice, ← isDefault_iff] at hd
  simp only [ParseFails, C60_every_choice C ps hc is hr d hd, firstOf_none, true_and]
  generalize distinct (ps.map (resultFor C)) = us
  clear hc hd hr
  induction ps generalizing is with
  | nil => exact ⟨[], .nil⟩
  | cons p ps ih =>
    cases is with
    | nil => exact ⟨[], .nil⟩
    | cons i is =>
      obtain ⟨l, h⟩ := ih is (fun n q h1 h2 => hl (n + 1) q h1 h2) fun q hq => hf q (by simp [hq])
      obtain ⟨lp, h1⟩ := hf p (by simp)
      cases i with
      | none => exact ⟨_, .cons (mapVal_none.2 (hl 0 p rfl rfl)) h⟩
      | some i => exact ⟨_, .cons (mapVal_none.2 h1) h⟩

/-- An alternative without value makes every choice with one other alternative fail wherever the `parse` of both fails,
exactly if its `lookahead` fails there too. -/
theorem C44_choice_exactly (p : Parser α) (hp : Compiles C p) (hv : resultFor C p = .void) :
    (∀ q, resultFor C q ≠ .void → Compiles C (.choice [p, q]) → ∀ s, s.Valid C.mem →
      (∃ log, ParseFails C p s log s) → (∃ log, ParseFails C q s log s) → ∃ log, ParseFails C (.choice [p, q]) s log s) ↔
    LookaheadFailsToo C p := by
  have hrec : ∀ q, resultFor C q ≠ .void → Recorded ([p, q].map (resultFor C)) [none, some 0] := by
    intro q hq
    rw [C60_recorded, choiceTrait_seq, ← resultsFor_eq, (filterOutVoidDeduplicate_snd (resultsFor C [p, q])).2 (indexable_pair _ _)]
    simp [resultsFor, hv, hq, distinct, wanted]
  constructor
  · intro h s hs log s' hf
    have hs' : s' = s := ((Parse_good p s).ok hf).2 rfl
    subst hs'
    have hq : resultFor C (.anyOf ([] : List α)) = .span := by rw [resultFor]
    have hc : Compiles C (.choice [p, .anyOf []]) := by
      rw [C57_choice C hp.ctx [p, .anyOf []] (indexable_pair _ _)]
      refine ⟨by simp, fun x hx => ?_, fun t ht => ?_⟩
      · simp only [List.mem_cons, List.not_mem_nil, or_false] at hx
        rcases hx with rfl | rfl
        · exact ⟨hp.wf, hp.ty, fun _ => hp.parse⟩
        · exact ⟨rfl, rfl, fun _ => rfl⟩
      · simp only [List.map_cons, List.map_nil, hv, hq] at ht
        cases ht; exact .span
    have hqf : ∃ log, ParseFails C (.anyOf []) s' log s' := by
      refine ⟨[], ?_⟩
      unfold ParseFails
      rw [Parse_class (b := .anyOf []) rfl hs]
      cases s'.elems C.mem <;> rfl
    obtain ⟨l, hl⟩ := h _ (by rw [hq]; nofun) hc s' hs ⟨_, hf⟩ hqf
    obtain ⟨d, hd⟩ := defaultVal_choice hc.parse
    rw [← resultFor_choice, ← isDefault_iff] at hd
    rw [ParseFails, C60_every_choice C _ hc _ (hrec _ (by rw [hq]; nofun)) d hd, firstOf_none] at hl
    obtain ⟨-, hl⟩ := hl
    cases hl with
    | cons h1 h2 =>
      obtain h1 := mapVal_none.1 h1
      obtain ⟨rfl, h' | h'⟩ := Look_unit h1
      · simp only [true_and] at h'
        subst h'
        exact h1
      · simp at h'
  · intro h q hq hc s hs ⟨lp, h1⟩ h2
    refine C44_every_choice C _ hc _ (hrec q hq) s (fun n x hx hn => ?_) (fun x hx => ?_)
    · match n, hx, hn with
      | 0, hx, hn => cases hx; exact h s hs _ _ h1
      | 1, hx, hn => simp at hn
      | n + 2, hx, hn => simp at hx
    · simp only [List.mem_cons, List.not_mem_nil, or_false] at hx
      rcases hx with rfl | rfl
      · exact ⟨_, h1⟩
      · exact h2

theorem exactOn_choice {ps : List (Parser α)} (hc : Compiles C (.choice ps)) (h : ∀ p ∈ ps, LookaheadExactOn C p) :
    LookaheadExactOn C (.choice ps) := by
  intro s hs
  rw [lookVerdict_choice, C11_first_verdict C ps hc _ ((C60_recorded _ _).2 rfl) s fun n p hn _ =>
    h p (List.mem_of_getElem? hn) s hs]
  congr 1
  exact List.map_congr_left fun p hp => h p hp s hs

theorem exactOn_basic {p : Parser α} {b : BasicP α} (hb : p.basic? = some b) : LookaheadExactOn C p := by
  intro s hs
  rw [lookVerdict, parseVerdict, Look_class hb hs, Parse_class hb hs]
  split <;> rfl

theorem exactOn_class {p : Parser α} (h : IsClass p) : LookaheadExactOn C p := by
  obtain ⟨b, hb, -⟩ := class_basic h
  exact exactOn_basic C hb

omit [LinearOrder α] in
theorem alternatives_other {p : Parser α} (h : ∀ ps, p ≠ .choice ps) : alternatives p = [p] := by
  cases p with
  | choice ps => exact (h ps rfl).elim
  | _ => rfl

theorem choiceOp_alternatives (p q : Parser α) : IsClass (choiceOp p q) ∨ choiceOp p q = p ∨
    choiceOp p q = .choice (alternatives p ++ alternatives q) := by
  unfold choiceOp
  split
  · left; split <;> trivial
  · left; split <;> trivial
  · left; split <;> trivial
  · left; split <;> trivial
  · right
    split
    · exact .inl rfl
    · exact .inr rfl
  · next h => right; right; rw [alternatives_other (p := q) fun qs h' => h qs h']; rfl
  · next h => right; right; rw [alternatives_other (p := p) fun qs h' => h qs h']; rfl
  · next h1 h2 _ _ _ _ _ =>
    right
    split
    · exact .inl rfl
    · rw [alternatives_other (p := p) h1, alternatives_other (p := q) h2]; exact .inr rfl

theorem exactOn_alternatives {p : Parser α} (hp : Compiles C p) (h : ∀ x ∈ alternatives p, LookaheadExactOn C x) :
    LookaheadExactOn C p := by
  by_cases hc : ∃ ps, p = .choice ps
  · obtain ⟨ps, rfl⟩ := hc
    exact exactOn_choice C hp h
  · exact h p (by rw [alternatives_other fun ps h => hc ⟨ps, h⟩]; simp)

theorem exactOn_choiceOp {p q : Parser α} (hr : Compiles C (choiceOp p q))
    (h : ∀ x ∈ alternatives p ++ alternatives q, LookaheadExactOn C x) : LookaheadExactOn C (choiceOp p q) := by
  rcases choiceOp_alternatives p q with h1 | h1 | h1
  · exact exactOn_class C h1
  · rw [h1] at hr ⊢
    exact exactOn_alternatives C hr fun x hx => h x (by simp [hx])
  · rw [h1] at hr ⊢
    exact exactOn_choice C hr h

/-- `p | q`, with its rewrites, accepts, rejects, throws and loops on readable input as the plain two-way choice of `p`
and `q`, and as `p`, then `q`, if all alternatives involved are looked ahead exactly: whatever their types. -/
theorem C13_flatten_exact (hu : C.EqUnique) (p q : Parser α) (hp : Compiles C p) (hq : Compiles C q)
    (hc : Compiles C (.choice [p, q])) (hr : Compiles C (choiceOp p q))
    (h : ∀ x ∈ alternatives p ++ alternatives q, LookaheadExactOn C x) (s : Span) (hs : s.Valid C.mem) :
    parseVerdict C (choiceOp p q) s = parseVerdict C (.choice [p, q]) s ∧
    parseVerdict C (choiceOp p q) s = (parseVerdict C p s).orElse (parseVerdict C q s) := by
  have hp' := exactOn_alternatives C hp fun x hx => h x (by simp [hx])
  have hq' := exactOn_alternatives C hq fun x hx => h x (by simp [hx])
  have hc' : LookaheadExactOn C (.choice [p, q]) := exactOn_choice C hc (by
    intro x hx
    simp only [List.mem_cons, List.not_mem_nil, or_false] at hx
    rcases hx with rfl | rfl
    · exact hp'
    · exact hq')
  have hl := C13_lookahead C hu p q hp.wf hq.wf s hs
  rw [← exactOn_choiceOp C hr h s hs, ← hc' s hs, ← hp' s hs, ← hq' s hs]
  exact hl

/-- Regrouping a chain of `|` whose alternatives are looked ahead exactly changes nothing. -/
theorem C13_regroup_exact (hu : C.EqUnique) (p q r : Parser α) (hp : Compiles C p) (hq : Compiles C q)
    (hr : Compiles C r)
    (hl : Compiles C (choiceOp (choiceOp p q) r)) (hl' : Compiles C (choiceOp p (choiceOp q r)))
    (h : ∀ x ∈ alternatives p ++ alternatives q ++ alternatives r, LookaheadExactOn C x) (s : Span)
    (hs : s.Valid C.mem) :
    parseVerdict C (choiceOp (choiceOp p q) r) s = parseVerdict C (choiceOp p (choiceOp q r)) s := by
  have alt : ∀ {a b : Parser α}, (∀ x ∈ alternatives a ++ alternatives b, LookaheadExactOn C x) →
      ∀ x ∈ alternatives (choiceOp a b), LookaheadExactOn C x := by
    intro a b hab x hx
    rcases choiceOp_alternatives a b with h1 | h1 | h1
    · rw [alternatives_other (by rintro ps h; rw [h] at h1; exact h1), List.mem_singleton] at hx
      rw [hx]; exact exactOn_class C h1
    · rw [h1] at hx; exact hab x (by simp [hx])
    · rw [h1] at hx; exact hab x hx
  have h1 : ∀ x ∈ alternatives p ++ alternatives q, LookaheadExactOn C x := fun x hx => h x (by simp at hx; simp; tauto)
  have h2 : ∀ x ∈ alternatives q ++ alternatives r, LookaheadExactOn C x := fun x hx => h x (by simp at hx; simp; tauto)
  rw [← exactOn_choiceOp C hl _ s hs, ← exactOn_choiceOp C hl' _ s hs]
  · exact C13_regroup_lookahead C hu p q r hp.wf hq.wf hr.wf s hs
  · intro x hx
    rcases List.mem_append.1 hx with hx | hx
    · exact h x (by simp [hx])
    · exact alt h2 x hx
  · intro x hx
    rcases List.mem_append.1 hx with hx | hx
    · exact alt h1 x hx
    · exact h x (by simp [hx])

end

-- ignore("x") | "a" | "b": the third alternative is recorded without index, the choice compiles and is no Indexable one
example : let ps := [.ignore (Ex.all "x"), Ex.all "a", Ex.all "b"]
    Recorded (ps.map (resultFor (Ex.ctx "b"))) [none, some 0, none] ∧ Compiles (Ex.ctx "b") (.choice ps) ∧
    IsDefault (Ex.ctx "b") (resultFor (Ex.ctx "b") (.choice ps)) (.span Span.default) ∧
    (∀ p ∈ ps, LookaheadExactOn (Ex.ctx "b") p) ∧
    parseVerdict (Ex.ctx "b") (.choice ps) (Ex.input "b") = .accept ⟨.at 0 1, 0⟩ := by
  refine ⟨(C60_recorded _ _).2 rfl, ⟨Ex.ctx_ok _, rfl, rfl, rfl⟩, .span, fun p hp => ?_, ?_⟩
  · simp only [List.mem_cons, List.not_mem_nil, or_false] at hp
    rcases hp with rfl | rfl | rfl
    · exact fun s _ => (C15_lookahead_exact _ (Ex.all "x")).2.1 s
    · exact exactOn_basic _ rfl
    · exact exactOn_basic _ rfl
  · rw [parseVerdict, Ex.parses (l := []) (r := .ok ⟨some (.span Span.default), ⟨.at 0 1, 0⟩⟩) _ 4 rfl]; rfl

-- the hypotheses of `C13_flatten_exact` for ("x"_ign | "a") and "b", which `C13_flatten_partial` does not cover
example : let p := choiceOp (.ignore (Ex.all "x")) (Ex.all "a")
    Compiles (Ex.ctx "b") p ∧ Compiles (Ex.ctx "b") (Ex.all "b") ∧ Compiles (Ex.ctx "b") (.choice [p, Ex.all "b"]) ∧
    Compiles (Ex.ctx "b") (choiceOp p (Ex.all "b")) ∧
    alternatives p ++ alternatives (Ex.all "b") = [.ignore (Ex.all "x"), Ex.all "a", Ex.all "b"] :=
  ⟨⟨Ex.ctx_ok _, rfl, rfl, rfl⟩, ⟨Ex.ctx_ok _, rfl, rfl, rfl⟩, ⟨Ex.ctx_ok _, rfl, rfl, rfl⟩, ⟨Ex.ctx_ok _, rfl, rfl, rfl⟩, rfl⟩

-- "a" | f("b") | ignore("c") meets the hypotheses of `C60_right_or_default`
example : let ps := [Ex.all "a", .map (Ex.all "b") (.user 0), .ignore (Ex.all "c")]
    Compiles (Ex.ctx "b") (.choice ps) ∧
    (∀ p ∈ ps, ∀ q ∈ ps, resultFor (Ex.ctx "b") p ≠ resultFor (Ex.ctx "b") q →
      (Ex.ctx "b").conv (resultFor (Ex.ctx "b") p) (resultFor (Ex.ctx "b") q) = none) ∧
    Parses (Ex.ctx "b") (.choice ps) (Ex.input "b") [⟨.user 0, [.span ⟨.at 0 0, 1⟩]⟩]
      (.var 1 (.user 0 0 [.span ⟨.at 0 0, 1⟩])) ⟨.at 0 1, 0⟩ := by
  refine ⟨⟨Ex.ctx_ok _, rfl, rfl, rfl⟩, fun p hp q hq _ => ?_, Ex.parses _ 4 rfl⟩
  simp only [List.mem_cons, List.not_mem_nil, or_false] at hp hq
  rcases hp with rfl | rfl | rfl <;> rcases hq with rfl | rfl | rfl <;> rfl

/-- The laws fail for `filter<false>(ignore("a"))`, which compiles and has no value: its `lookahead` does not fail where
its `parse` does. -/
theorem C44_filter_not_exact :
    let p := Parser.filter (.ignore (Ex.all "a")) (.user 2)
    Compiles (Ex.ctx "a") p ∧ resultFor (Ex.ctx "a") p = .void ∧ Compiles (Ex.ctx "a") (.choice [p, p]) ∧
    ¬ LookaheadFailsToo (Ex.ctx "a") p ∧ ¬ LookaheadExactOn (Ex.ctx "a") p := by
  have hf : ParseFails (Ex.ctx "a") (.filter (.ignore (Ex.all "a")) (.user 2)) (Ex.input "a") [⟨.user 2, []⟩] (Ex.input "a") :=
    Ex.parses _ 4 rfl
  have hl : Looks (Ex.ctx "a") (.filter (.ignore (Ex.all "a")) (.user 2)) (Ex.input "a") [] ⟨.at 0 1, 0⟩ := Ex.looks _ 4 rfl
  have hs : (Ex.input "a").Valid (Ex.ctx "a").mem := by decide
  refine ⟨⟨Ex.ctx_ok _, rfl, rfl, rfl⟩, rfl, ⟨Ex.ctx_ok _, rfl, rfl, rfl⟩, fun h => ?_, fun h => ?_⟩
  · have := h _ hs _ _ hf
    rw [LookFails, hl] at this
    simp at this
  · have := h _ hs
    rw [lookVerdict, parseVerdict, hl, hf] at this
    simp [verdict] at this

/-- … and hold, for instance, for `complete(ignore("b"))`. -/
theorem C44_complete_exact (text : String) :
    let p := Parser.complete (.ignore (Ex.all "b"))
    Compiles (Ex.ctx text) p ∧ resultFor (Ex.ctx text) p = .void ∧ LookaheadFailsToo (Ex.ctx text) p := by
  refine ⟨⟨Ex.ctx_ok _, rfl, rfl, rfl⟩, rfl, fun s _ log s' h => ?_⟩
  exact (C05_lookahead_partial _ _ (plain_of Ex.ctx_plain rfl) s).2.1 _ _ h

end Tok3n
