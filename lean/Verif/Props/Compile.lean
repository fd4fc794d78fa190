import Verif.Proof.Compile
import Verif.Proof.Sequence
import Verif.Spec.Example
/-
C57: what is built from parsers that compile, compiles.
-/

namespace Tok3n

variable {α β : Type}

theorem Parser.contains_iff {p q : Parser α} : p.Contains q ↔ q = p ∨ ∃ r ∈ p.parts, r.Contains q := by
  constructor
  · intro h
    cases h.cases_head with
    | inl h => exact .inl h.symm
    | inr h => obtain ⟨r, h1, h2⟩ := h; exact .inr ⟨r, h1, h2⟩
  · rintro (rfl | ⟨r, h1, h2⟩)
    · exact .refl
    · exact .head h1 h2

section
variable [LinearOrder α] (C : Ctx α β)

mutual
theorem wf_iff : (p : Parser α) → (p.wf = true ↔ ∀ q, p.Contains q → ClassOK q)
  | .anyOf arr => by
    simp [Parser.wf, Parser.contains_iff (p := .anyOf _), Parser.parts, ClassOK, isSortedAndUniqued_iff]
  | .noneOf arr => by
    simp [Parser.wf, Parser.contains_iff (p := .noneOf _), Parser.parts, ClassOK, isSortedAndUniqued_iff]
  | .allOf _ => by simp [Parser.wf, Parser.contains_iff (p := .allOf _), Parser.parts, ClassOK]
  | .anything => by simp [Parser.wf, Parser.contains_iff (p := .anything), Parser.parts, ClassOK]
  | .epsilon => by simp [Parser.wf, Parser.contains_iff (p := .epsilon), Parser.parts, ClassOK]
  | .custom _ => by simp [Parser.wf, Parser.contains_iff (p := .custom _), Parser.parts, ClassOK]
  | .choice ps => by
    have ih := wfs_iff' ps
    simp only [Parser.wf, Bool.and_eq_true, Bool.not_eq_true', List.isEmpty_eq_false_iff, ih,
      Parser.contains_iff (p := .choice _), Parser.parts]
    exact ⟨fun h q hq => by
      rcases hq with rfl | ⟨r, hr, hq⟩
      · exact h.1
      · exact h.2 r hr q hq, fun h => ⟨h _ (.inl rfl), fun p hp q hq => h q (.inr ⟨p, hp, hq⟩)⟩⟩
  | .sequence ps => by
    have ih := wfs_iff' ps
    simp only [Parser.wf, Bool.and_eq_true, Bool.not_eq_true', List.isEmpty_eq_false_iff, ih,
      Parser.contains_iff (p := .sequence _), Parser.parts]
    exact ⟨fun h q hq => by
      rcases hq with rfl | ⟨r, hr, hq⟩
      · exact h.1
      · exact h.2 r hr q hq, fun h => ⟨h _ (.inl rfl), fun p hp q hq => h q (.inr ⟨p, hp, hq⟩)⟩⟩
  | .maybe p => by
    simp [Parser.wf, wf_iff p, Parser.contains_iff (p := .maybe _), Parser.parts, ClassOK]
  | .exactly p n => by
    simp [Parser.wf, wf_iff p, Parser.contains_iff (p := .exactly _ _), Parser.parts, ClassOK, and_comm]
  | .oneOrMore p => by
    simp [Parser.wf, wf_iff p, Parser.contains_iff (p := .oneOrMore _), Parser.parts, ClassOK]
  | .zeroOrMore p => by
    simp [Parser.wf, wf_iff p, Parser.contains_iff (p := .zeroOrMore _), Parser.parts, ClassOK]
  | .delimit p d => by
    simp [Parser.wf, wf_iff p, wf_iff d, Parser.contains_iff (p := .delimit _ _), Parser.parts, ClassOK, or_imp,
      forall_and]
  | .ignore p => by
    simp [Parser.wf, wf_iff p, Parser.contains_iff (p := .ignore _), Parser.parts, ClassOK]
  | .complete p => by
    simp [Parser.wf, wf_iff p, Parser.contains_iff (p := .complete _), Parser.parts, ClassOK]
  | .join p => by
    simp [Parser.wf, wf_iff p, Parser.contains_iff (p := .join _), Parser.parts, ClassOK]
  | .map p f => by
    simp [Parser.wf, wf_iff p, Parser.contains_iff (p := .map _ _), Parser.parts, ClassOK]
  | .filter p f => by
    simp [Parser.wf, wf_iff p, Parser.contains_iff (p := .filter _ _), Parser.parts, ClassOK]
  | .named p n => by
    simp [Parser.wf, wf_iff p, Parser.contains_iff (p := .named _ _), Parser.parts, ClassOK]
theorem wfs_iff' : (ps : List (Parser α)) →
    (Parser.wfs ps = true ↔ ∀ p ∈ ps, ∀ q, p.Contains q → ClassOK q)
  | [] => by simp [Parser.wfs]
  | p :: ps => by simp [Parser.wfs, wf_iff p, wfs_iff' ps]
end

/-- The classes of an expression can be instantiated exactly if each gets what it asks for; a call of `lookahead()` asks
for nothing else.  The literals compile whenever they can be instantiated. -/
theorem C57_classes (p : Parser α) : (p.wf = true ↔ ∀ q, p.Contains q → ClassOK q) ∧
    (C.OK → IsBasic p ∨ p = .epsilon → (Compiles C p ↔ ClassOK p)) := by
  refine ⟨wf_iff p, fun hC h => ?_⟩
  have key : ∀ q : Parser α, Compiles C q ↔ q.wf = true ∧ tyOK C q = true ∧ parseOK C q = true := fun q =>
    ⟨fun h => ⟨h.wf, h.ty, h.parse⟩, fun h => ⟨hC, h.1, h.2.1, h.2.2⟩⟩
  rcases h with h | rfl
  · match p, h with
    | .anyOf _, _ | .noneOf _, _ => simp [key, Parser.wf, tyOK, parseOK, ClassOK, isSortedAndUniqued_iff]
    | .allOf _, _ | .anything, _ => simp [key, Parser.wf, tyOK, parseOK, ClassOK]
  · simp [key, Parser.wf, tyOK, parseOK, ClassOK]

theorem parseOK_sequence_iff {ps : List (Parser α)} (ht : tysOK C ps = true) : parseOK C (.sequence ps) = true ↔
    ∀ p ∈ ps, (resultFor C p ≠ .void → parseOK C p = true) ∧ HasDefault C (resultFor C p) := by
  have hp : parsesOK C ps (sequenceTrait (resultsFor C ps)).seq = true ↔
      ∀ p ∈ ps, resultFor C p ≠ .void → parseOK C p = true := by
    rw [sequenceTrait_seq]
    exact parsesOK_iff (by rw [positions_length', resultsFor_length]) (positions_none 0)
  have hd : (defaultVal C (sequenceTrait (resultsFor C ps)).ty).isSome = true ↔
      ∀ p ∈ ps, HasDefault C (resultFor C p) := by
    rw [sequenceTrait_ty]
    have := hasDefault_sequenceType (C := C) (resultsFor C ps)
    rw [hasDefault_iff, resultsFor_eq] at this
    rw [resultsFor_eq, this]; simp
  simp only [parseOK, Bool.and_eq_true]
  constructor
  · exact fun h3 p hm => ⟨hp.1 h3.2 p hm, hd.1 h3.1.1.2 p hm⟩
  · exact fun h => ⟨⟨⟨ht, hd.2 fun p hm => (h p hm).2⟩, elementsOK_sequence _⟩, hp.2 fun p hm => (h p hm).1⟩

/-- A sequence compiles exactly if it has parts, their types are known, those with a value can be parsed, and the
values can be default constructed.  Nothing is asked of the combination. -/
theorem C57_sequence (hC : C.OK) (ps : List (Parser α)) :
    Compiles C (.sequence ps) ↔ ps ≠ [] ∧ ∀ p ∈ ps, p.wf = true ∧ tyOK C p = true ∧
      (resultFor C p ≠ .void → parseOK C p = true) ∧ HasDefault C (resultFor C p) := by
  constructor
  · rintro ⟨-, h1, h2, h3⟩
    simp only [Parser.wf, Bool.and_eq_true, Bool.not_eq_true', List.isEmpty_eq_false_iff] at h1
    exact ⟨h1.1, fun p hm => ⟨wfs_iff.1 h1.2 p hm, tysOK_iff.1 h2 p hm, (parseOK_sequence_iff C h2).1 h3 p hm⟩⟩
  · rintro ⟨h0, h⟩
    have ht : tysOK C ps = true := tysOK_iff.2 fun p hm => (h p hm).2.1
    refine ⟨hC, ?_, ht, (parseOK_sequence_iff C ht).2 fun p hm => (h p hm).2.2⟩
    simp only [Parser.wf, Bool.and_eq_true, Bool.not_eq_true', List.isEmpty_eq_false_iff]
    exact ⟨h0, wfs_iff.2 fun p hm => (h p hm).1⟩

/-- A choice whose types are `Indexable` compiles exactly if it has alternatives, their types are known, those with a
value can be parsed, and the value of the first that has one can be default constructed. -/
theorem C57_choice (hC : C.OK) (ps : List (Parser α)) (hi : Indexable (ps.map (resultFor C))) :
    Compiles C (.choice ps) ↔ ps ≠ [] ∧ (∀ p ∈ ps, p.wf = true ∧ tyOK C p = true ∧
      (resultFor C p ≠ .void → parseOK C p = true)) ∧
      ∀ t, (distinct (ps.map (resultFor C))).head? = some t → HasDefault C t := by
  rw [← resultsFor_eq] at hi ⊢
  have hp : parsesOK C ps (choiceTrait (resultsFor C ps)).seq = true ↔
      ∀ p ∈ ps, resultFor C p ≠ .void → parseOK C p = true := by
    rw [choiceTrait_seq, (filterOutVoidDeduplicate_snd _).2 hi]
    exact parsesOK_iff (by rw [List.length_map, resultsFor_length]) wanted_none
  have hd : (defaultVal C (choiceTrait (resultsFor C ps)).ty).isSome = true ↔
      ∀ t, (distinct (resultsFor C ps)).head? = some t → HasDefault C t := by
    rw [choiceTrait_ty, ← hasDefault_iff]; exact hasDefault_choiceType _
  constructor
  · rintro ⟨-, h1, h2, h3⟩
    simp only [Parser.wf, Bool.and_eq_true, Bool.not_eq_true', List.isEmpty_eq_false_iff] at h1
    simp only [parseOK, Bool.and_eq_true] at h3
    exact ⟨h1.1, fun p hm => ⟨wfs_iff.1 h1.2 p hm, tysOK_iff.1 h2 p hm, hp.1 h3.2 p hm⟩, hd.1 h3.1.1.2⟩
  · rintro ⟨h0, h, h'⟩
    refine ⟨hC, ?_, tysOK_iff.2 fun p hm => (h p hm).2.1, ?_⟩
    · simp only [Parser.wf, Bool.and_eq_true, Bool.not_eq_true', List.isEmpty_eq_false_iff]
      exact ⟨h0, wfs_iff.2 fun p hm => (h p hm).1⟩
    · simp only [parseOK, Bool.and_eq_true]
      exact ⟨⟨⟨tysOK_iff.2 fun p hm => (h p hm).2.1, hd.2 h'⟩, elementsOK_choice hi⟩,
        hp.2 fun p hm => (h p hm).2.2⟩

theorem default_exactly_iff (t : Ty) (n : Nat) :
    (defaultVal C (voidOr (.arr · n) t)).isSome = true ↔ HasDefault C t := by
  unfold voidOr
  split
  · next h => rw [h]; exact ⟨fun _ => .void, fun _ => rfl⟩
  · rw [← hasDefault_iff]; exact hasDefault_arr

/-- The other class templates. -/
theorem C57_others (hC : C.OK) (p d : Parser α) (n : Nat) (f : Fn) (name : Name) :
    (Compiles C (.maybe p) ↔ Compiles C p) ∧ (Compiles C (.oneOrMore p) ↔ Compiles C p) ∧
    (Compiles C (.zeroOrMore p) ↔ Compiles C p) ∧ (Compiles C (.complete p) ↔ Compiles C p) ∧
    (Compiles C (.named p name) ↔ Compiles C p) ∧ (Compiles C (.ignore p) ↔ p.wf = true) ∧
    (Compiles C (.delimit p d) ↔ Compiles C p ∧ Compiles C d) ∧
    (Compiles C (.exactly p n) ↔ n ≠ 0 ∧ Compiles C p ∧ HasDefault C (resultFor C p)) ∧
    (Compiles C (.join p) ↔ Compiles C p ∧ Joinable C (resultFor C p)) ∧
    (Compiles C (.map p f) ↔ Compiles C p ∧ ∃ ts t, Given (resultFor C p) ts ∧ Returns C f ts t) ∧
    (Compiles C (.filter p f) ↔ Compiles C p ∧
      ∃ ts t, Given (resultFor C p) ts ∧ Returns C f ts t ∧ C.boolTy t = true) ∧
    ∀ k, Compiles C (.custom k : Parser α) ↔ Converts C (resultFor C (C.custom k).body) (C.custom k).ty := by
  have key : ∀ q : Parser α, Compiles C q ↔ q.wf = true ∧ tyOK C q = true ∧ parseOK C q = true := fun q =>
    ⟨fun h => ⟨h.wf, h.ty, h.parse⟩, fun h => ⟨hC, h.1, h.2.1, h.2.2⟩⟩
  have he := default_exactly_iff C (resultFor C p) n
  simp only [key, Parser.wf, tyOK, parseOK, Bool.and_eq_true, he, bne_iff_ne, Option.isSome_iff_exists,
    joinable_iff, given_iff, returns_iff, converts_iff, exists_eq_left, exists_and_left]
  refine ⟨by tauto, by tauto, by tauto, by tauto, by tauto, by tauto, by tauto, by tauto, by tauto, by tauto, ?_,
    fun k => ?_⟩
  · cases fnTy C f (argTys (resultFor C p)) with
    | none => simp
    | some t => simp; tauto
  · simp [Option.isSome_iff_exists, and_assoc]

mutual
/-- an expression all of whose class templates get what they ask for -/
theorem compiles_of_accepts (hC : C.OK) (hD : C.Defaults) : (p : Parser α) →
    (∀ q, p.Contains q → Accepts C q) → Compiles C p ∧ HasDefault C (resultFor C p)
  | .anyOf arr, h => ⟨⟨hC, (isSortedAndUniqued_iff _).2 (h _ .refl), rfl, rfl⟩, .span⟩
  | .noneOf arr, h => ⟨⟨hC, (isSortedAndUniqued_iff _).2 (h _ .refl), rfl, rfl⟩, .span⟩
  | .allOf arr, _ => ⟨⟨hC, rfl, rfl, rfl⟩, .span⟩
  | .anything, _ => ⟨⟨hC, rfl, rfl, rfl⟩, .span⟩
  | .epsilon, _ => ⟨⟨hC, rfl, rfl, rfl⟩, .void⟩
  | .choice ps, h => by
    have ih := compile_of_accepts hC hD ps fun p hp q hq => h q (.head hp hq)
    obtain ⟨h0, hi⟩ := h _ .refl
    have hd : ∀ t, (distinct (ps.map (resultFor C))).head? = some t → HasDefault C t := by
      intro t ht
      obtain ⟨p, hp, rfl⟩ := List.mem_map.1 ((mem_distinct _ _).1 (List.mem_of_head? ht)).1
      exact (ih p hp).2
    refine ⟨(C57_choice C hC ps hi).2 ⟨h0, fun p hp => ?_, hd⟩, ?_⟩
    · have := (ih p hp).1
      exact ⟨this.wf, this.ty, fun _ => this.parse⟩
    · rw [resultFor_choice, hasDefault_choiceType, resultsFor_eq]; exact hd
  | .sequence ps, h => by
    have ih := compile_of_accepts hC hD ps fun p hp q hq => h q (.head hp hq)
    refine ⟨(C57_sequence C hC ps).2 ⟨h _ .refl, fun p hp => ?_⟩, ?_⟩
    · have := ih p hp
      exact ⟨this.1.wf, this.1.ty, fun _ => this.1.parse, this.2⟩
    · rw [resultFor_sequence, hasDefault_sequenceType, resultsFor_eq]
      simpa using fun p hp => (ih p hp).2
  | .maybe p, h => by
    have ih := compiles_of_accepts hC hD p fun q hq => h q (.head (by simp [Parser.parts]) hq)
    refine ⟨⟨hC, ih.1.wf, ih.1.ty, by simp [parseOK, ih.1.ty, ih.1.parse]⟩, ?_⟩
    rw [resultFor, voidOr]; split <;> constructor
  | .exactly p n, h => by
    have ih := compiles_of_accepts hC hD p fun q hq => h q (.head (by simp [Parser.parts]) hq)
    refine ⟨(C57_others C hC p p n (.user 0) ⟨0, []⟩).2.2.2.2.2.2.2.1.2 ⟨h _ .refl, ih.1, ih.2⟩, ?_⟩
    rw [resultFor, voidOr]; split
    · exact .void
    · exact .arr ih.2
  | .oneOrMore p, h => by
    have ih := compiles_of_accepts hC hD p fun q hq => h q (.head (by simp [Parser.parts]) hq)
    refine ⟨⟨hC, ih.1.wf, ih.1.ty, by simp [parseOK, ih.1.ty, ih.1.parse]⟩, ?_⟩
    rw [resultFor, voidOr]; split <;> constructor
  | .zeroOrMore p, h => by
    have ih := compiles_of_accepts hC hD p fun q hq => h q (.head (by simp [Parser.parts]) hq)
    refine ⟨⟨hC, ih.1.wf, ih.1.ty, by simp [parseOK, ih.1.ty, ih.1.parse]⟩, ?_⟩
    rw [resultFor, voidOr]; split <;> constructor
  | .delimit p d, h => by
    have ih := compiles_of_accepts hC hD p fun q hq => h q (.head (by simp [Parser.parts]) hq)
    have ih' := compiles_of_accepts hC hD d fun q hq => h q (.head (by simp [Parser.parts]) hq)
    refine ⟨(C57_others C hC p d 0 (.user 0) ⟨0, []⟩).2.2.2.2.2.2.1.2 ⟨ih.1, ih'.1⟩, ?_⟩
    rw [resultFor, delimitTy]
    split <;> split <;> first | exact .void | exact .vec | exact .pair .vec .vec
  | .ignore p, h => by
    have ih := compiles_of_accepts hC hD p fun q hq => h q (.head (by simp [Parser.parts]) hq)
    exact ⟨⟨hC, ih.1.wf, rfl, rfl⟩, .void⟩
  | .complete p, h => by
    have ih := compiles_of_accepts hC hD p fun q hq => h q (.head (by simp [Parser.parts]) hq)
    exact ⟨⟨hC, ih.1.wf, ih.1.ty, by simp [parseOK, ih.1.ty, ih.1.parse]⟩, ih.2⟩
  | .join p, h => by
    have ih := compiles_of_accepts hC hD p fun q hq => h q (.head (by simp [Parser.parts]) hq)
    have hj : joinable C (resultFor C p) = true := joinable_iff.1 (h _ .refl)
    exact ⟨⟨hC, ih.1.wf, rfl, by simp [parseOK, ih.1.ty, ih.1.parse, hj]⟩, .span⟩
  | .map p f, h => by
    have ih := compiles_of_accepts hC hD p fun q hq => h q (.head (by simp [Parser.parts]) hq)
    obtain ⟨ts, t, hg, hr⟩ : ∃ ts t, Given (resultFor C p) ts ∧ Returns C f ts t := h _ .refl
    have ht := returns_iff.1 hr
    rw [given_iff.1 hg] at ht
    refine ⟨⟨hC, ih.1.wf, by simp [tyOK, ih.1.ty, ht], by simp [parseOK, tyOK, ih.1.ty, ih.1.parse, ht]⟩, ?_⟩
    rw [resultFor, mapTy, ht]
    exact hD.fn _ _ _ hr
  | .filter p f, h => by
    have ih := compiles_of_accepts hC hD p fun q hq => h q (.head (by simp [Parser.parts]) hq)
    obtain ⟨ts, t, hg, hr, hb⟩ : ∃ ts t, Given (resultFor C p) ts ∧ Returns C f ts t ∧ C.boolTy t = true := h _ .refl
    have ht := returns_iff.1 hr
    rw [given_iff.1 hg] at ht
    exact ⟨⟨hC, ih.1.wf, by simp [tyOK, ih.1.ty, ht, hb], by simp [parseOK, tyOK, ih.1.ty, ih.1.parse, ht, hb]⟩, ih.2⟩
  | .named p n, h => by
    have ih := compiles_of_accepts hC hD p fun q hq => h q (.head (by simp [Parser.parts]) hq)
    exact ⟨⟨hC, ih.1.wf, ih.1.ty, by simp [parseOK, ih.1.ty, ih.1.parse]⟩, ih.2⟩
  | .custom k, h =>
    ⟨((C57_others C hC .epsilon .epsilon 0 (.user 0) ⟨0, []⟩).2.2.2.2.2.2.2.2.2.2.2 k).2 (h _ .refl), hD.custom k⟩
theorem compile_of_accepts (hC : C.OK) (hD : C.Defaults) : (ps : List (Parser α)) →
    (∀ p ∈ ps, ∀ q, p.Contains q → Accepts C q) → ∀ p ∈ ps, Compiles C p ∧ HasDefault C (resultFor C p)
  | [], _ => by simp
  | p :: ps, h => by
    have h1 := compiles_of_accepts hC hD p (h p (by simp))
    have h2 := compile_of_accepts hC hD ps fun q hq => h q (by simp [hq])
    simpa using ⟨h1, h2⟩
end

/-- An expression of any size compiles if each class template in it gets what it asks for (`Accepts`): callbacks that
take the value they are given, joinable values below `join`, choices whose types are `Indexable`, a repetition
count that is not zero. -/
theorem C57_expressions (hC : C.OK) (hD : C.Defaults) (p : Parser α) (h : ∀ q, p.Contains q → Accepts C q) :
    Compiles C p := (compiles_of_accepts C hC hD p h).1

/-- What the operators make of parsers that compile compiles.  `|` takes the alternatives out of choices, so their types
matter as they stand in the combined choice. -/
theorem C57_operators (p q : Parser α) (hp : Compiles C p) (hq : Compiles C q)
    (hdp : HasDefault C (resultFor C p)) (hdq : HasDefault C (resultFor C q)) :
    Compiles C (sequenceOp p q) ∧ Compiles C (maybeOp p) ∧ Compiles C (oneOrMoreOp p) ∧ Compiles C (zeroOrMoreOp p) ∧
    (∀ r, notOp p = some r → Compiles C r) ∧
    ((∀ ps, q = .choice ps ∨ choiceOp p q = .choice ps → Indexable (ps.map (resultFor C))) →
      Compiles C (choiceOp p q)) := by
  have hC := hp.ctx
  have part : ∀ {r}, Compiles C r → HasDefault C (resultFor C r) → r.wf = true ∧ tyOK C r = true ∧
      (resultFor C r ≠ .void → parseOK C r = true) ∧ HasDefault C (resultFor C r) :=
    fun h h' => ⟨h.wf, h.ty, fun _ => h.parse, h'⟩
  have alt : ∀ {r}, Compiles C r → r.wf = true ∧ tyOK C r = true ∧ (resultFor C r ≠ .void → parseOK C r = true) :=
    fun h => ⟨h.wf, h.ty, fun _ => h.parse⟩
  have inner : ∀ {r}, (p = .maybe r ∨ p = .oneOrMore r ∨ p = .zeroOrMore r) → Compiles C r := by
    rintro r (rfl | rfl | rfl)
    · exact (C57_others C hC r r 0 (.user 0) ⟨0, []⟩).1.1 hp
    · exact (C57_others C hC r r 0 (.user 0) ⟨0, []⟩).2.1.1 hp
    · exact (C57_others C hC r r 0 (.user 0) ⟨0, []⟩).2.2.1.1 hp
  have mk : ∀ {r}, Compiles C r → Compiles C (.maybe r) ∧ Compiles C (.oneOrMore r) ∧ Compiles C (.zeroOrMore r) :=
    fun {r} h => have k := C57_others C hC r r 0 (.user 0) ⟨0, []⟩
      ⟨k.1.2 h, k.2.1.2 h, k.2.2.1.2 h⟩
  refine ⟨?_, ?_, ?_, ?_, ?_, ?_⟩
  · have h := sequenceOp_case p q
    generalize sequenceOp p q = r at h
    cases h with
    | lit h1 h2 => exact ⟨hC, rfl, rfl, rfl⟩
    | both h1 h2 =>
      subst h1 h2
      have h1 := (C57_sequence C hC _).1 hp
      have h2 := (C57_sequence C hC _).1 hq
      refine (C57_sequence C hC _).2 ⟨by simp [h1.1], fun r hr => ?_⟩
      rcases List.mem_append.1 hr with hr | hr
      · exact h1.2 r hr
      · exact h2.2 r hr
    | left h1 =>
      subst h1
      have h1 := (C57_sequence C hC _).1 hp
      refine (C57_sequence C hC _).2 ⟨by simp, fun r hr => ?_⟩
      rcases List.mem_append.1 hr with hr | hr
      · exact h1.2 r hr
      · rw [List.mem_singleton.1 hr]; exact part hq hdq
    | right h1 =>
      subst h1
      have h2 := (C57_sequence C hC _).1 hq
      refine (C57_sequence C hC _).2 ⟨by simp, fun r hr => ?_⟩
      rcases List.mem_cons.1 hr with hr | hr
      · rw [hr]; exact part hp hdp
      · exact h2.2 r hr
    | plain =>
      refine (C57_sequence C hC _).2 ⟨by simp, fun r hr => ?_⟩
      rcases List.mem_cons.1 hr with hr | hr
      · rw [hr]; exact part hp hdp
      · rw [List.mem_singleton.1 hr]; exact part hq hdq
  · unfold maybeOp
    split
    · exact hp
    · exact (mk (inner (.inr (.inl rfl)))).2.2
    · exact hp
    · exact (mk hp).1
  · unfold oneOrMoreOp
    split
    · exact (mk (inner (.inl rfl))).2.2
    · exact hp
    · exact hp
    · exact (mk hp).2.1
  · unfold zeroOrMoreOp
    split
    · exact (mk (inner (.inl rfl))).2.2
    · exact (mk (inner (.inr (.inl rfl)))).2.2
    · exact hp
    · exact (mk hp).2.2
  · intro r hr
    unfold notOp at hr
    split at hr
    · cases hr; exact ⟨hC, hp.wf, rfl, rfl⟩
    · cases hr; exact ⟨hC, hp.wf, rfl, rfl⟩
    · cases hr
  · intro hi
    have hiq := fun ps h => hi ps (.inl h)
    replace hi := fun ps h => hi ps (.inr h)
    have h := choiceOp_case p q
    have hwf := choiceOp_wf hp.wf hq.wf
    generalize choiceOp p q = r at h hi hwf
    cases h with
    | cls h1 h2 =>
      have hc : IsClass (choiceOp p q) := by
        match p, q, h1, h2 with
        | .anyOf _, .anyOf _, _, _ | .noneOf _, .noneOf _, _, _ | .anyOf _, .noneOf _, _, _
        | .noneOf _, .anyOf _, _, _ => simp only [choiceOp]; split <;> trivial
      generalize choiceOp p q = r at hc hwf
      match r, hc with
      | .anyOf _, _ | .noneOf _, _ => exact ⟨hC, hwf, rfl, rfl⟩
    | same h => exact hp
    | both h1 h2 =>
      subst h1 h2
      have hi' := hi _ rfl
      have h1 := (C57_choice C hC _ (indexable_prefix (by rw [← List.map_append]; exact hi'))).1 hp
      have h2 := (C57_choice C hC _ (hiq _ rfl)).1 hq
      refine (C57_choice C hC _ hi').2 ⟨by simp [h1.1], fun r hr => ?_, ?_⟩
      · rcases List.mem_append.1 hr with hr | hr
        · exact h1.2.1 r hr
        · exact h2.2.1 r hr
      · intro t ht
        rw [resultFor_choice, hasDefault_find, resultsFor_eq] at hdp hdq
        rw [head?_distinct, List.map_append, List.find?_append, Option.or_eq_some_iff] at ht
        rcases ht with ht | ht
        · exact hdp t ht
        · exact hdq t ht.2
    | left h1 =>
      subst h1
      have hi' := hi _ rfl
      have h1 := (C57_choice C hC _ (indexable_prefix (by rw [← List.map_append]; exact hi'))).1 hp
      refine (C57_choice C hC _ hi').2 ⟨by simp, fun r hr => ?_, ?_⟩
      · rcases List.mem_append.1 hr with hr | hr
        · exact h1.2.1 r hr
        · rw [List.mem_singleton.1 hr]; exact alt hq
      · intro t ht
        rw [resultFor_choice, hasDefault_find, resultsFor_eq] at hdp
        rw [head?_distinct, List.map_append, List.find?_append, Option.or_eq_some_iff] at ht
        rcases ht with ht | ht
        · exact hdp t ht
        · rw [← List.mem_singleton.1 (List.mem_of_find?_eq_some ht.2)] at hdq; exact hdq
    | right h1 =>
      subst h1
      have hi' := hi _ rfl
      have h2 := (C57_choice C hC _ (hiq _ rfl)).1 hq
      refine (C57_choice C hC _ hi').2 ⟨by simp, fun r hr => ?_, ?_⟩
      · rcases List.mem_cons.1 hr with hr | hr
        · rw [hr]; exact alt hp
        · exact h2.2.1 r hr
      · intro t ht
        rw [resultFor_choice, hasDefault_find, resultsFor_eq] at hdq
        rw [head?_distinct, List.map_cons, List.find?_cons] at ht
        split at ht
        · cases ht; exact hdp
        · exact hdq t ht
    | plain =>
      have hi' := hi _ rfl
      refine (C57_choice C hC _ hi').2 ⟨by simp, fun r hr => ?_, ?_⟩
      · rcases List.mem_cons.1 hr with hr | hr
        · rw [hr]; exact alt hp
        · rw [List.mem_singleton.1 hr]; exact alt hq
      · intro t ht
        have := ((mem_distinct _ _).1 (List.mem_of_head? ht)).1
        simp only [List.map_cons, List.map_nil, List.mem_cons, List.not_mem_nil, or_false] at this
        rcases this with rfl | rfl
        · exact hdp
        · exact hdq

end

/-- Without `Indexable` it is false: every alternative of
`ignore("a") | ("b" % map) | "c" | "d"` compiles, but `emplace<0>` of the variant of the callback's type and a span gets a
span. -/
theorem C57_choice_refuted (text : String) :
    let ps := [.ignore (Ex.all "a"), .map (Ex.all "b") (.user 0), Ex.all "c", Ex.all "d"]
    (∀ p ∈ ps, Compiles (Ex.ctx text) p) ∧ ¬ Compiles (Ex.ctx text) (.choice ps) ∧
    Compiles (Ex.ctx text) (.choice (ps.drop 1)) := by
  refine ⟨?_, ?_, ⟨Ex.ctx_ok _, rfl, rfl, rfl⟩⟩
  · simp only [List.mem_cons, List.not_mem_nil, or_false, forall_eq_or_imp, forall_eq]
    exact ⟨⟨Ex.ctx_ok _, rfl, rfl, rfl⟩, ⟨Ex.ctx_ok _, rfl, rfl, rfl⟩, ⟨Ex.ctx_ok _, rfl, rfl, rfl⟩,
      ⟨Ex.ctx_ok _, rfl, rfl, rfl⟩⟩
  · intro h
    have h3 := h.parse
    revert h3
    show ¬ (parseOK (Ex.ctx text) _ = true)
    rw [show parseOK (Ex.ctx text) (.choice [.ignore (Ex.all "a"), .map (Ex.all "b") (.user 0), Ex.all "c", Ex.all "d"]) =
      false from rfl]
    nofun

theorem Ex.ctx_defaults (text : String) : (Ex.ctx text).Defaults := by
  refine ⟨fun f ts t h => ?_, fun k => ?_⟩
  · induction h with
    | @user k ts t h =>
      match k with
      | 0 | 1 | 2 | 3 => cases h; exact .user rfl
      | n + 4 =>
        simp only [Ex.ctx, Option.ite_none_right_eq_some, Option.some.injEq] at h
        obtain ⟨-, rfl⟩ := h; exact .span
    | apply _ _ ih => exact ih
    | const => exact .user rfl
    | construct h =>
      simp only [Ex.ctx, Bool.and_eq_true, beq_iff_eq] at h
      rw [h.1]; exact .user rfl
    | deflt h => exact h
  · match k with
    | 0 => exact .user rfl
    | _ + 1 => exact .span

/-- void parts before, between and behind parts with values -/
example (text : String) : Compiles (Ex.ctx text) (.sequence [.ignore (Ex.all "a"), .map (Ex.all "b") (.user 0),
    .ignore (Ex.all "c"), .choice [Ex.all "d", .custom 0], .exactly (Ex.any "ef") 3, .epsilon]) := by
  have hC := Ex.ctx_ok text
  refine (C57_sequence _ hC _).2 ⟨by simp, ?_⟩
  simp only [List.mem_cons, List.not_mem_nil, or_false, forall_eq_or_imp, forall_eq]
  exact ⟨⟨rfl, rfl, fun _ => rfl, .void⟩, ⟨rfl, rfl, fun _ => rfl, .user rfl⟩, ⟨rfl, rfl, fun _ => rfl, .void⟩,
    ⟨rfl, rfl, fun _ => rfl, .var .span⟩, ⟨rfl, rfl, fun _ => rfl, .arr .span⟩, ⟨rfl, rfl, fun _ => rfl, .void⟩⟩

/-- the hypothesis of `C57_expressions` for `("b" % map) >> *("c" | ignore("d"))` -/
example (text : String) : ∀ q, (Parser.sequence [.map (Ex.all "b") (.user 0),
    .zeroOrMore (.choice [Ex.all "c", .ignore (Ex.all "d")])]).Contains q → Accepts (Ex.ctx text) q := by
  intro q h
  simp only [Parser.contains_iff (p := .sequence _), Parser.contains_iff (p := .map _ _),
    Parser.contains_iff (p := .zeroOrMore _), Parser.contains_iff (p := .choice _),
    Parser.contains_iff (p := .ignore _), Parser.contains_iff (p := .allOf _), Parser.parts, List.mem_cons,
    List.not_mem_nil, or_false, exists_eq_or_imp, exists_eq_left, false_and, exists_false] at h
  rcases h with rfl | (rfl | rfl) | rfl | rfl | rfl | rfl | rfl
  · show _ :: _ ≠ []; simp
  · exact ⟨_, _, .value nofun, .user rfl⟩
  · trivial
  · trivial
  · exact ⟨by simp, indexable_pair _ _⟩
  · trivial
  · trivial
  · trivial

end Tok3n
