import Verif.Spec.ValueType
/-
C68: one element type throughout.
-/

namespace Tok3n

open Mixed

variable {E : Type} {α : E → Type} [DecidableEq E] (T : Customs E α)

theorem instantiables_iff (ps : List (Mixed E α)) :
    instantiables T ps = true ↔ ∀ p ∈ ps, p.instantiable T = true := by
  induction ps with
  | nil => simp [instantiables]
  | cons p ps ih => simp [instantiables, ih]

theorem packOK_iff (ps : List (Mixed E α)) :
    packOK T ps = true ↔ ∃ p qs, ps = p :: qs ∧ ∀ q ∈ qs, (q.valueType T).isSome ∧ q.valueType T = p.valueType T := by
  cases ps with
  | nil => simp [packOK]
  | cons p ps => simp [packOK, compatible]

theorem pack_valueType {ps : List (Mixed E α)} {e : E} :
    (packOK T ps = true ∧ ∃ p qs, ps = p :: qs ∧ p.valueType T = some e) ↔
      ps ≠ [] ∧ ∀ p ∈ ps, p.valueType T = some e := by
  rw [packOK_iff]
  constructor
  · rintro ⟨⟨p, qs, rfl, h⟩, p', qs', he, hp⟩
    cases he
    refine ⟨by simp, fun q hq => ?_⟩
    rcases List.mem_cons.1 hq with rfl | hq
    · exact hp
    · rw [(h q hq).2, hp]
  · rintro ⟨hne, h⟩
    cases ps with
    | nil => exact absurd rfl hne
    | cons p qs =>
      refine ⟨⟨p, qs, rfl, fun q hq => ?_⟩, p, qs, rfl, h p (by simp)⟩
      rw [h q (by simp [hq]), h p (by simp)]
      simp

omit [DecidableEq E] in
theorem valueType_choice {ps : List (Mixed E α)} {e : E} :
    (Mixed.choice ps).valueType T = some e ↔ ∃ p qs, ps = p :: qs ∧ p.valueType T = some e := by
  cases ps with
  | nil => simp [valueType]
  | cons p ps => simp [valueType]

omit [DecidableEq E] in
theorem valueType_sequence {ps : List (Mixed E α)} {e : E} :
    (Mixed.sequence ps).valueType T = some e ↔ ∃ p qs, ps = p :: qs ∧ p.valueType T = some e := by
  cases ps with
  | nil => simp [valueType]
  | cons p ps => simp [valueType]

/-- The constraints hold and the element type is `e`. -/
def Has (e : E) (p : Mixed E α) : Prop := p.instantiable T = true ∧ p.valueType T = some e

variable {T}

theorem has_choice {ps : List (Mixed E α)} {e : E} :
    Has T e (.choice ps) ↔ ps ≠ [] ∧ ∀ p ∈ ps, Has T e p := by
  unfold Has
  rw [valueType_choice]
  simp only [instantiable, Bool.and_eq_true, instantiables_iff]
  constructor
  · rintro ⟨⟨h1, h2⟩, h3⟩
    obtain ⟨hne, h⟩ := (pack_valueType T).1 ⟨h2, h3⟩
    exact ⟨hne, fun p hp => ⟨h1 p hp, h p hp⟩⟩
  · rintro ⟨hne, h⟩
    obtain ⟨h2, h3⟩ := (pack_valueType T).2 ⟨hne, fun p hp => (h p hp).2⟩
    exact ⟨⟨fun p hp => (h p hp).1, h2⟩, h3⟩

theorem has_sequence {ps : List (Mixed E α)} {e : E} :
    Has T e (.sequence ps) ↔ ps ≠ [] ∧ ∀ p ∈ ps, Has T e p := by
  unfold Has
  rw [valueType_sequence]
  simp only [instantiable, Bool.and_eq_true, instantiables_iff]
  constructor
  · rintro ⟨⟨h1, h2⟩, h3⟩
    obtain ⟨hne, h⟩ := (pack_valueType T).1 ⟨h2, h3⟩
    exact ⟨hne, fun p hp => ⟨h1 p hp, h p hp⟩⟩
  · rintro ⟨hne, h⟩
    obtain ⟨h2, h3⟩ := (pack_valueType T).2 ⟨hne, fun p hp => (h p hp).2⟩
    exact ⟨⟨fun p hp => (h p hp).1, h2⟩, h3⟩

theorem has_delimit {p d : Mixed E α} {e : E} : Has T e (.delimit p d) ↔ Has T e p ∧ Has T e d := by
  simp only [Has, instantiable, valueType, compatible, Bool.and_eq_true, beq_iff_eq]
  constructor
  · rintro ⟨⟨⟨h1, h2⟩, h3, h4⟩, h5⟩
    exact ⟨⟨h1, h5⟩, h2, by rw [h4, h5]⟩
  · rintro ⟨⟨h1, h2⟩, h3, h4⟩
    exact ⟨⟨⟨h1, h3⟩, by rw [h4]; rfl, by rw [h4, h2]⟩, h2⟩

theorem has_wrap {w : Wrapper} {p : Mixed E α} {e : E} : Has T e (.wrap w p) ↔ Has T e p := by
  simp [Has, instantiable, valueType]

theorem has_leaf {e e' : E} {l : Leaf (α e')} : Has T e (.leaf e' l) ↔ e' = e := by
  simp [Has, instantiable, valueType]

theorem has_custom {k : Nat} {e : E} : Has T e (.custom k) ↔ T.declared k = e := by
  simp [Has, instantiable, valueType]

/-- Every accepted parser has an element type. -/
theorem has_some : (p : Mixed E α) → p.instantiable T = true → ∃ e, Has T e p
  | .leaf e l, _ => ⟨e, has_leaf.2 rfl⟩
  | .custom k, _ => ⟨_, has_custom.2 rfl⟩
  | .wrap w p, h => by
    obtain ⟨e, he⟩ := has_some p (by simpa [instantiable] using h)
    exact ⟨e, has_wrap.2 he⟩
  | .delimit p d, h => by
    have h' := h
    simp only [instantiable, Bool.and_eq_true] at h
    obtain ⟨e, he⟩ := has_some p h.1.1
    exact ⟨e, h', by simpa [valueType] using he.2⟩
  | .choice [], h => by simp [instantiable, packOK] at h
  | .choice (p :: ps), h => by
    have h' := h
    simp only [instantiable, instantiables, Bool.and_eq_true] at h
    obtain ⟨e, he⟩ := has_some p h.1.1
    exact ⟨e, h', by simpa [valueType] using he.2⟩
  | .sequence [], h => by simp [instantiable, packOK] at h
  | .sequence (p :: ps), h => by
    have h' := h
    simp only [instantiable, instantiables, Bool.and_eq_true] at h
    obtain ⟨e, he⟩ := has_some p h.1.1
    exact ⟨e, h', by simpa [valueType] using he.2⟩

theorem asserted_iff {k : Nat} : T.asserted k = true ↔ Has T (T.declared k) (T.body k) := by
  simp [Customs.asserted, Has]

theorem has_part {p q : Mixed E α} {e : E} (h : Has T e p) (hq : p.Part T q)
    (hc : ∀ k, p = .custom k → T.asserted k = true) : Has T e q := by
  cases hq with
  | choice hq => exact (has_choice.1 h).2 _ hq
  | sequence hq => exact (has_sequence.1 h).2 _ hq
  | wrap => exact has_wrap.1 h
  | element => exact (has_delimit.1 h).1
  | delimiter => exact (has_delimit.1 h).2
  | custom => rw [← has_custom.1 h]; exact asserted_iff.1 (hc _ rfl)

theorem has_uses {p q : Mixed E α} {e : E} (h : Has T e p)
    (hc : ∀ k, p.Uses T (.custom k) → T.asserted k = true) (hq : p.Uses T q) : Has T e q := by
  induction hq with
  | refl => exact h
  | tail hpq hq ih => exact has_part ih hq fun k hk => hc k (hk ▸ hpq)

theorem Has.names {p : Mixed E α} {e e' : E} (h : Has T e p) (hn : p.Names T e') : e' = e := by
  cases hn with
  | leaf => exact has_leaf.1 h
  | custom => exact has_custom.1 h

theorem Has.nonEmpty {p : Mixed E α} {e : E} (h : Has T e p) : p.NonEmpty := by
  cases p with
  | choice ps => exact (has_choice.1 h).1
  | sequence ps => exact (has_sequence.1 h).1
  | _ => trivial

/-- A parser that has only `e` inside has `e`. -/
theorem has_of_names {e : E} : (p : Mixed E α) →
    (∀ q, p.Uses T q → q.NonEmpty ∧ ∀ e', q.Names T e' → e' = e) → Has T e p
  | .leaf e' l, h => has_leaf.2 ((h _ .refl).2 _ .leaf)
  | .custom k, h => has_custom.2 ((h _ .refl).2 _ .custom)
  | .wrap w p, h => has_wrap.2 (has_of_names p fun q hq => h q (.head .wrap hq))
  | .delimit p d, h => has_delimit.2 ⟨has_of_names p fun q hq => h q (.head .element hq),
      has_of_names d fun q hq => h q (.head .delimiter hq)⟩
  | .choice ps, h => has_choice.2 ⟨(h _ .refl).1, fun p hp =>
      have : sizeOf p < 1 + sizeOf ps := Nat.lt_of_lt_of_le (List.sizeOf_lt_of_mem hp) (by omega)
      has_of_names p fun q hq => h q (.head (.choice hp) hq)⟩
  | .sequence ps, h => has_sequence.2 ⟨(h _ .refl).1, fun p hp =>
      have : sizeOf p < 1 + sizeOf ps := Nat.lt_of_lt_of_le (List.sizeOf_lt_of_mem hp) (by omega)
      has_of_names p fun q hq => h q (.head (.sequence hp) hq)⟩
termination_by p => sizeOf p

/-- The element type is named somewhere. -/
theorem Has.named {e : E} : (p : Mixed E α) → Has T e p → ∃ q, p.Uses T q ∧ q.Names T e
  | .leaf e' l, h => ⟨_, .refl, has_leaf.1 h ▸ .leaf⟩
  | .custom k, h => ⟨_, .refl, has_custom.1 h ▸ .custom⟩
  | .wrap w p, h =>
    let ⟨q, hq, hn⟩ := Has.named p (has_wrap.1 h)
    ⟨q, .head .wrap hq, hn⟩
  | .delimit p d, h =>
    let ⟨q, hq, hn⟩ := Has.named p (has_delimit.1 h).1
    ⟨q, .head .element hq, hn⟩
  | .choice [], h => absurd rfl (has_choice.1 h).1
  | .choice (p :: ps), h =>
    let ⟨q, hq, hn⟩ := Has.named p ((has_choice.1 h).2 p (by simp))
    ⟨q, .head (.choice (by simp)) hq, hn⟩
  | .sequence [], h => absurd rfl (has_sequence.1 h).1
  | .sequence (p :: ps), h =>
    let ⟨q, hq, hn⟩ := Has.named p ((has_sequence.1 h).2 p (by simp))
    ⟨q, .head (.sequence (by simp)) hq, hn⟩

/-- A parser with what it uses compiles if and only if it has no empty pack and one single element type
is named anywhere in it, custom parsers' bodies included. -/
theorem C68_one_element_type (p : Mixed E α) :
    p.Accepted T ↔ ∃ e, (∃ q, p.Uses T q ∧ q.Names T e) ∧
      ∀ q, p.Uses T q → q.NonEmpty ∧ ∀ e', q.Names T e' → e' = e := by
  constructor
  · intro ⟨hi, ha⟩
    obtain ⟨e, he⟩ := has_some p hi
    refine ⟨e, ?_, fun q hq => ?_⟩
    · exact he.named
    · have := has_uses he ha hq
      exact ⟨this.nonEmpty, fun e' hn => this.names hn⟩
  · rintro ⟨e, -, h⟩
    refine ⟨(has_of_names p h).1, fun k hk => asserted_iff.2 ?_⟩
    rw [(h _ hk).2 _ .custom]
    exact has_of_names _ fun q hq => h q (hk.trans (.head .custom hq))

/-- In particular two parsers of different element types cannot be combined: not by `|`, `>>` or `delimit`,
nor as alternatives, parts or element and delimiter of one class. -/
theorem C68_no_mixture (p q : Mixed E α) (hp : p.Accepted T) (hq : q.Accepted T) (e e' : E) (hne : e ≠ e')
    (he : ∃ r, p.Uses T r ∧ r.Names T e) (he' : ∃ r, q.Uses T r ∧ r.Names T e') :
    p.combinable T q = false ∧ q.combinable T p = false ∧
      (∀ ps, p ∈ ps → q ∈ ps → ¬ (Mixed.choice ps).Accepted T ∧ ¬ (Mixed.sequence ps).Accepted T) ∧
      ¬ (Mixed.delimit p q).Accepted T := by
  obtain ⟨r, hr, hn⟩ := he
  obtain ⟨r', hr', hn'⟩ := he'
  have key : ∀ w : Mixed E α, w.Accepted T → w.Uses T p → w.Uses T q → False := fun w hw h h' => by
    obtain ⟨f, -, hf⟩ := (C68_one_element_type w).1 hw
    exact hne (((hf r (h.trans hr)).2 _ hn).trans ((hf r' (h'.trans hr')).2 _ hn').symm)
  obtain ⟨f, hf⟩ := has_some p hp.1
  obtain ⟨f', hf'⟩ := has_some q hq.1
  have h1 : e = f := (has_uses hf hp.2 hr).names hn
  have h2 : e' = f' := (has_uses hf' hq.2 hr').names hn'
  subst h1 h2
  refine ⟨?_, ?_, fun ps h h' => ⟨fun hw => key _ hw (.single (.choice h)) (.single (.choice h')),
    fun hw => key _ hw (.single (.sequence h)) (.single (.sequence h'))⟩,
    fun hw => key _ hw (.single .element) (.single .delimiter)⟩
  · simp [combinable, compatible, hf.2, hf'.2, Ne.symm hne]
  · simp [combinable, compatible, hf.2, hf'.2, hne]

/-- `parse` and `lookahead` of every class ask that the input's elements can be compared with its element type
(`input_constructible_for`). If the outermost call meets this, all calls made inside do. -/
theorem C68_input (p : Mixed E α) (hp : p.Accepted T) (comparable : E → Prop) :
    (∀ e, p.valueType T = some e → comparable e) ↔
      ∀ q, p.Uses T q → ∃ e, q.valueType T = some e ∧ comparable e := by
  obtain ⟨e, he⟩ := has_some p hp.1
  constructor
  · exact fun h q hq => ⟨e, (has_uses he hp.2 hq).2, h e he.2⟩
  · intro h e' he'
    obtain ⟨f, hf, hc⟩ := h p .refl
    rw [he'] at hf
    cases hf
    exact hc

section
variable (e : E)

omit [DecidableEq E] in
theorem withTypes_eq (ps : List (Parser (α e))) : Parser.withTypes e ps = ps.map (Parser.withType e) := by
  induction ps with
  | nil => rfl
  | cons p ps ih => simp [Parser.withTypes, ih]

omit [DecidableEq E] in
theorem withType_inj (p q : Parser (α e)) : p.withType e = q.withType e → p = q := by
  revert q
  refine Parser.rec (motive_1 := fun p => ∀ q : Parser (α e), p.withType e = q.withType e → p = q)
    (motive_2 := fun ps => ∀ qs : List (Parser (α e)), Parser.withTypes e ps = Parser.withTypes e qs → ps = qs)
    ?_ ?_ ?_ ?_ ?_ ?_ ?_ ?_ ?_ ?_ ?_ ?_ ?_ ?_ ?_ ?_ ?_ ?_ ?_ ?_ ?_ p
  case refine_20 => intro qs h; cases qs <;> simp_all [Parser.withTypes]
  case refine_21 =>
    intro p ps hp hps qs h
    cases qs with
    | nil => simp [Parser.withTypes] at h
    | cons q qs =>
      simp only [Parser.withTypes, List.cons.injEq] at h
      rw [hp q h.1, hps qs h.2]
  case refine_12 =>
    intro p d hp hd q h
    cases q <;> simp only [Parser.withType, reduceCtorEq, Mixed.delimit.injEq] at h
    rw [hp _ h.1, hd _ h.2]
  all_goals
    intros
    rename_i q h
    cases q <;> simp [Parser.withType] at h <;> first
      | (next ih _ => rw [ih _ h])
      | (next ih _ _ => rw [h.1, ih _ h.2])
      | rw [h]
      | rfl

variable {e}

omit [DecidableEq E] in
theorem fitsType_iff {q : Parser (α e)} : q.FitsType T e ↔
    (∀ ps, q = .choice ps ∨ q = .sequence ps → ps ≠ []) ∧ (∀ k, q = .custom k → T.declared k = e) ∧
    ∀ r ∈ q.parts, r.FitsType T e := by
  constructor
  · rintro ⟨h1, h2⟩
    refine ⟨fun ps h => h1 ps ?_, fun k h => h2 k (h ▸ .refl), fun r hr =>
      ⟨fun ps h => h1 ps (h.imp (.head hr) (.head hr)), fun k h => h2 k (.head hr h)⟩⟩
    rcases h with rfl | rfl
    · exact .inl .refl
    · exact .inr .refl
  · rintro ⟨h1, h2, h3⟩
    refine ⟨fun ps h => ?_, fun k h => ?_⟩
    · rcases h with h | h <;> rcases Relation.ReflTransGen.cases_head h with rfl | ⟨r, hr, h⟩
      · exact h1 _ (.inl rfl)
      · exact (h3 r hr).packs _ (.inl h)
      · exact h1 _ (.inr rfl)
      · exact (h3 r hr).packs _ (.inr h)
    · rcases Relation.ReflTransGen.cases_head h with rfl | ⟨r, hr, h⟩
      · exact h2 _ rfl
      · exact (h3 r hr).customs _ h

theorem has_withType (q : Parser (α e)) : q.FitsType T e → Has T e (q.withType e) := by
  refine Parser.rec (motive_1 := fun q => q.FitsType T e → Has T e (q.withType e))
    (motive_2 := fun qs => ∀ q ∈ qs, q.FitsType T e → Has T e (q.withType e))
    ?_ ?_ ?_ ?_ ?_ ?_ ?_ ?_ ?_ ?_ ?_ ?_ ?_ ?_ ?_ ?_ ?_ ?_ ?_ ?_ ?_ q
  case refine_19 => intro k h; exact has_custom.2 (h.customs k .refl)
  case refine_20 => simp
  case refine_21 =>
    intro p ps hp hps q hq
    rcases List.mem_cons.1 hq with rfl | hq
    · exact hp
    · exact hps q hq
  case refine_6 =>
    intro ps ih h
    rw [Parser.withType, withTypes_eq, has_choice]
    refine ⟨by simpa using h.packs ps (.inl .refl), fun p hp => ?_⟩
    obtain ⟨q, hq, rfl⟩ := List.mem_map.1 hp
    exact ih q hq ((fitsType_iff.1 h).2.2 q hq)
  case refine_7 =>
    intro ps ih h
    rw [Parser.withType, withTypes_eq, has_sequence]
    refine ⟨by simpa using h.packs ps (.inr .refl), fun p hp => ?_⟩
    obtain ⟨q, hq, rfl⟩ := List.mem_map.1 hp
    exact ih q hq ((fitsType_iff.1 h).2.2 q hq)
  case refine_12 =>
    intro p d hp hd h
    exact has_delimit.2 ⟨hp ((fitsType_iff.1 h).2.2 p (by simp [Parser.parts])),
      hd ((fitsType_iff.1 h).2.2 d (by simp [Parser.parts]))⟩
  case refine_1 | refine_2 | refine_3 | refine_4 | refine_5 => intros; exact has_leaf.2 rfl
  all_goals
    intro p
    intros
    rename_i hp h
    exact has_wrap.2 (hp ((fitsType_iff.1 h).2.2 p (by simp [Parser.parts])))

omit [DecidableEq E] in
theorem withTypes_of {ps : List (Mixed E α)}
    (h : ∀ p ∈ ps, ∃ q : Parser (α e), q.withType e = p ∧ q.FitsType T e) :
    ∃ qs : List (Parser (α e)), Parser.withTypes e qs = ps ∧ ∀ q ∈ qs, q.FitsType T e := by
  induction ps with
  | nil => exact ⟨[], rfl, by simp⟩
  | cons p ps ih =>
    obtain ⟨q, rfl, hq⟩ := h p (by simp)
    obtain ⟨qs, rfl, hqs⟩ := ih fun p hp => h p (by simp [hp])
    exact ⟨q :: qs, rfl, by simpa using ⟨hq, hqs⟩⟩

theorem withType_of_has : (p : Mixed E α) → Has T e p → ∃ q : Parser (α e), q.withType e = p ∧ q.FitsType T e
  | .leaf e' l, h => by
    have he := has_leaf.1 h
    subst he
    cases l with
    | anyOf a => exact ⟨.anyOf a, rfl, fitsType_iff.2 ⟨by simp, by simp, by simp [Parser.parts]⟩⟩
    | noneOf a => exact ⟨.noneOf a, rfl, fitsType_iff.2 ⟨by simp, by simp, by simp [Parser.parts]⟩⟩
    | allOf a => exact ⟨.allOf a, rfl, fitsType_iff.2 ⟨by simp, by simp, by simp [Parser.parts]⟩⟩
    | anything => exact ⟨.anything, rfl, fitsType_iff.2 ⟨by simp, by simp, by simp [Parser.parts]⟩⟩
    | epsilon => exact ⟨.epsilon, rfl, fitsType_iff.2 ⟨by simp, by simp, by simp [Parser.parts]⟩⟩
  | .custom k, h => ⟨.custom k, rfl, fitsType_iff.2 ⟨by simp, by simpa using has_custom.1 h, by simp [Parser.parts]⟩⟩
  | .wrap w p, h => by
    obtain ⟨q, rfl, hq⟩ := withType_of_has p (has_wrap.1 h)
    cases w with
    | maybe => exact ⟨.maybe q, rfl, fitsType_iff.2 ⟨by simp, by simp, by simpa [Parser.parts] using hq⟩⟩
    | exactly n => exact ⟨.exactly q n, rfl, fitsType_iff.2 ⟨by simp, by simp, by simpa [Parser.parts] using hq⟩⟩
    | oneOrMore => exact ⟨.oneOrMore q, rfl, fitsType_iff.2 ⟨by simp, by simp, by simpa [Parser.parts] using hq⟩⟩
    | zeroOrMore => exact ⟨.zeroOrMore q, rfl, fitsType_iff.2 ⟨by simp, by simp, by simpa [Parser.parts] using hq⟩⟩
    | ignore => exact ⟨.ignore q, rfl, fitsType_iff.2 ⟨by simp, by simp, by simpa [Parser.parts] using hq⟩⟩
    | complete => exact ⟨.complete q, rfl, fitsType_iff.2 ⟨by simp, by simp, by simpa [Parser.parts] using hq⟩⟩
    | join => exact ⟨.join q, rfl, fitsType_iff.2 ⟨by simp, by simp, by simpa [Parser.parts] using hq⟩⟩
    | map f => exact ⟨.map q f, rfl, fitsType_iff.2 ⟨by simp, by simp, by simpa [Parser.parts] using hq⟩⟩
    | filter f => exact ⟨.filter q f, rfl, fitsType_iff.2 ⟨by simp, by simp, by simpa [Parser.parts] using hq⟩⟩
    | named n => exact ⟨.named q n, rfl, fitsType_iff.2 ⟨by simp, by simp, by simpa [Parser.parts] using hq⟩⟩
  | .delimit p d, h => by
    obtain ⟨q, rfl, hq⟩ := withType_of_has p (has_delimit.1 h).1
    obtain ⟨r, rfl, hr⟩ := withType_of_has d (has_delimit.1 h).2
    exact ⟨.delimit q r, rfl, fitsType_iff.2 ⟨by simp, by simp, by simpa [Parser.parts] using ⟨hq, hr⟩⟩⟩
  | .choice ps, h => by
    obtain ⟨hne, h⟩ := has_choice.1 h
    obtain ⟨qs, rfl, hqs⟩ := withTypes_of fun p hp =>
      have : sizeOf p < 1 + sizeOf ps := Nat.lt_of_lt_of_le (List.sizeOf_lt_of_mem hp) (by omega)
      withType_of_has p (h p hp)
    refine ⟨.choice qs, rfl, fitsType_iff.2 ⟨?_, by simp, by simpa [Parser.parts] using hqs⟩⟩
    rintro ps (he | he) <;> cases he
    rintro rfl; exact hne rfl
  | .sequence ps, h => by
    obtain ⟨hne, h⟩ := has_sequence.1 h
    obtain ⟨qs, rfl, hqs⟩ := withTypes_of fun p hp =>
      have : sizeOf p < 1 + sizeOf ps := Nat.lt_of_lt_of_le (List.sizeOf_lt_of_mem hp) (by omega)
      withType_of_has p (h p hp)
    refine ⟨.sequence qs, rfl, fitsType_iff.2 ⟨?_, by simp, by simpa [Parser.parts] using hqs⟩⟩
    rintro ps (he | he) <;> cases he
    rintro rfl; exact hne rfl
termination_by p => sizeOf p

/-- So nothing is lost by giving an expression one element type, as the other theorems do: what compiles with
element type `e` is what can be written with elements of type `e` alone, in one way. -/
theorem C68_single (e : E) (p : Mixed E α) :
    (p.instantiable T = true ∧ p.valueType T = some e) ↔
      ∃! q : Parser (α e), q.withType e = p ∧ q.FitsType T e := by
  constructor
  · intro h
    obtain ⟨q, rfl, hq⟩ := withType_of_has p h
    exact ⟨q, ⟨rfl, hq⟩, fun q' h' => withType_inj e _ _ h'.1⟩
  · rintro ⟨q, ⟨rfl, hq⟩, -⟩
    exact has_withType q hq

end

/-! Examples: the element types are `true` for `char` and `false` for `wchar_t` -/

/-- `custom 0` is `"(" >> ~custom 0 >> ")"`, `custom 1` is `L"x"`. -/
def Ex.customs (declared : Nat → Bool) : Customs Bool fun _ => Nat where
  declared := declared
  body
    | 0 => .sequence [.leaf true (.allOf [40]), .wrap .maybe (.custom 0), .leaf true (.allOf [41])]
    | _ => .leaf false (.allOf [120])

/-- `custom 0 | any_of<'a'>` and `custom 1` compile if they are declared right, -/
theorem Ex.customs_accepted : let T := Ex.customs (· == 0)
    (Mixed.choice [.custom 0, .leaf true (.anyOf [97])]).Accepted T ∧ (Mixed.custom 1).Accepted T :=
  ⟨⟨rfl, fun k _ => by rcases k with _ | k <;> rfl⟩, ⟨rfl, fun k _ => by rcases k with _ | k <;> rfl⟩⟩

-- the hypotheses of `C68_no_mixture`
example : let T := Ex.customs (· == 0)
    (∃ r, (Mixed.choice [.custom 0, .leaf true (.anyOf [97])]).Uses T r ∧ r.Names T true) ∧
    (∃ r, (Mixed.custom 1).Uses T r ∧ r.Names T false) :=
  ⟨⟨_, .single (.choice (List.mem_cons_self ..)), .custom⟩, ⟨_, .refl, .custom⟩⟩

-- if both are declared with `char` (the default), the second does not compile
example : ¬ (Mixed.custom 1).Accepted (Ex.customs fun _ => true) :=
  fun h => nomatch (h.asserted 1 .refl : false = true)

-- "a"_any | custom 0 in the main model
example : let T := Ex.customs (· == 0)
    (Parser.choice [.custom 0, .anyOf [97]] : Parser Nat).withType (α := fun _ => Nat) true =
      .choice [.custom 0, .leaf true (.anyOf [97])] ∧
    (Mixed.choice [.custom 0, .leaf true (.anyOf [97])]).instantiable T = true ∧
    (Mixed.choice [.custom 0, .leaf true (.anyOf [97])]).valueType T = some true := ⟨rfl, rfl, rfl⟩

end Tok3n
