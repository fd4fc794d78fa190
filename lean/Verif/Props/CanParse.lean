import Verif.Spec.CanParse
import Verif.Props.Exact
import Verif.Props.Types
/-
C57: which expressions compile, in one statement.
-/

namespace Tok3n

variable {α β : Type} [LinearOrder α] {C : Ctx α β}

omit [LinearOrder α] in
theorem resultTypes_iff {ps : List (Parser α)} {ts : List Ty} :
    ResultTypes C ps ts ↔ tysOK C ps = true ∧ ts = ps.map (resultFor C) := by
  rw [← resultsFor_eq]
  exact ⟨resultTypes_eq C ps ts, fun ⟨h, he⟩ => he ▸ resultTypes_of C ps h⟩

omit [LinearOrder α] in
theorem resultType_iff {p : Parser α} {t : Ty} : ResultType C p t ↔ tyOK C p = true ∧ t = resultFor C p :=
  ⟨resultType_eq C p t, fun ⟨h, he⟩ => he ▸ resultType_of C p h⟩

theorem canParse_iff (hC : ∀ k, tyOK C (C.custom k).body = true) : (p : Parser α) → tyOK C p = true →
    (parseOK C p = true ↔ CanParse C p)
  | .anyOf _, _ => ⟨fun _ => .anyOf, fun _ => rfl⟩
  | .noneOf _, _ => ⟨fun _ => .noneOf, fun _ => rfl⟩
  | .allOf _, _ => ⟨fun _ => .allOf, fun _ => rfl⟩
  | .anything, _ => ⟨fun _ => .anything, fun _ => rfl⟩
  | .epsilon, _ => ⟨fun _ => .epsilon, fun _ => rfl⟩
  | .ignore _, _ => ⟨fun _ => .ignore, fun _ => rfl⟩
  | .choice ps, ht => by
    have hr := (C60_recorded (ps.map (resultFor C)) _).2 rfl
    have ht' := tysOK_iff.1 ht
    rw [parseOK_choice_iff C ps _ ht hr]
    constructor
    · rintro ⟨h1, h2⟩
      refine .choice (resultTypes_iff.2 ⟨ht, rfl⟩) hr h1 (fun n i t hn hi => ?_) fun n i p hn hi => ?_
      · rw [List.getElem?_map, Option.map_eq_some_iff] at hn
        obtain ⟨p, hn, rfl⟩ := hn
        obtain ⟨-, u, hu, h⟩ := h2 n i p hn hi
        exact ⟨u, hu, h.imp id Option.isSome_iff_exists.1⟩
      · have hp := List.mem_of_getElem? hn
        have : sizeOf p < 1 + sizeOf ps := Nat.lt_of_lt_of_le (List.sizeOf_lt_of_mem hp) (by omega)
        exact (canParse_iff hC p (ht' p hp)).1 (h2 n i p hn hi).1
    · intro h
      cases h with
      | choice hts hr' h1 h2 h3 =>
        obtain ⟨-, rfl⟩ := resultTypes_iff.1 hts
        have := (C60_recorded _ _).1 hr'
        subst this
        refine ⟨h1, fun n i p hn hi => ⟨?_, ?_⟩⟩
        · have hp := List.mem_of_getElem? hn
          have : sizeOf p < 1 + sizeOf ps := Nat.lt_of_lt_of_le (List.sizeOf_lt_of_mem hp) (by omega)
          exact (canParse_iff hC p (ht' p hp)).2 (h3 n i p hn hi)
        · obtain ⟨u, hu, h⟩ := h2 n i (resultFor C p) (by rw [List.getElem?_map, hn]; rfl) hi
          exact ⟨u, hu, h.imp id Option.isSome_iff_exists.2⟩
  | .sequence ps, ht => by
    have ht' := tysOK_iff.1 ht
    have hz : ∀ p t, (p, t) ∈ ps.zip (ps.map (resultFor C)) ↔ p ∈ ps ∧ t = resultFor C p := by
      intro p t
      generalize ps = qs
      induction qs with
      | nil => simp
      | cons q qs ih => 
        simp only [List.map_cons, List.zip_cons_cons, List.mem_cons, ih, Prod.mk.injEq]
        constructor
        · rintro (⟨rfl, rfl⟩ | h)
          · exact ⟨.inl rfl, rfl⟩
          · exact ⟨.inr h.1, h.2⟩
        · rintro ⟨rfl | h, rfl⟩
          · exact .inl ⟨rfl, rfl⟩
          · exact .inr ⟨h, rfl⟩
    rw [parseOK_sequence_iff C ht]
    constructor
    · intro h
      refine .sequence (resultTypes_iff.2 ⟨ht, rfl⟩) (fun t h' => ?_) fun p t h' hv => ?_
      · obtain ⟨p, hp, rfl⟩ := List.mem_map.1 h'
        exact (h p hp).2
      · obtain ⟨hp, rfl⟩ := (hz p t).1 h'
        have : sizeOf p < 1 + sizeOf ps := Nat.lt_of_lt_of_le (List.sizeOf_lt_of_mem hp) (by omega)
        exact (canParse_iff hC p (ht' p hp)).1 ((h p hp).1 hv)
    · intro h
      cases h with
      | sequence hts h1 h2 =>
        obtain ⟨-, rfl⟩ := resultTypes_iff.1 hts
        refine fun p hp => ⟨fun hv => ?_, h1 _ (List.mem_map_of_mem hp)⟩
        · have : sizeOf p < 1 + sizeOf ps := Nat.lt_of_lt_of_le (List.sizeOf_lt_of_mem hp) (by omega)
          exact (canParse_iff hC p (ht' p hp)).2 (h2 p _ ((hz _ _).2 ⟨hp, rfl⟩) hv)
  | .maybe p, ht => by
    rw [parseOK, Bool.and_eq_true, canParse_iff hC p ht]
    exact ⟨fun h => .maybe h.2, fun h => by cases h with
      | maybe h => exact ⟨ht, h⟩⟩
  | .oneOrMore p, ht => by
    rw [parseOK, Bool.and_eq_true, canParse_iff hC p ht]
    exact ⟨fun h => .oneOrMore h.2, fun h => by cases h with
      | oneOrMore h => exact ⟨ht, h⟩⟩
  | .zeroOrMore p, ht => by
    rw [parseOK, Bool.and_eq_true, canParse_iff hC p ht]
    exact ⟨fun h => .zeroOrMore h.2, fun h => by cases h with
      | zeroOrMore h => exact ⟨ht, h⟩⟩
  | .complete p, ht => by
    rw [parseOK, Bool.and_eq_true, canParse_iff hC p ht]
    exact ⟨fun h => .complete h.2, fun h => by cases h with
      | complete h => exact ⟨ht, h⟩⟩
  | .named p _, ht => by
    rw [parseOK, Bool.and_eq_true, canParse_iff hC p ht]
    exact ⟨fun h => .named h.2, fun h => by cases h with
      | named h => exact ⟨ht, h⟩⟩
  | .map p f, ht => by
    have ht' := ht
    simp only [tyOK, Bool.and_eq_true] at ht'
    rw [parseOK, Bool.and_eq_true, canParse_iff hC p ht'.1]
    exact ⟨fun h => .map h.2, fun h => by cases h with
      | map h => exact ⟨ht, h⟩⟩
  | .filter p f, ht => by
    have ht' := ht
    simp only [tyOK, Bool.and_eq_true] at ht'
    rw [parseOK, Bool.and_eq_true, canParse_iff hC p ht'.1]
    exact ⟨fun h => .filter h.2, fun h => by cases h with
      | filter h => exact ⟨ht, h⟩⟩
  | .delimit p d, ht => by
    have ht' := ht
    simp only [tyOK, Bool.and_eq_true] at ht'
    simp only [parseOK, Bool.and_eq_true, canParse_iff hC p ht'.1, canParse_iff hC d ht'.2]
    exact ⟨fun h => .delimit h.1.2 h.2, fun h => by cases h with
      | delimit h h' => exact ⟨⟨ht', h⟩, h'⟩⟩
  | .exactly p n, ht => by
    have ih := canParse_iff hC p ht
    simp only [parseOK, Bool.and_eq_true, default_exactly_iff, ih]
    constructor
    · exact fun h => .exactly (resultType_iff.2 ⟨ht, rfl⟩) h.2 h.1.2
    · intro h
      cases h with
      | exactly h1 h2 h3 =>
        obtain ⟨-, rfl⟩ := resultType_iff.1 h1
        exact ⟨⟨ht, h3⟩, h2⟩
  | .join p, ht => by
    simp only [parseOK, Bool.and_eq_true, ← joinable_iff]
    constructor
    · exact fun h => .join (resultType_iff.2 ⟨h.1.1, rfl⟩) h.2 ((canParse_iff hC p h.1.1).1 h.1.2)
    · intro h
      cases h with
      | join h1 h2 h3 =>
        obtain ⟨ht', rfl⟩ := resultType_iff.1 h1
        exact ⟨⟨ht', (canParse_iff hC p ht').2 h3⟩, h2⟩
  | .custom k, ht => by
    have hc : parseOK C (.custom k) = true ↔ Converts C (resultFor C (C.custom k).body) (C.custom k).ty := by
      rw [converts_iff]; simp [parseOK, Option.isSome_iff_exists, and_assoc]
    rw [hc]
    constructor
    · exact fun h => .custom (resultType_iff.2 ⟨hC k, rfl⟩) h
    · intro h
      cases h with
      | custom h1 h2 =>
        obtain ⟨-, rfl⟩ := resultType_iff.1 h1
        exact h2
termination_by p => sizeOf p

/-- `p.parse(input)` compiles exactly if `p` and all custom parsers are well typed: classes that can be instantiated,
a type for every value, and what is done with the values possible at these types. -/
theorem C57_compiles (p : Parser α) :
    Compiles C p ↔ (∀ k, WellTypedCustom C k) ∧ WellTyped C p := by
  constructor
  · rintro ⟨hC, h1, h2, h3⟩
    have key : ∀ q : Parser α, q.wf = true → tyOK C q = true → parseOK C q = true → WellTyped C q := fun q h1 h2 h3 =>
      ⟨(wf_iff q).1 h1, ⟨_, resultType_of C q h2⟩, (canParse_iff hC.ty q h2).1 h3⟩
    exact ⟨fun k => ⟨key _ (hC.wf k) (hC.ty k) (hC.parse k), fun h => resultType_iff.2 ⟨hC.ty k, hC.inferred k h⟩⟩,
      key p h1 h2 h3⟩
  · rintro ⟨hC, h⟩
    have hty : ∀ k, tyOK C (C.custom k).body = true := fun k => (C43_result_for C _).1.1 (hC k).body.type
    refine ⟨⟨fun k => (wf_iff _).2 (hC k).body.classes, hty, fun k => (canParse_iff hty _ (hty k)).2 (hC k).body.parse,
      fun k hk => (resultType_iff.1 ((hC k).inferred hk)).2⟩, (wf_iff _).2 h.classes, (C43_result_for C p).1.1 h.type, ?_⟩
    exact (canParse_iff hty _ ((C43_result_for C p).1.1 h.type)).2 h.parse

-- the custom parsers of the examples, and ("a" | f("b") | ignore("c")) with one of them
example : (∀ k, WellTypedCustom (Ex.ctx "a") k) ∧ WellTyped (Ex.ctx "a")
    (.sequence [.choice [Ex.all "a", .map (Ex.all "b") (.user 0), .ignore (Ex.all "c")], .custom 0]) :=
  (C57_compiles _).1 ⟨Ex.ctx_ok _, rfl, rfl, rfl⟩

end Tok3n
