import Verif.Spec.Compile
import Verif.Proof.Choice
/-
Which sequences and choices compile.
-/

namespace Tok3n

variable {α β : Type} {C : Ctx α β}

/-! ### Default construction -/

mutual
theorem hasDefault_of : (t : Ty) → (defaultVal C t).isSome = true → HasDefault C t
  | .void, _ => .void
  | .span, _ => .span
  | .vec _, _ => .vec
  | .opt _, _ => .opt
  | .arr t n, h => .arr (hasDefault_of t (by simpa [defaultVal] using h))
  | .pair a b, h => by
    simp only [defaultVal] at h
    refine .pair (hasDefault_of a ?_) (hasDefault_of b ?_) <;>
      (revert h; cases defaultVal C a <;> cases defaultVal C b <;> simp)
  | .tup ts, h => .tup (hasDefaults_of ts (by simpa [defaultVal] using h))
  | .var [], h => by simp [defaultVal, defaultHead] at h
  | .var (t :: ts), h => .var (hasDefault_of t (by simpa [defaultVal, defaultHead] using h))
  | .user k, h => .user (Option.isSome_iff_exists.1 h).choose_spec
theorem hasDefaults_of : (ts : List Ty) → (defaultVals C ts).isSome = true → ∀ t ∈ ts, HasDefault C t
  | [], _ => by simp
  | t :: ts, h => by
    simp only [defaultVals] at h
    have h1 : (defaultVal C t).isSome = true := by
      revert h; cases defaultVal C t <;> cases defaultVals C ts <;> simp
    have h2 : (defaultVals C ts).isSome = true := by
      revert h; cases defaultVal C t <;> cases defaultVals C ts <;> simp
    have h3 := hasDefault_of t h1
    have h4 := hasDefaults_of ts h2
    simpa using ⟨h3, h4⟩
end

theorem isSome_defaultVals {ts : List Ty} (h : ∀ t ∈ ts, (defaultVal C t).isSome = true) :
    (defaultVals C ts).isSome = true := by
  induction ts with
  | nil => rfl
  | cons t ts ih =>
    obtain ⟨v, h1⟩ := Option.isSome_iff_exists.1 (h t (by simp))
    obtain ⟨vs, h2⟩ := Option.isSome_iff_exists.1 (ih fun u hu => h u (by simp [hu]))
    simp [defaultVals, h1, h2]

theorem isSome_of_hasDefault {t : Ty} (h : HasDefault C t) : (defaultVal C t).isSome = true := by
  induction h with
  | void | span | vec | opt => rfl
  | arr _ ih => simpa [defaultVal] using ih
  | pair _ _ ih ih' =>
    obtain ⟨v, h1⟩ := Option.isSome_iff_exists.1 ih
    obtain ⟨w, h2⟩ := Option.isSome_iff_exists.1 ih'
    simp [defaultVal, h1, h2]
  | tup _ ih => simpa [defaultVal] using isSome_defaultVals ih
  | var _ ih => simpa [defaultVal, defaultHead] using ih
  | user h => simp [defaultVal, h]

theorem hasDefault_iff {t : Ty} : HasDefault C t ↔ (defaultVal C t).isSome = true :=
  ⟨isSome_of_hasDefault, hasDefault_of t⟩

theorem hasDefault_void : HasDefault C .void := .void
theorem hasDefault_span : HasDefault C .span := .span
theorem hasDefault_vec (t : Ty) : HasDefault C (.vec t) := .vec
theorem hasDefault_opt (t : Ty) : HasDefault C (.opt t) := .opt

theorem hasDefault_arr {t : Ty} {n : Nat} : HasDefault C (.arr t n) ↔ HasDefault C t :=
  ⟨fun h => by cases h; assumption, .arr⟩

theorem hasDefault_pair {a b : Ty} : HasDefault C (.pair a b) ↔ HasDefault C a ∧ HasDefault C b :=
  ⟨fun h => by cases h; exact ⟨‹_›, ‹_›⟩, fun h => .pair h.1 h.2⟩

theorem hasDefault_tup {ts : List Ty} : HasDefault C (.tup ts) ↔ ∀ t ∈ ts, HasDefault C t :=
  ⟨fun h => by cases h; assumption, .tup⟩

theorem hasDefault_var {t : Ty} {ts : List Ty} : HasDefault C (.var (t :: ts)) ↔ HasDefault C t :=
  ⟨fun h => by cases h; assumption, .var⟩

/-! ### Calls, joins and conversions -/

theorem given_iff {t : Ty} {ts : List Ty} : Given t ts ↔ ts = argTys t := by
  constructor
  · rintro (_ | h)
    · rfl
    · rw [argTys, if_neg h]
  · rintro rfl
    by_cases h : t = .void
    · subst h; exact .nothing
    · rw [argTys, if_neg h]; exact .value h

theorem componentTypes_iff {t : Ty} {ts : List Ty} : ComponentTypes t ts ↔ components t = some ts := by
  constructor
  · rintro (_ | _ | _) <;> rfl
  · intro h
    cases t <;> cases h <;> constructor

theorem returns_iff {f : Fn} {ts : List Ty} {t : Ty} : Returns C f ts t ↔ fnTy C f ts = some t := by
  constructor
  · intro h
    induction h with
    | user h => exact h
    | apply h _ ih => simp only [fnTy, componentTypes_iff.1 h, ih]
    | const => rfl
    | construct h => simp [fnTy, h]
    | deflt h => simp [fnTy, hasDefault_iff.1 h]
  · intro h
    induction f generalizing ts with
    | user k => exact .user h
    | apply f ih =>
      match ts with
      | [] | _ :: _ :: _ => cases h
      | [u] =>
        simp only [fnTy] at h
        split at h
        · next hc => exact .apply (componentTypes_iff.2 hc) (ih h)
        · cases h
    | const k => cases h; exact .const
    | construct u =>
      simp only [fnTy, Option.ite_none_right_eq_some, Option.some.injEq] at h
      obtain ⟨h, rfl⟩ := h; exact .construct h
    | deflt u =>
      simp only [fnTy, Option.ite_none_right_eq_some, Option.some.injEq] at h
      obtain ⟨h, rfl⟩ := h; exact .deflt (hasDefault_iff.2 h)

mutual
theorem joinable_of : (t : Ty) → joinable C t = true → Joinable C t
  | .span, _ => .span
  | .vec t, h => .vec (joinable_of t h)
  | .arr t _, h => .arr (joinable_of t h)
  | .opt t, h => .opt (joinable_of t h)
  | .tup [], h => by simp [joinable] at h
  | .tup (t :: ts), h => .tup (joinables_of (t :: ts) (by simpa [joinable] using h))
  | .user k, h => .user (Option.isSome_iff_exists.1 h).choose_spec
  | .void, h | .var _, h | .pair .., h => by simp [joinable] at h
theorem joinables_of : (ts : List Ty) → joinable.joinables C ts = true → ∀ t ∈ ts, Joinable C t
  | [], _ => by simp
  | t :: ts, h => by
    simp only [joinable.joinables, Bool.and_eq_true] at h
    have h1 := joinable_of t h.1
    have h2 := joinables_of ts h.2
    simpa using ⟨h1, h2⟩
end

theorem joinables_true {ts : List Ty} (h : ∀ t ∈ ts, joinable C t = true) : joinable.joinables C ts = true := by
  induction ts with
  | nil => rfl
  | cons t ts ih => simp [joinable.joinables, h t (by simp), ih fun u hu => h u (by simp [hu])]

theorem joinable_iff {t : Ty} : Joinable C t ↔ joinable C t = true := by
  refine ⟨fun h => ?_, joinable_of t⟩
  induction h with
  | span => rfl
  | vec _ ih | arr _ ih | opt _ ih => exact ih
  | tup _ ih =>
    rw [joinable, joinables_true ih]; rfl
  | user h => simp [joinable, h]

theorem converts_iff {t u : Ty} : Converts C t u ↔
    (t = u ∨ t ≠ .void ∧ u ≠ .void ∧ ((fromOptional C t u).isSome ∨ (C.conv t u).isSome)) := by
  constructor
  · rintro (_ | h | ⟨h1, h2, h⟩ | ⟨h1, h2, h⟩)
    · exact .inl rfl
    · exact .inr ⟨h, nofun, .inl (by simp [fromOptional])⟩
    · refine .inr ⟨h1, h2, .inl ?_⟩
      rw [fromOptional]; split <;> simp [h]
    · exact .inr ⟨h1, h2, .inr (by simp [h])⟩
  · rintro (rfl | ⟨h1, h2, h | h⟩)
    · exact .same
    · rw [fromOptional] at h
      split at h
      · next he => rw [he]; exact .engaged h1
      · exact .optional h1 h2 (Option.isSome_iff_exists.1 h).choose_spec
    · exact .value h1 h2 (Option.isSome_iff_exists.1 h).choose_spec

/-- a sequence's value can be default constructed exactly if those of its parts can -/
theorem hasDefault_sequenceType (ts : List Ty) :
    HasDefault C (sequenceType ts) ↔ ∀ t ∈ ts, HasDefault C t := by
  have hf : (∀ t ∈ ts.filter (· ≠ .void), HasDefault C t) ↔ ∀ t ∈ ts, HasDefault C t := by
    constructor
    · intro h t ht
      by_cases hv : t = .void
      · rw [hv]; exact hasDefault_void
      · exact h t (by simp [ht, hv])
    · intro h t ht
      exact h t (List.mem_filter.1 ht).1
  rw [← hf, sequenceType]
  generalize ts.filter (· ≠ .void) = us
  match us with
  | [] => simp [tupleType, hasDefault_void]
  | [t] => simp [tupleType]
  | t :: u :: us => exact hasDefault_tup

theorem head?_distinct (ts : List Ty) : (distinct ts).head? = ts.find? (· ≠ .void) := by
  induction ts using List.reverseRecOn with
  | nil => rfl
  | append_singleton ts t ih =>
    rw [distinct_snoc, List.find?_append, ← ih]
    by_cases hv : t = .void
    · simp [hv]
    · cases hd : distinct ts with
      | nil => simp [hv]
      | cons u us => split <;> simp

/-- a choice's value can be default constructed exactly if that of its first alternative with a value can -/
theorem hasDefault_choiceType (ts : List Ty) :
    HasDefault C (choiceType ts) ↔ ∀ t, (distinct ts).head? = some t → HasDefault C t := by
  unfold choiceType
  generalize distinct ts = us
  match us with
  | [] => simp [hasDefault_void]
  | [t] => simp
  | t :: u :: us => simp [hasDefault_var]

theorem hasDefault_find (ts : List Ty) :
    HasDefault C (choiceType ts) ↔ ∀ t, ts.find? (· ≠ .void) = some t → HasDefault C t := by
  rw [hasDefault_choiceType, head?_distinct]

theorem indexable_prefix {ts us : List Ty} (h : Indexable (ts ++ us)) : Indexable ts := by
  intro before t after he
  exact h before t (after ++ us) (by rw [he]; simp)

/-! ### Lists of parts -/

theorem tysOK_iff {ps : List (Parser α)} : tysOK C ps = true ↔ ∀ p ∈ ps, tyOK C p = true := by
  induction ps with
  | nil => simp [tysOK]
  | cons p ps ih => simp [tysOK, ih]

theorem wfs_iff [LinearOrder α] {ps : List (Parser α)} : Parser.wfs ps = true ↔ ∀ p ∈ ps, p.wf = true := by
  induction ps with
  | nil => simp [Parser.wfs]
  | cons p ps ih => simp [Parser.wfs, ih]

/-- where exactly the void parts have no index -/
theorem parsesOK_iff {ps : List (Parser α)} {is : List (Option Nat)} (hl : is.length = ps.length)
    (hn : ∀ x ∈ ps.zip is, x.2 = none ↔ resultFor C x.1 = .void) :
    parsesOK C ps is = true ↔ ∀ p ∈ ps, resultFor C p ≠ .void → parseOK C p = true := by
  induction ps generalizing is with
  | nil => simp [parsesOK]
  | cons p ps ih =>
    cases is with
    | nil => simp at hl
    | cons i is =>
      simp only [List.zip_cons_cons, List.mem_cons, forall_eq_or_imp] at hn
      have := ih (by simpa using hl) hn.2
      cases i with
      | none => simp [parsesOK, this, hn.1.1 rfl]
      | some i =>
        have hv : resultFor C p ≠ .void := fun h => by simpa using hn.1.2 h
        simp [parsesOK, this, hv]

theorem positions_length' (n : Nat) (ts : List Ty) : (positions n ts).length = ts.length := by
  induction ts generalizing n with
  | nil => rfl
  | cons t ts ih => simp only [positions]; split <;> simp [ih]

theorem positions_none {ps : List (Parser α)} (n : Nat) :
    ∀ x ∈ ps.zip (positions n (resultsFor C ps)), x.2 = none ↔ resultFor C x.1 = .void := by
  induction ps generalizing n with
  | nil => simp
  | cons p ps ih =>
    simp only [resultsFor, positions]
    split
    · next h => simpa [h] using ih n
    · next h => simpa [h] using ih (n + 1)

theorem wanted_none {us : List Ty} {ps : List (Parser α)} :
    ∀ x ∈ ps.zip ((resultsFor C ps).map (wanted us)), x.2 = none ↔ resultFor C x.1 = .void := by
  induction ps with
  | nil => simp
  | cons p ps ih =>
    simp only [resultsFor, List.map_cons, List.zip_cons_cons, List.mem_cons, forall_eq_or_imp]
    refine ⟨?_, ih⟩
    simp [wanted]

/-- the parts of a sequence find their places in the tuple -/
theorem elementsOK_tuple {tr : Trait} {us : List Ty} (hu : tr.unwrapped = false) (ht : tr.ty = .tup us)
    (pre ts : List Ty) (h : us = pre ++ ts.filter (· ≠ .void)) :
    elementsOK C false tr ts (positions pre.length ts) = true := by
  induction ts generalizing pre with
  | nil => rfl
  | cons t ts ih =>
    by_cases hv : t = .void
    · simp only [positions, if_pos hv, elementsOK, elementOK, Bool.true_and]
      exact ih pre (by simpa [hv] using h)
    · simp only [positions, if_neg hv, elementsOK, Bool.and_eq_true]
      have h' : us = (pre ++ [t]) ++ ts.filter (· ≠ .void) := by simpa [hv] using h
      refine ⟨?_, by simpa using ih (pre ++ [t]) h'⟩
      simp [elementOK, hu, ht, h']

theorem elementsOK_single {tr : Trait} {c : Bool} (hu : tr.unwrapped = true) {ts : List Ty} (n : Nat)
    (h : ∀ t ∈ ts, t ≠ .void → t = tr.ty) : elementsOK C c tr ts (positions n ts) = true := by
  induction ts generalizing n with
  | nil => rfl
  | cons t ts ih =>
    simp only [List.mem_cons, forall_eq_or_imp] at h
    by_cases hv : t = .void
    · simp only [positions, if_pos hv, elementsOK, elementOK, Bool.true_and]
      exact ih _ h.2
    · simp only [positions, if_neg hv, elementsOK, Bool.and_eq_true]
      exact ⟨by simp [elementOK, hu, h.1 hv], ih _ h.2⟩

/-- every sequence's elements fit -/
theorem elementsOK_sequence (ts : List Ty) :
    elementsOK C false (sequenceTrait ts) ts (sequenceTrait ts).seq = true := by
  have hu := sequenceTrait_unwrapped ts
  have ht := sequenceTrait_ty ts
  rw [sequenceTrait_seq]
  by_cases h : (ts.filter (· ≠ .void)).length ≤ 1
  · refine elementsOK_single (hu.2 h) 0 fun t hm hv => ?_
    have hm' : t ∈ ts.filter (· ≠ .void) := by simp [hm, hv]
    rw [ht, sequenceType]
    generalize ts.filter (· ≠ .void) = us at h hm'
    match us, h, hm' with
    | [u], _, hm' => simpa [tupleType] using hm'
  · have hu' : (sequenceTrait ts).unwrapped = false := by
      rw [← Bool.not_eq_true, hu]; exact h
    refine elementsOK_tuple (us := ts.filter (· ≠ .void)) hu' ?_ [] ts (by simp)
    rw [ht, sequenceType]
    generalize ts.filter (· ≠ .void) = us at h
    match us, h with
    | [], h => simp at h
    | [_], h => simp at h
    | _ :: _ :: _, _ => rfl

theorem elementsOK_map {tr : Trait} {c : Bool} {f : Ty → Option Nat} {ts : List Ty}
    (h : ∀ t ∈ ts, elementOK C c tr t (f t) = true) : elementsOK C c tr ts (ts.map f) = true := by
  induction ts with
  | nil => rfl
  | cons t ts ih =>
    simp only [List.mem_cons, forall_eq_or_imp] at h
    simp [elementsOK, h.1, ih h.2]

/-- the elements of a choice fit if the recorded indices are right -/
theorem elementsOK_choice {ts : List Ty} (hi : Indexable ts) :
    elementsOK C true (choiceTrait ts) ts (choiceTrait ts).seq = true := by
  have hu := choiceTrait_unwrapped ts
  have ht := choiceTrait_ty ts
  rw [choiceTrait_seq, (filterOutVoidDeduplicate_snd ts).2 hi]
  refine elementsOK_map fun t hm => ?_
  by_cases hv : t = .void
  · simp [wanted, hv, elementOK]
  · have hd : t ∈ distinct ts := (mem_distinct _ _).2 ⟨hm, hv⟩
    simp only [wanted, if_neg hv, elementOK]
    unfold choiceType at ht
    generalize distinct ts = ds at hu ht hd
    match ds, hd with
    | [u], hd =>
      rw [if_pos (hu.2 (by simp)), ht]
      simpa using hd
    | u :: w :: us, hd =>
      have hf : (choiceTrait ts).unwrapped = false := by
        rw [← Bool.not_eq_true, hu]; simp
      rw [hf, ht]
      have hlt := List.idxOf_lt_length_iff.2 hd
      have : (u :: w :: us)[List.idxOf t (u :: w :: us)]? = some t := by
        rw [List.getElem?_eq_getElem hlt, List.getElem_idxOf]
      simp [this, convOK]

end Tok3n
