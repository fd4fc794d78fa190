import Verif.Spec.Recorded
import Verif.Proof.Choice
/-
The indices that are recorded for a choice.
-/

namespace Tok3n

variable {α β : Type} {C : Ctx α β}

theorem fdwi_recorded (pre rest : List Ty) (is : List (Option Nat)) (hl : is.length = pre.length) :
    ∀ before t after, rest = before ++ t :: after →
      (filterDeduplicateWithIndex (distinct pre) is (distinct pre).length rest).2[pre.length + before.length]? =
      some (nextIndex (distinct (pre ++ before))
        ((filterDeduplicateWithIndex (distinct pre) is (distinct pre).length rest).2.take (pre.length + before.length))
        (distinct (pre ++ before)).length t) := by
  induction rest generalizing pre is with
  | nil => intro b t a h; simp at h
  | cons u rest ih =>
    intro b t a h
    have hcons : filterDeduplicateWithIndex (distinct pre) is (distinct pre).length (u :: rest) =
        filterDeduplicateWithIndex (distinct (pre ++ [u]))
          (is ++ [nextIndex (distinct pre) is (distinct pre).length u]) (distinct (pre ++ [u])).length rest := by
      rw [fdwi_cons, distinct_snoc]
      by_cases hu : u = .void
      · simp [isNotVoid, hu]
      · by_cases hm : u ∈ distinct pre
        · simp [isNotVoid, hm]
        · simp [isNotVoid, hm, hu]
    rw [hcons]
    cases b with
    | nil =>
      simp only [List.nil_append, List.cons.injEq] at h
      obtain ⟨rfl, rfl⟩ := h
      obtain ⟨js, hj, -⟩ := fdwi_snd_append (distinct (pre ++ [u]))
        (is ++ [nextIndex (distinct pre) is (distinct pre).length u]) (distinct (pre ++ [u])).length rest
      rw [hj]
      simp [← hl]
    | cons c b =>
      simp only [List.cons_append, List.cons.injEq] at h
      obtain ⟨rfl, h⟩ := h
      have := ih (pre ++ [u]) (is ++ [nextIndex (distinct pre) is (distinct pre).length u]) (by simp [hl]) b t a h
      simp only [List.length_append, List.length_cons, List.length_nil, Nat.zero_add, List.append_assoc,
        List.cons_append, List.nil_append] at this
      have e : pre.length + (u :: b).length = pre.length + 1 + b.length := by simp; omega
      rw [e]
      exact this

theorem recorded (ts : List Ty) : Recorded ts (filterOutVoidDeduplicate ts).2 := by
  have key : ∀ before t after, ts = before ++ t :: after → (filterOutVoidDeduplicate ts).2[before.length]? =
      some (nextIndex (distinct before) ((filterOutVoidDeduplicate ts).2.take before.length) (distinct before).length t) := by
    intro b t a h
    have := fdwi_recorded [] ts [] rfl b t a h
    have e : distinct [] = [] := rfl
    simpa [filterOutVoidDeduplicate, e] using this
  refine ⟨filterOutVoidDeduplicate_length ts, fun b a h => ?_, fun b t a h hv hm => ?_, fun b t a h hv hm => ?_⟩
  · rw [key b _ a h]; simp [nextIndex, isNotVoid]
  · rw [key b _ a h]
    have : t ∉ distinct b := fun h => hm ((mem_distinct _ _).1 h).1
    simp [nextIndex, isNotVoid, hv, this]
  · rw [key b _ a h]
    have hd : t ∈ distinct b := (mem_distinct _ _).2 ⟨hm, hv⟩
    have hlen : b.length < (filterOutVoidDeduplicate ts).2.length := by
      rw [filterOutVoidDeduplicate_length, h]; simp
    have hi : (distinct b).idxOf t < b.length :=
      Nat.lt_of_lt_of_le (List.idxOf_lt_length_iff.2 hd) (distinct_length_le b)
    simp only [nextIndex, isNotVoid, bne_iff_ne, ne_eq, hv, not_false_eq_true, if_true, hd]
    rw [indexLookup_eq hd (by rw [List.length_take]; exact Nat.le_min.2 ⟨distinct_length_le b, Nat.le_trans (distinct_length_le b) (Nat.le_of_lt hlen)⟩),
      List.getElem?_take_of_lt hi]

/-- there is one record only -/
theorem Recorded.unique {ts : List Ty} {is js : List (Option Nat)} (h : Recorded ts is) (h' : Recorded ts js) : is = js := by
  have key : ∀ n, n < ts.length → is[n]? = js[n]? := by
    intro n
    induction n using Nat.strong_induction_on with
    | _ n ih =>
      intro hn
      have hs : ts = ts.take n ++ ts[n] :: ts.drop (n + 1) := by
        rw [List.getElem_cons_drop, List.take_append_drop]
      have hl : (ts.take n).length = n := by rw [List.length_take]; omega
      by_cases hv : ts[n] = .void
      · rw [hv] at hs
        have h1 := h.void _ _ hs
        have h2 := h'.void _ _ hs
        rw [hl] at h1 h2
        rw [h1, h2]
      · by_cases hm : ts[n] ∈ ts.take n
        · have h1 := h.again _ _ _ hs hv hm
          have h2 := h'.again _ _ _ hs hv hm
          rw [hl] at h1 h2
          have hi : (distinct (ts.take n)).idxOf ts[n] < n := by
            have := Nat.lt_of_lt_of_le (List.idxOf_lt_length_iff.2 ((mem_distinct _ _).2 ⟨hm, hv⟩)) (distinct_length_le (ts.take n))
            omega
          rw [h1, h2, ih _ hi (by omega)]
        · have h1 := h.first _ _ _ hs hv hm
          have h2 := h'.first _ _ _ hs hv hm
          rw [hl] at h1 h2
          rw [h1, h2]
  apply List.ext_getElem?
  intro n
  by_cases hn : n < ts.length
  · exact key n hn
  · rw [List.getElem?_eq_none (by rw [h.length]; omega), List.getElem?_eq_none (by rw [h'.length]; omega)]

/-- an index that is recorded is one of the variant -/
theorem Recorded.lt {ts : List Ty} {is : List (Option Nat)} (h : Recorded ts is) :
    ∀ n i : Nat, is[n]? = some (some i) → i < (distinct ts).length := by
  intro n
  induction n using Nat.strong_induction_on with
  | _ n ih =>
    intro i hi
    have hn : n < ts.length := by
      rw [← h.length]
      exact (List.getElem?_eq_some_iff.1 hi).1
    have hs : ts = ts.take n ++ ts[n] :: ts.drop (n + 1) := by
      rw [List.getElem_cons_drop, List.take_append_drop]
    have hl : (ts.take n).length = n := by rw [List.length_take]; omega
    by_cases hv : ts[n] = .void
    · rw [hv] at hs
      have h1 := h.void _ _ hs
      rw [hl, hi] at h1
      simp at h1
    · by_cases hm : ts[n] ∈ ts.take n
      · have h1 := h.again _ _ _ hs hv hm
        rw [hl, hi] at h1
        have hi : (distinct (ts.take n)).idxOf ts[n] < n := by
          have := Nat.lt_of_lt_of_le (List.idxOf_lt_length_iff.2 ((mem_distinct _ _).2 ⟨hm, hv⟩)) (distinct_length_le (ts.take n))
          omega
        exact ih _ hi _ h1.symm
      · have h1 := h.first _ _ _ hs hv hm
        rw [hl, hi] at h1
        simp only [Option.some.injEq] at h1
        subst h1
        obtain ⟨vs, hvs⟩ := distinct_append_prefix (ts.take n ++ [ts[n]]) (ts.drop (n + 1))
        rw [List.append_assoc, List.singleton_append, ← hs, distinct_snoc, if_neg] at hvs
        · rw [hvs]; simp
        · rintro (h | h)
          · exact hv h
          · exact hm ((mem_distinct _ _).1 h).1

end Tok3n
