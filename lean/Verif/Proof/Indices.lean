import Verif.Spec.Combinators
import Mathlib.Data.List.Induction
import Mathlib.Tactic.Set
import Mathlib.Tactic.ByContra
/-
The index sequences computed by `filter_out_void` and `filter_out_void_deduplicate`.
-/

namespace Tok3n

/-! ### `filter_out_void_deduplicate` -/

theorem distinct_snoc (ts : List Ty) (t : Ty) :
    distinct (ts ++ [t]) = if t = .void ∨ t ∈ distinct ts then distinct ts else distinct ts ++ [t] := by
  simp only [distinct, List.foldl_append, List.foldl_cons, List.foldl_nil]
  congr

theorem mem_distinct (ts : List Ty) (t : Ty) : t ∈ distinct ts ↔ t ∈ ts ∧ t ≠ .void := by
  induction ts using List.reverseRecOn with
  | nil => simp [distinct]
  | append_singleton ts u ih =>
    rw [distinct_snoc]
    split
    · next h =>
      rw [ih, List.mem_append, List.mem_singleton]
      constructor
      · rintro ⟨h1, h2⟩; exact ⟨.inl h1, h2⟩
      · rintro ⟨h1 | rfl, h2⟩
        · exact ⟨h1, h2⟩
        · rcases h with h | h
          · exact absurd h h2
          · exact ih.1 h
    · next h =>
      rw [List.mem_append, List.mem_append, List.mem_singleton, ih]
      simp only [not_or] at h
      constructor
      · rintro (⟨h1, h2⟩ | rfl)
        · exact ⟨.inl h1, h2⟩
        · exact ⟨.inr rfl, h.1⟩
      · rintro ⟨h1 | rfl, h2⟩
        · exact .inl ⟨h1, h2⟩
        · exact .inr rfl

theorem distinct_nodup (ts : List Ty) : (distinct ts).Nodup := by
  induction ts using List.reverseRecOn with
  | nil => simp [distinct]
  | append_singleton ts u ih =>
    rw [distinct_snoc]
    split
    · exact ih
    · next h =>
      simp only [not_or] at h
      rw [List.nodup_append]
      exact ⟨ih, by simp, by rintro a ha b hb rfl; simp only [List.mem_singleton] at hb; subst hb; exact h.2 ha⟩

theorem distinct_append_prefix (ts us : List Ty) : ∃ vs, distinct (ts ++ us) = distinct ts ++ vs := by
  induction us using List.reverseRecOn with
  | nil => exact ⟨[], by simp⟩
  | append_singleton us u ih =>
    obtain ⟨vs, h⟩ := ih
    rw [← List.append_assoc, distinct_snoc, h]
    split
    · exact ⟨vs, rfl⟩
    · exact ⟨vs ++ [u], by simp⟩

theorem distinct_clean {ts : List Ty} (h : ts.Nodup) (hv : .void ∉ ts) : distinct ts = ts := by
  induction ts using List.reverseRecOn with
  | nil => rfl
  | append_singleton ts u ih =>
    rw [List.nodup_append] at h
    simp only [List.mem_append, List.mem_singleton, not_or] at hv
    rw [distinct_snoc, ih h.1 hv.1, if_neg]
    rintro (rfl | hu)
    · exact hv.2 rfl
    · exact h.2.2 u hu u (by simp) rfl

theorem distinct_length_le (ts : List Ty) : (distinct ts).length ≤ ts.length := by
  induction ts using List.reverseRecOn with
  | nil => simp [distinct]
  | append_singleton ts u ih =>
    rw [distinct_snoc]
    split <;> simp <;> omega

theorem clean_of_distinct_length {ts : List Ty} (h : (distinct ts).length = ts.length) :
    ts.Nodup ∧ .void ∉ ts := by
  induction ts using List.reverseRecOn with
  | nil => simp
  | append_singleton ts u ih =>
    rw [distinct_snoc] at h
    have hle := distinct_length_le ts
    split at h
    · simp at h; omega
    · next hu =>
      simp only [not_or] at hu
      simp only [List.length_append, List.length_singleton, Nat.add_right_cancel_iff] at h
      obtain ⟨h1, h2⟩ := ih h
      rw [distinct_clean h1 h2] at hu
      refine ⟨?_, ?_⟩
      · rw [List.nodup_append]
        exact ⟨h1, by simp, by rintro a ha b hb rfl; simp only [List.mem_singleton] at hb; subst hb; exact hu.2 ha⟩
      · simp only [List.mem_append, List.mem_singleton, not_or]
        exact ⟨h2, fun h => hu.1 h.symm⟩

/-- the index a type should have -/
def wanted (us : List Ty) (t : Ty) : Option Nat := if t = .void then none else some (us.idxOf t)

theorem fdwi_cons (done : List Ty) (is : List (Option Nat)) (next : Nat) (t : Ty) (ts : List Ty) :
    filterDeduplicateWithIndex done is next (t :: ts) =
      if isNotVoid t && !(decide (t ∈ done)) then
        filterDeduplicateWithIndex (done ++ [t]) (is ++ [nextIndex done is next t]) (next + 1) ts
      else filterDeduplicateWithIndex done (is ++ [nextIndex done is next t]) next ts := by
  cases ts with
  | nil =>
    simp only [filterDeduplicateWithIndex]
    split <;> rfl
  | cons u us => simp only [filterDeduplicateWithIndex]

theorem indexLookup_eq {us : List Ty} {is : List (Option Nat)} {t : Ty} (h : t ∈ us)
    (hl : us.length ≤ is.length) : some (indexLookup us is t) = is[us.idxOf t]? := by
  induction us generalizing is with
  | nil => simp at h
  | cons u us ih =>
    cases is with
    | nil => simp at hl
    | cons i is =>
      simp only [indexLookup]
      by_cases htu : t = u
      · subst htu; simp
      · rw [if_neg htu]
        have hmem : t ∈ us := by simpa [htu] using h
        rw [if_neg (by rintro rfl; simp at hmem), ih hmem (by simpa using hl)]
        rw [List.idxOf_cons_ne _ (Ne.symm htu), List.getElem?_cons_succ]

theorem wanted_append {us vs : List Ty} {t : Ty} (h : t ∈ us) : wanted (us ++ vs) t = wanted us t := by
  unfold wanted
  split
  · rfl
  · rw [List.idxOf_append_of_mem h]

theorem map_wanted_append (us vs : List Ty) (ts : List Ty) (h : ∀ t ∈ ts, t ≠ .void → t ∈ us) :
    ts.map (wanted (us ++ vs)) = ts.map (wanted us) := by
  apply List.map_congr_left
  intro t ht
  by_cases hv : t = .void
  · simp [wanted, hv]
  · exact wanted_append (h t ht hv)

theorem map_wanted_prefix (pre rest : List Ty) :
    pre.map (wanted (distinct (pre ++ rest))) = pre.map (wanted (distinct pre)) := by
  obtain ⟨vs, h⟩ := distinct_append_prefix pre rest
  rw [h]
  exact map_wanted_append _ _ _ fun t ht hv => (mem_distinct _ _).2 ⟨ht, hv⟩

/-- the distinct types are computed correctly in any case -/
theorem fdwi_fst (pre rest : List Ty) (is : List (Option Nat)) (next : Nat) :
    (filterDeduplicateWithIndex (distinct pre) is next rest).1 = distinct (pre ++ rest) := by
  induction rest generalizing pre is next with
  | nil => simp [filterDeduplicateWithIndex]
  | cons t rest ih =>
    rw [fdwi_cons]
    have e : pre ++ t :: rest = (pre ++ [t]) ++ rest := by simp
    have hd := distinct_snoc pre t
    split
    · next h =>
      simp only [isNotVoid, Bool.and_eq_true, bne_iff_ne, ne_eq, Bool.not_eq_true', decide_eq_false_iff_not] at h
      rw [if_neg (by simp [h])] at hd
      rw [← hd, ih, e]
    · next h =>
      simp only [isNotVoid, Bool.and_eq_true, bne_iff_ne, ne_eq, Bool.not_eq_true', decide_eq_false_iff_not,
        not_and, not_not] at h
      rw [if_pos (by by_cases hv : t = .void; exact .inl hv; exact .inr (h hv))] at hd
      rw [← hd, ih, e]

theorem fdwi_snd_append (done : List Ty) (is : List (Option Nat)) (next : Nat) (rest : List Ty) :
    ∃ js, (filterDeduplicateWithIndex done is next rest).2 = is ++ js ∧ js.length = rest.length := by
  induction rest generalizing done is next with
  | nil => exact ⟨[], by simp [filterDeduplicateWithIndex]⟩
  | cons t rest ih =>
    rw [fdwi_cons]
    split
    · obtain ⟨js, h, hl⟩ := ih (done ++ [t]) (is ++ [nextIndex done is next t]) (next + 1)
      exact ⟨_ :: js, by rw [h]; simp; rfl, by simp [hl]⟩
    · obtain ⟨js, h, hl⟩ := ih done (is ++ [nextIndex done is next t]) next
      exact ⟨_ :: js, by rw [h]; simp; rfl, by simp [hl]⟩

/-- what precedes the first occurrence is clean -/
def CleanBefore (l : List Ty) (t : Ty) : Prop :=
  (l.takeWhile (· ≠ t)).Nodup ∧ .void ∉ l.takeWhile (· ≠ t)

theorem split_at_first {l : List Ty} {t : Ty} (h : t ∈ l) :
    ∃ rest, l = l.takeWhile (· ≠ t) ++ t :: rest ∧ t ∉ l.takeWhile (· ≠ t) := by
  induction l with
  | nil => simp at h
  | cons u l ih =>
    by_cases hu : u = t
    · subst hu; exact ⟨l, by simp⟩
    · have hm : t ∈ l := by
        rcases List.mem_cons.1 h with rfl | h
        · exact absurd rfl hu
        · exact h
      obtain ⟨rest, h1, h2⟩ := ih hm
      refine ⟨rest, ?_, ?_⟩
      · rw [List.takeWhile_cons_of_pos (by simpa using hu)]
        simpa using h1
      · rw [List.takeWhile_cons_of_pos (by simpa using hu)]
        simp only [List.mem_cons, not_or]
        exact ⟨Ne.symm hu, h2⟩

/-- the recorded index of a repeated type is right exactly if its first occurrence is
preceded by neither void nor a repetition -/
theorem lookup_right_iff {pre : List Ty} {t : Ty} (hv : t ≠ .void) (ht : t ∈ pre) :
    indexLookup (distinct pre) (pre.map (wanted (distinct pre))) t = some ((distinct pre).idxOf t) ↔
      CleanBefore pre t := by
  have hmem : t ∈ distinct pre := (mem_distinct _ _).2 ⟨ht, hv⟩
  obtain ⟨rest, hsplit, hnot⟩ := split_at_first ht
  unfold CleanBefore
  generalize hq : pre.takeWhile (fun x => decide (x ≠ t)) = q at *
  clear hq
  have hlk := indexLookup_eq (is := pre.map (wanted (distinct pre))) hmem (by simpa using distinct_length_le pre)
  -- the index of `t` among the distinct types
  have hdq : t ∉ distinct q := fun h => hnot ((mem_distinct _ _).1 h).1
  obtain ⟨vs, hvs⟩ := distinct_append_prefix (q ++ [t]) rest
  have hd : distinct pre = distinct q ++ t :: vs := by
    have e : pre = (q ++ [t]) ++ rest := by rw [hsplit]; simp
    rw [e, hvs, distinct_snoc, if_neg (by simp [hv, hdq])]; simp
  have hidx : (distinct pre).idxOf t = (distinct q).length := by
    rw [hd, List.idxOf_append_of_notMem hdq]; simp
  have hle := distinct_length_le q
  constructor
  · intro h
    rw [h] at hlk
    rw [List.getElem?_map, eq_comm, Option.map_eq_some_iff] at hlk
    obtain ⟨u, hu, hw⟩ := hlk
    have huv : u ≠ .void := by rintro rfl; simp [wanted] at hw
    have hut : u = t := by
      rw [wanted, if_neg huv, Option.some.injEq] at hw
      have hu' : u ∈ distinct pre := (mem_distinct _ _).2 ⟨List.mem_of_getElem? hu, huv⟩
      exact (List.idxOf_inj hu').1 hw
    rw [hut, hidx] at hu
    have hge : q.length ≤ (distinct q).length := by
      by_contra hlt
      rw [not_le] at hlt
      rw [hsplit, List.getElem?_append_left hlt] at hu
      exact hnot (List.mem_of_getElem? hu)
    exact clean_of_distinct_length (by omega)
  · rintro ⟨h1, h2⟩
    have hc := distinct_clean h1 h2
    rw [hidx, hc, List.getElem?_map, hsplit, List.getElem?_append_right (le_refl _)] at hlk
    simp only [Nat.sub_self, List.getElem?_cons_zero, Option.map_some, Option.some.injEq] at hlk
    rw [← hsplit] at hlk
    rw [hlk, wanted, if_neg hv]

theorem fdwi_right_iff (pre rest : List Ty) :
    (filterDeduplicateWithIndex (distinct pre) (pre.map (wanted (distinct pre))) (distinct pre).length rest).2 =
      (pre ++ rest).map (wanted (distinct (pre ++ rest))) ↔
    ∀ a t b, rest = a ++ t :: b → t ≠ .void → t ∈ pre ++ a → CleanBefore (pre ++ a) t := by
  induction rest generalizing pre with
  | nil => simp [filterDeduplicateWithIndex]
  | cons t rest ih =>
    have e : pre ++ t :: rest = (pre ++ [t]) ++ rest := by simp
    -- what the recursion needs
    have hgood : nextIndex (distinct pre) (pre.map (wanted (distinct pre))) (distinct pre).length t =
          wanted (distinct (pre ++ [t])) t ↔ (t ≠ .void → t ∈ pre → CleanBefore pre t) := by
      unfold nextIndex
      by_cases hv : t = .void
      · subst hv; simp [isNotVoid, wanted]
      · rw [if_pos (by simpa [isNotVoid] using hv)]
        by_cases ht : t ∈ distinct pre
        · rw [if_pos ht, distinct_snoc, if_pos (.inr ht)]
          have := ((mem_distinct _ _).1 ht).1
          rw [wanted, if_neg hv, lookup_right_iff hv this]
          simp [hv, this]
        · rw [if_neg ht, distinct_snoc, if_neg (by simp [hv, ht]), wanted, if_neg hv,
            List.idxOf_append_of_notMem ht]
          have : t ∉ pre := fun h => ht ((mem_distinct _ _).2 ⟨h, hv⟩)
          simp [this]
    have hpre : (pre ++ [t]).map (wanted (distinct (pre ++ [t]))) =
        pre.map (wanted (distinct pre)) ++ [wanted (distinct (pre ++ [t])) t] := by
      rw [List.map_append, map_wanted_prefix]; rfl
    -- the recursive call, in either case
    have hrec : filterDeduplicateWithIndex (distinct pre) (pre.map (wanted (distinct pre)))
        (distinct pre).length (t :: rest) =
        filterDeduplicateWithIndex (distinct (pre ++ [t]))
          (pre.map (wanted (distinct pre)) ++
            [nextIndex (distinct pre) (pre.map (wanted (distinct pre))) (distinct pre).length t])
          (distinct (pre ++ [t])).length rest := by
      rw [fdwi_cons, distinct_snoc]
      by_cases hv : t = .void
      · simp [isNotVoid, hv]
      · by_cases ht : t ∈ distinct pre
        · simp [isNotVoid, ht]
        · simp [isNotVoid, hv, ht]
    rw [hrec, e]
    by_cases hg : t ≠ .void → t ∈ pre → CleanBefore pre t
    · rw [hgood.2 hg, ← hpre, ih (pre ++ [t])]
      constructor
      · intro h a u b hr hu hmem
        cases a with
        | nil =>
          simp only [List.nil_append, List.cons.injEq] at hr
          obtain ⟨rfl, rfl⟩ := hr
          simp only [List.append_nil] at hmem ⊢
          exact hg hu hmem
        | cons x a =>
          simp only [List.cons_append, List.cons.injEq] at hr
          obtain ⟨rfl, rfl⟩ := hr
          simpa using h a u b rfl hu (by simpa using hmem)
      · intro h a u b hr hu hmem
        have := h (t :: a) u b (by simp [hr]) hu (by simpa using hmem)
        simpa using this
    · constructor
      · intro h
        exfalso
        obtain ⟨js, hjs, -⟩ := fdwi_snd_append (distinct (pre ++ [t]))
          (pre.map (wanted (distinct pre)) ++
            [nextIndex (distinct pre) (pre.map (wanted (distinct pre))) (distinct pre).length t])
          (distinct (pre ++ [t])).length rest
        rw [hjs, List.map_append, map_wanted_prefix, hpre] at h
        simp only [List.append_assoc] at h
        have := List.append_cancel_left h
        simp only [List.singleton_append, List.cons.injEq] at this
        exact hg (hgood.1 this.1)
      · intro h
        exfalso
        exact hg fun hv hm => by simpa using h [] t rest rfl hv (by simpa using hm)

/-- `filter_out_void_deduplicate` lists the distinct non-void types -/
theorem filterOutVoidDeduplicate_fst (ts : List Ty) : (filterOutVoidDeduplicate ts).1 = distinct ts :=
  fdwi_fst [] ts [] 0

/-- … and its indices are right exactly if the list is `Indexable` -/
theorem filterOutVoidDeduplicate_snd (ts : List Ty) :
    (filterOutVoidDeduplicate ts).2 = ts.map (wanted (distinct ts)) ↔ Indexable ts := by
  have := fdwi_right_iff [] ts
  simpa [Indexable, CleanBefore, distinct, filterOutVoidDeduplicate] using this

theorem filterOutVoidDeduplicate_length (ts : List Ty) : (filterOutVoidDeduplicate ts).2.length = ts.length := by
  obtain ⟨js, h, hl⟩ := fdwi_snd_append [] [] 0 ts
  rw [filterOutVoidDeduplicate, h]; simpa using hl

theorem choiceTrait_ty (ts : List Ty) : (choiceTrait ts).ty = choiceType ts := by
  simp only [choiceTrait, compoundTrait, choiceType, filterOutVoidDeduplicate_fst]
  cases distinct ts with
  | nil => rfl
  | cons a l => cases l <;> rfl
theorem choiceTrait_seq (ts : List Ty) : (choiceTrait ts).seq = (filterOutVoidDeduplicate ts).2 := by
  simp only [choiceTrait, compoundTrait]
  split <;> rfl
theorem choiceTrait_unwrapped (ts : List Ty) :
    (choiceTrait ts).unwrapped = true ↔ (distinct ts).length ≤ 1 := by
  simp only [choiceTrait, compoundTrait, filterOutVoidDeduplicate_fst]
  split
  · next h => simp [h]
  · next h => simp [h]
  · next h1 h2 =>
    simp only [Bool.false_eq_true, false_iff, not_le]
    cases hd : distinct ts with
    | nil => exact absurd hd h1
    | cons a l =>
      cases l with
      | nil => exact absurd hd (h2 a)
      | cons b l => simp

/-! ### `filter_out_void` -/

theorem fwi_cons (done : List Ty) (is : List (Option Nat)) (next : Nat) (t : Ty) (ts : List Ty) :
    filterWithIndex done is next (t :: ts) =
      if isNotVoid t then filterWithIndex (done ++ [t]) (is ++ [some next]) (next + 1) ts
      else filterWithIndex done (is ++ [none]) next ts := by
  cases ts with
  | nil => simp only [filterWithIndex]; split <;> rfl
  | cons u us => simp only [filterWithIndex]

/-- positions of the non-void types, counted from `n` -/
def positions (n : Nat) : List Ty → List (Option Nat)
  | [] => []
  | t :: ts => if t = .void then none :: positions n ts else some n :: positions (n + 1) ts

theorem fwi_eq (done : List Ty) (is : List (Option Nat)) (next : Nat) (ts : List Ty) :
    filterWithIndex done is next ts = (done ++ ts.filter (· ≠ .void), is ++ positions next ts) := by
  induction ts generalizing done is next with
  | nil => simp [filterWithIndex, positions]
  | cons t ts ih =>
    rw [fwi_cons, ih, ih]
    by_cases h : t = .void <;> simp [h, isNotVoid, positions]

theorem filterOutVoid_eq (ts : List Ty) : filterOutVoid ts = (ts.filter (· ≠ .void), positions 0 ts) := by
  simp [filterOutVoid, fwi_eq]

end Tok3n

namespace Tok3n

theorem fdwi_void (done : List Ty) (is : List (Option Nat)) (next : Nat) (rest : List Ty) (n : Nat)
    (h : rest[n]? = some .void) :
    (filterDeduplicateWithIndex done is next rest).2[is.length + n]? = some none := by
  induction rest generalizing done is next n with
  | nil => simp at h
  | cons t rest ih =>
    rw [fdwi_cons]
    cases n with
    | zero =>
      simp only [List.getElem?_cons_zero, Option.some.injEq] at h
      subst h
      have : (isNotVoid .void && !(decide (Ty.void ∈ done))) = false := rfl
      rw [this]
      obtain ⟨js, hj, -⟩ := fdwi_snd_append done (is ++ [nextIndex done is next .void]) next rest
      simp only [Bool.false_eq_true, if_false]
      rw [hj]
      simp [nextIndex, isNotVoid]
    | succ n =>
      simp only [List.getElem?_cons_succ] at h
      split
      · have := ih (done ++ [t]) (is ++ [nextIndex done is next t]) (next + 1) n h
        simpa [Nat.add_assoc, Nat.add_comm 1 n] using this
      · have := ih done (is ++ [nextIndex done is next t]) next n h
        simpa [Nat.add_assoc, Nat.add_comm 1 n] using this

theorem choiceTrait_void (ts : List Ty) (n : Nat) (h : ts[n]? = some .void) :
    (choiceTrait ts).seq[n]? = some none := by
  rw [choiceTrait_seq]
  simpa [filterOutVoidDeduplicate] using fdwi_void [] [] 0 ts n h

end Tok3n
