import Verif.Model.BasicApi
/-
Sorted duplicate-free lists: `sort_and_unique` and the set operations.
-/

namespace Tok3n

variable {α : Type} [LinearOrder α]

theorem isSortedAndUniqued_iff (l : List α) : isSortedAndUniqued l = true ↔ l.Pairwise (· < ·) := by
  induction l with
  | nil => simp [isSortedAndUniqued]
  | cons a l ih =>
    cases l with
    | nil => simp [isSortedAndUniqued]
    | cons b l =>
      simp only [isSortedAndUniqued]
      by_cases h : b ≤ a
      · rw [if_pos h, List.pairwise_cons]
        simp only [Bool.false_eq_true, false_iff, not_and]
        intro hh
        exact absurd (hh b (by simp)) (not_lt.2 h)
      · rw [if_neg h, ih, List.pairwise_cons (a := a)]
        refine ⟨fun hp => ⟨fun x hx => ?_, hp⟩, fun hp => hp.2⟩
        have hab := not_le.1 h
        rcases List.mem_cons.1 hx with rfl | hx
        · exact hab
        · exact hab.trans ((List.pairwise_cons.1 hp).1 x hx)

theorem mem_uniqueAdjacent (l : List α) (x : α) : x ∈ uniqueAdjacent l ↔ x ∈ l := by
  induction l with
  | nil => simp [uniqueAdjacent]
  | cons a l ih =>
    cases l with
    | nil => simp [uniqueAdjacent]
    | cons b l =>
      simp only [uniqueAdjacent]
      split
      · next h => subst h; rw [ih]; simp
      · rw [List.mem_cons, ih, ← List.mem_cons]

theorem uniqueAdjacent_sorted (l : List α) (h : l.Pairwise (· ≤ ·)) :
    (uniqueAdjacent l).Pairwise (· < ·) := by
  induction l with
  | nil => simp [uniqueAdjacent]
  | cons a l ih =>
    cases l with
    | nil => simp [uniqueAdjacent]
    | cons b l =>
      have h2 := List.pairwise_cons.1 h
      simp only [uniqueAdjacent]
      split
      · exact ih h2.2
      · next hab =>
        rw [List.pairwise_cons]
        refine ⟨fun x hx => ?_, ih h2.2⟩
        rw [mem_uniqueAdjacent] at hx
        have hlt : a < b := lt_of_le_of_ne (h2.1 b (by simp)) hab
        rcases List.mem_cons.1 hx with rfl | hx
        · exact hlt
        · exact lt_of_lt_of_le hlt ((List.pairwise_cons.1 h2.2).1 x hx)

theorem mem_sortAndUnique (l : List α) (x : α) : x ∈ sortAndUnique l ↔ x ∈ l := by
  unfold sortAndUnique
  split
  · rfl
  · rw [mem_uniqueAdjacent, List.mem_insertionSort]

theorem sortAndUnique_sorted (l : List α) : (sortAndUnique l).Pairwise (· < ·) := by
  unfold sortAndUnique
  split
  · next h => exact (isSortedAndUniqued_iff l).1 h
  · exact uniqueAdjacent_sorted _ (List.pairwise_insertionSort _ _)

/-- a strictly sorted list is determined by its elements -/
theorem sorted_ext {l l' : List α} (h : l.Pairwise (· < ·)) (h' : l'.Pairwise (· < ·))
    (hm : ∀ x, x ∈ l ↔ x ∈ l') : l = l' := by
  induction l generalizing l' with
  | nil =>
    cases l' with
    | nil => rfl
    | cons b l' => exact absurd ((hm b).2 (by simp)) (by simp)
  | cons a l ih =>
    cases l' with
    | nil => exact absurd ((hm a).1 (by simp)) (by simp)
    | cons b l' =>
      have h1 := List.pairwise_cons.1 h
      have h2 := List.pairwise_cons.1 h'
      have hab : a = b := by
        have ha := (hm a).1 (by simp)
        have hb := (hm b).2 (by simp)
        rcases List.mem_cons.1 ha with e | ha
        · exact e
        rcases List.mem_cons.1 hb with e | hb
        · exact e.symm
        exact absurd (h2.1 a ha) (not_lt.2 (h1.1 b hb).le)
      subst hab
      congr 1
      refine ih h1.2 h2.2 fun x => ?_
      have := hm x
      simp only [List.mem_cons] at this
      constructor
      · intro hx
        rcases this.1 (.inr hx) with rfl | h
        · exact absurd (h1.1 x hx) (lt_irrefl _)
        · exact h
      · intro hx
        rcases this.2 (.inr hx) with rfl | h
        · exact absurd (h2.1 x hx) (lt_irrefl _)
        · exact h

/-- membership in the result of each set operation -/
def SetOp.keeps (o : SetOp) (inL inR : Prop) : Prop :=
  match o with
  | .union => inL ∨ inR
  | .intersection => inL ∧ inR
  | .differenceLeft => inL ∧ ¬ inR
  | .differenceRight => inR ∧ ¬ inL

theorem mem_doIf {u x : α} {c : Bool} {rest : List α} : x ∈ doIf u c rest ↔ (c = true ∧ x = u) ∨ x ∈ rest := by
  unfold doIf; split <;> simp [*]

theorem mem_setOperation (o : SetOp) (l r : List α) (hl : l.Pairwise (· < ·)) (hr : r.Pairwise (· < ·)) (x : α) :
    x ∈ setOperation o l r ↔ o.keeps (x ∈ l) (x ∈ r) := by
  induction l, r using setOperation.induct with
  | case1 => simp [setOperation, SetOp.keeps]; cases o <;> simp
  | case2 r rs ih =>
    have h2 := List.pairwise_cons.1 hr
    rw [setOperation, mem_doIf, ih hl h2.2]
    cases o <;> simp [SetOp.keeps]
  | case3 l ls ih =>
    have h1 := List.pairwise_cons.1 hl
    rw [setOperation, mem_doIf, ih h1.2 hr]
    cases o <;> simp [SetOp.keeps]
  | case4 l ls r rs hlt ih =>
    have h1 := List.pairwise_cons.1 hl
    have h2 := List.pairwise_cons.1 hr
    have hn : x = l → ¬ (x = r ∨ x ∈ rs) := by
      rintro rfl (rfl | hx)
      · exact lt_irrefl _ hlt
      · exact lt_irrefl _ (hlt.trans (h2.1 _ hx))
    rw [setOperation, if_pos hlt, mem_doIf, ih h1.2 hr]
    cases o <;> simp only [SetOp.keeps, List.mem_cons] <;> simp <;> tauto
  | case5 l ls r rs hnlt hlt ih =>
    have h1 := List.pairwise_cons.1 hl
    have h2 := List.pairwise_cons.1 hr
    have hn : x = r → ¬ (x = l ∨ x ∈ ls) := by
      rintro rfl (rfl | hx)
      · exact lt_irrefl _ hlt
      · exact lt_irrefl _ (hlt.trans (h1.1 _ hx))
    rw [setOperation, if_neg hnlt, if_pos hlt, mem_doIf, ih hl h2.2]
    cases o <;> simp only [SetOp.keeps, List.mem_cons] <;> simp <;> tauto
  | case6 l ls r rs h1' h2' ih =>
    have h1 := List.pairwise_cons.1 hl
    have h2 := List.pairwise_cons.1 hr
    have he : l = r := le_antisymm (not_lt.1 h2') (not_lt.1 h1')
    subst he
    have hn1 : x = l → x ∉ ls := by rintro rfl hx; exact lt_irrefl _ (h1.1 _ hx)
    have hn2 : x = l → x ∉ rs := by rintro rfl hx; exact lt_irrefl _ (h2.1 _ hx)
    rw [setOperation, if_neg h1', if_neg h2', mem_doIf, ih h1.2 h2.2]
    by_cases hx : x = l
    · have e1 := hn1 hx
      have e2 := hn2 hx
      cases o <;> simp [SetOp.keeps, List.mem_cons, hx] <;> simp_all
    · cases o <;> simp [SetOp.keeps, List.mem_cons, hx]

theorem setOperation_mem_or (o : SetOp) (l r : List α) (x : α) (h : x ∈ setOperation o l r) : x ∈ l ∨ x ∈ r := by
  induction l, r using setOperation.induct with
  | case1 => simp [setOperation] at h
  | case2 r rs ih =>
    rw [setOperation, mem_doIf] at h
    rcases h with ⟨-, rfl⟩ | h
    · simp
    · rcases ih h with h | h <;> simp_all
  | case3 l ls ih =>
    rw [setOperation, mem_doIf] at h
    rcases h with ⟨-, rfl⟩ | h
    · simp
    · rcases ih h with h | h <;> simp_all
  | case4 l ls r rs hlt ih =>
    rw [setOperation, if_pos hlt, mem_doIf] at h
    rcases h with ⟨-, rfl⟩ | h
    · simp
    · rcases ih h with h | h <;> simp_all
  | case5 l ls r rs hnlt hlt ih =>
    rw [setOperation, if_neg hnlt, if_pos hlt, mem_doIf] at h
    rcases h with ⟨-, rfl⟩ | h
    · simp
    · rcases ih h with h | h <;> simp_all
  | case6 l ls r rs h1' h2' ih =>
    rw [setOperation, if_neg h1', if_neg h2', mem_doIf] at h
    rcases h with ⟨-, rfl⟩ | h
    · simp
    · rcases ih h with h | h <;> simp_all

theorem doIf_sorted {u : α} {c : Bool} {rest : List α} (h : rest.Pairwise (· < ·)) (hu : ∀ x ∈ rest, u < x) :
    (doIf u c rest).Pairwise (· < ·) := by
  unfold doIf; split
  · exact List.pairwise_cons.2 ⟨hu, h⟩
  · exact h

theorem setOperation_sorted (o : SetOp) (l r : List α) (hl : l.Pairwise (· < ·)) (hr : r.Pairwise (· < ·)) :
    (setOperation o l r).Pairwise (· < ·) := by
  induction l, r using setOperation.induct with
  | case1 => simp [setOperation]
  | case2 r rs ih =>
    have h2 := List.pairwise_cons.1 hr
    rw [setOperation]
    refine doIf_sorted (ih hl h2.2) fun x hx => ?_
    rcases setOperation_mem_or _ _ _ _ hx with h | h
    · simp at h
    · exact h2.1 x h
  | case3 l ls ih =>
    have h1 := List.pairwise_cons.1 hl
    rw [setOperation]
    refine doIf_sorted (ih h1.2 hr) fun x hx => ?_
    rcases setOperation_mem_or _ _ _ _ hx with h | h
    · exact h1.1 x h
    · simp at h
  | case4 l ls r rs hlt ih =>
    have h1 := List.pairwise_cons.1 hl
    have h2 := List.pairwise_cons.1 hr
    rw [setOperation, if_pos hlt]
    refine doIf_sorted (ih h1.2 hr) fun x hx => ?_
    rcases setOperation_mem_or _ _ _ _ hx with h | h
    · exact h1.1 x h
    · rcases List.mem_cons.1 h with rfl | h
      · exact hlt
      · exact hlt.trans (h2.1 x h)
  | case5 l ls r rs hnlt hlt ih =>
    have h1 := List.pairwise_cons.1 hl
    have h2 := List.pairwise_cons.1 hr
    rw [setOperation, if_neg hnlt, if_pos hlt]
    refine doIf_sorted (ih hl h2.2) fun x hx => ?_
    rcases setOperation_mem_or _ _ _ _ hx with h | h
    · rcases List.mem_cons.1 h with rfl | h
      · exact hlt
      · exact hlt.trans (h1.1 x h)
    · exact h2.1 x h
  | case6 l ls r rs h1' h2' ih =>
    have h1 := List.pairwise_cons.1 hl
    have h2 := List.pairwise_cons.1 hr
    have he : l = r := le_antisymm (not_lt.1 h2') (not_lt.1 h1')
    subst he
    rw [setOperation, if_neg h1', if_neg h2']
    refine doIf_sorted (ih h1.2 h2.2) fun x hx => ?_
    rcases setOperation_mem_or _ _ _ _ hx with h | h
    · exact h1.1 x h
    · exact h2.1 x h

/-- the size of the result array is the number of elements written to it -/
theorem setOperationCount_eq (o : SetOp) (l r : List α) :
    setOperationCount o l r = (setOperation o l r).length := by
  induction l, r using setOperation.induct with
  | case1 => simp [setOperation, setOperationCount]
  | case2 r rs ih => rw [setOperation, setOperationCount, ih, doIf]; split <;> simp [*, Nat.add_comm]
  | case3 l ls ih => rw [setOperation, setOperationCount, ih, doIf]; split <;> simp [*, Nat.add_comm]
  | case4 l ls r rs hlt ih =>
    rw [setOperation, setOperationCount, if_pos hlt, if_pos hlt, ih, doIf]; split <;> simp [*, Nat.add_comm]
  | case5 l ls r rs hnlt hlt ih =>
    rw [setOperation, setOperationCount, if_neg hnlt, if_neg hnlt, if_pos hlt, if_pos hlt, ih, doIf]
    split <;> simp [*, Nat.add_comm]
  | case6 l ls r rs h1' h2' ih =>
    rw [setOperation, setOperationCount, if_neg h1', if_neg h1', if_neg h2', if_neg h2', ih, doIf]
    split <;> simp [*, Nat.add_comm]

end Tok3n
