import Verif.Proof.Stack
import Verif.Proof.Productive
import Mathlib.Data.Finset.Card
/-
Proofs for C64: the rank and the height that bound the nesting of calls.
-/

namespace Tok3n

variable {α β : Type} {C : Ctx α β}

theorem le_foldr_max {A : Type} (f : A → Nat) (b : Nat) {l : List A} {x : A} (h : x ∈ l) :
    f x ≤ l.foldr (fun y m => max (f y) m) b := by
  induction l with
  | nil => cases h
  | cons y l ih =>
    simp only [List.foldr_cons]
    rcases List.mem_cons.1 h with rfl | h
    · omega
    · have := ih h; omega

theorem foldr_max_ge {A : Type} (f : A → Nat) (b : Nat) (l : List A) : b ≤ l.foldr (fun y m => max (f y) m) b := by
  induction l with
  | nil => exact Nat.le_refl _
  | cons y l ih => simp only [List.foldr_cons]; omega

/-- finitely many custom parsers, none of which reaches itself before something is consumed, can be ranked -/
theorem exists_rank {p : Parser α} {ks : List Nat} (hks : ∀ k, Uses C p (.custom k) → k ∈ ks)
    (hrec : ∀ k, Uses C p (.custom k) → ¬ Relation.TransGen (fun j k => Reaches C (C.custom j).body k) k k) :
    ∃ rank : Nat → Nat, (∀ k, Uses C p (.custom k) → rank k < ks.toFinset.card + 1) ∧
      ∀ j k, Uses C p (.custom j) → Reaches C (C.custom j).body k → rank k < rank j := by
  classical
  let r : Nat → Nat → Prop := fun j k => Reaches C (C.custom j).body k
  let below : Nat → Finset Nat := fun j => ks.toFinset.filter (Relation.TransGen r j)
  refine ⟨fun j => (below j).card, fun k _ => ?_, fun j k hj hr => ?_⟩
  · exact Nat.lt_succ_of_le (Finset.card_le_card (Finset.filter_subset _ _))
  · have huk : Uses C p (.custom k) := hj.trans (.custom hr.uses)
    refine Finset.card_lt_card ⟨fun i hi => ?_, fun hsub => ?_⟩
    · rw [Finset.mem_filter] at hi ⊢
      exact ⟨hi.1, .head hr hi.2⟩
    · have hkj : k ∈ below j := Finset.mem_filter.2 ⟨by simpa using hks k huk, .single hr⟩
      exact hrec k huk (Finset.mem_filter.1 (hsub hkj)).2

theorem exists_ranked {p : Parser α} {ks : List Nat} (hks : ∀ k, Uses C p (.custom k) → k ∈ ks)
    (hrec : ∀ k, Uses C p (.custom k) → ¬ Relation.TransGen (fun j k => Reaches C (C.custom j).body k) k k) :
    ∃ rank R h, Ranked C rank R h p := by
  obtain ⟨rank, hbelow, hlow⟩ := exists_rank hks hrec
  exact ⟨rank, _, ks.foldr (fun k m => max (C.custom k).body.height m) p.height, hbelow, hlow,
    foldr_max_ge _ _ _, fun k hk => le_foldr_max (fun k => (C.custom k).body.height) _ (hks k hk)⟩

/-- a grammar that passes the check is ranked by the ranks it was checked with -/
theorem productive_ranked {ks : List Nat} {null : Nat → Bool} {rank : Nat → Nat} {p : Parser α} {R h : Nat}
    (hp : productive C ks null rank p = true) (hR : ∀ k ∈ ks, rank k < R) (hh : p.height ≤ h)
    (hb : ∀ k ∈ ks, (C.custom k).body.height ≤ h) : Ranked C rank R h p := by
  obtain ⟨hu, hlow⟩ := productive_ranks hp
  exact ⟨fun k hk => hR k (hu k hk), hlow, hh, fun k hk => hb k (hu k hk)⟩

end Tok3n
