import Verif.Proof.StackReturns
/-
Proofs for C65: how many calls a run makes that returns, with any grammar.

A run that returns does not get back to a custom parser at the same place, in the same function (as in `StackReturns`).
-/

namespace Tok3n

variable {α β : Type} {C : Ctx α β}

theorem counted_mono_fn (p : Parser α) (m : Bool) (s : Span) : Mono (fun n => (counted C n p).fn m s) := by
  intro n
  cases m with
  | true => exact (counted_le_succ n p s).1
  | false => exact (counted_le_succ n p s).2

theorem counted_diverges_fn {p : Parser α} {s : Span} {i j : Nat} {m : Bool} (h : i ≤ j)
    (hd : (counted C j p).fn m s = .diverge) : (counted C i p).fn m s = .diverge := by
  have := (counted_mono_fn (C := C) p m s).le h
  cases hi : (counted C i p).fn m s with
  | diverge => rfl
  | done l r => have := this (by rw [hi]; nofun); rw [hd, hi] at this; cases this

theorem marked_diverges {P : Sub} {m : Bool} {s : Span} : (marked P).fn m s = .diverge ↔ P.fn m s = .diverge := by
  have : (marked P).fn m s = M.bind (M.log callMark) fun _ => P.fn m s := by cases m <;> rfl
  rw [this, show (M.log callMark : Run Unit) = .done [callMark] (.ok ()) from rfl, M.ok_bind]
  cases P.fn m s with
  | diverge => exact ⟨fun _ => rfl, fun _ => rfl⟩
  | done l r => exact ⟨nofun, nofun⟩

/-- `P` where `V` holds -/
noncomputable def Sub.within (V : Span → Prop) (P : Sub) : Sub := by
  classical exact ⟨fun s => if V s then P.parse s else .diverge, fun s => if V s then P.look s else .diverge⟩

theorem Sub.within_on {V : Span → Prop} {P : Sub} {s : Span} (h : V s) (m : Bool) : (P.within V).fn m s = P.fn m s := by
  cases m <;> exact if_pos h
theorem Sub.within_off {V : Span → Prop} {P : Sub} {s : Span} (h : ¬ V s) (m : Bool) : (P.within V).fn m s = .diverge := by
  cases m <;> exact if_neg h

theorem Tells.within {V : Span → Prop} {P : Sub} {q : Parser α} (h : Tells C P q) : Tells C (P.within V) q := by
  classical
  refine ⟨⟨fun s => ?_, fun s => ?_⟩, fun s l r hr => ?_, fun s l r hr => ?_⟩
  · by_cases hv : V s
    · rw [show (P.within V).parse s = P.parse s from Sub.within_on hv true]; exact h.good.parse s
    · rw [show (P.within V).parse s = .diverge from Sub.within_off hv true]; exact Sat.diverge
  · by_cases hv : V s
    · rw [show (P.within V).look s = P.look s from Sub.within_on hv false]; exact h.good.look s
    · rw [show (P.within V).look s = .diverge from Sub.within_off hv false]; exact Sat.diverge
  · by_cases hv : V s
    · rw [show (P.within V).parse s = P.parse s from Sub.within_on hv true] at hr; exact h.parse s l r hr
    · rw [show (P.within V).parse s = .diverge from Sub.within_off hv true] at hr; cases hr
  · by_cases hv : V s
    · rw [show (P.within V).look s = P.look s from Sub.within_on hv false] at hr; exact h.look s l r hr
    · rw [show (P.within V).look s = .diverge from Sub.within_off hv false] at hr; cases hr

theorem costsAt_iff {P : Sub} {s : Span} {b : Nat} : CostsAt P s b ↔ ∀ m, Costs (P.fn m s) b :=
  ⟨fun h m => by cases m <;> [exact h.2; exact h.1], fun h => ⟨h true, h false⟩⟩

/-- `todo` has the functions of custom parsers a run can get to at this place. -/
theorem counted_returns {p : Parser α} {ks : List Nat} {K : Nat} (hks : ∀ k, Uses C p (.custom k) → k ∈ ks)
    (hK : 2 ≤ K) (hw : ∀ q, Uses C p q → q.weight (rankCost C ks (2 * ks.toFinset.card)) ≤ K)
    (j : Nat) (q : Parser α) (hq : Uses C p q) (todo : Finset (Nat × Bool)) (hsub : todo ⊆ ks.toFinset ×ˢ {true, false}) (s : Span)
    (htodo : ∀ k m, Uses C p (.custom k) → (k, m) ∉ todo → (counted C j (.custom k)).fn m s = .diverge) (hs : s.Valid C.mem) :
    CostsAt (counted C j q) s (q.weight (rankCost C ks todo.card) * K ^ s.len) := by
  have hfull : (ks.toFinset ×ˢ {true, false} : Finset (Nat × Bool)).card = 2 * ks.toFinset.card := by
    rw [Finset.card_product, Nat.mul_comm]; rfl
  induction j using Nat.strong_induction_on generalizing q todo s with
  | _ j ih =>
  cases j with
  | zero => exact ⟨.diverge, .diverge⟩
  | succ j =>
    have hcard := Finset.card_le_card hsub
    rw [hfull] at hcard
    have hb := stepCost_weight (x := rankCost C ks todo.card) (U := K ^ s.len) (Nat.pow_pos (by omega))
      (sumTo_pow hK s.len) q
    by_cases hc : ∃ k, q = .custom k
    · obtain ⟨k, rfl⟩ := hc
      have hu : Uses C p (C.custom k).body := hq.trans (.custom .self)
      suffices H : CostsAt (counted C j (C.custom k).body) s (rankCost C ks todo.card * K ^ s.len) by
        have : CostsAt (step C (counted C j) j (.custom k)) s (rankCost C ks todo.card * K ^ s.len) :=
          ⟨.bindr H.1 fun r => convertResult_logs .., H.2⟩
        have := marked_at this
        exact ⟨this.1.mono hb, this.2.mono hb⟩
      refine costsAt_iff.2 fun m => .of fun l r hr => ?_
      have hne : (counted C j (C.custom k).body).fn m s ≠ .diverge := by rw [hr]; nofun
      have hex : ∃ i, (counted C i (C.custom k).body).fn m s ≠ .diverge := ⟨j, hne⟩
      classical
      obtain ⟨i, hi⟩ : ∃ i, i = Nat.find hex := ⟨_, rfl⟩
      have hne' := Nat.find_spec hex
      have hmin : ∀ i', i' < i → (counted C i' (C.custom k).body).fn m s = .diverge := fun i' h => by
        simpa using Nat.find_min hex (hi ▸ h)
      have hij : i ≤ j := hi ▸ Nat.find_min' hex hne
      rw [← hi] at hne'
      have hself : (counted C i (.custom k)).fn m s = .diverge := by
        cases i with
        | zero => cases m <;> rfl
        | succ i => exact marked_diverges.2 ((custom_diverges i).2 (hmin i (by omega)))
      have hmem : (k, m) ∈ todo := by
        by_contra hnot
        exact hne ((custom_diverges j).1 (marked_diverges.1 (htodo k m hq hnot)))
      have hpos : 0 < todo.card := Finset.card_pos.2 ⟨_, hmem⟩
      have key := costsAt_iff.1 (ih i (by omega) _ hu (todo.erase (k, m)) (fun x hx => hsub (Finset.mem_of_mem_erase hx)) s
        (fun k' m' hk' hn => by
          by_cases h : (k', m') = (k, m)
          · cases h; exact hself
          · exact counted_diverges_fn (by omega) (htodo k' m' hk' fun hm => hn (Finset.mem_erase.2 ⟨h, hm⟩))) hs) m
      rw [Finset.card_erase_of_mem hmem] at key
      have he := ((counted_mono_fn (C := C) (C.custom k).body m s).le hij hne').symm.trans hr
      refine Nat.le_trans (key.on _ _ he) (Nat.mul_le_mul_right _ ?_)
      have := le_foldr_max (fun k' => (C.custom k').body.weight (rankCost C ks (todo.card - 1)))
        (rankCost C ks (todo.card - 1)) (hks k hq)
      rw [show todo.card = todo.card - 1 + 1 by omega]
      exact this
    · have hnc : ∀ k, q ≠ .custom k := fun k hk => hc ⟨k, hk⟩
      have key := step_at (C := C) (n := s.len) (rec := fun r => (counted C j r).within fun s' => s'.SuffixOf s)
        (fun q => (counted_tells j q).within) (F := fun m => K ^ (m + 1))
        (fun a b hab => Nat.pow_le_pow_right (by omega) (by omega))
        (e := fun r => r.weight (rankCost C ks todo.card) * K ^ s.len) (x := rankCost C ks todo.card * K ^ s.len) (q := q) hs rfl
        (fun r hm _ s' hs' hl => costsAt_iff.2 fun m => by
          by_cases hv : s'.SuffixOf s
          · rw [Sub.within_on (V := fun s' => s'.SuffixOf s) hv]
            obtain rfl := hv.eq_of_len hl
            exact costsAt_iff.1 (ih j (by omega) r (hq.child hm) todo hsub s'
              (fun k m hk hn => counted_diverges_fn (by omega) (htodo k m hk hn)) hs') m
          · rw [Sub.within_off (V := fun s' => s'.SuffixOf s) hv]; exact .diverge)
        (fun r hm s' hs' hl => costsAt_iff.2 fun m => by
          by_cases hv : s'.SuffixOf s
          · rw [Sub.within_on (V := fun s' => s'.SuffixOf s) hv]
            have h := costsAt_iff.1 (ih j (by omega) r (hq.child hm) _ (fun _ h => h) s' (fun k m hk hn => by
              refine absurd (Finset.mem_product.2 ⟨List.mem_toFinset.2 (hks k hk), ?_⟩) hn
              cases m <;> simp) hs') m
            rw [hfull] at h
            refine h.mono ?_
            rw [Nat.pow_succ, Nat.mul_comm]; exact Nat.mul_le_mul_left _ (hw r (hq.child hm))
          · rw [Sub.within_off (V := fun s' => s'.SuffixOf s) hv]; exact .diverge)
        (fun k hk => absurd hk (hnc k)) j
      have h2 := step_same (C := C) (V := fun s' => s'.SuffixOf s) (rec := fun r => (counted C j r).within fun s' => s'.SuffixOf s)
        (rec' := counted C j) (q := q) (fun r hr => by
          refine ⟨⟨fun s' hs => Sub.within_on (V := fun s' => s'.SuffixOf s) hs true, fun s' hs l x hx => ?_⟩, ⟨fun s' hs => Sub.within_on (V := fun s' => s'.SuffixOf s) hs false, fun s' hs l x hx => ?_⟩⟩
          · exact (((counted_good j r).parse s').ok hx).suffix.trans hs
          · exact (((counted_good j r).look s').ok hx).suffix.trans hs) hnc (Span.SuffixOf.refl s) j
      simp only [marked] at key
      have k1 := key.1
      have k2 := key.2
      simp only at k1 k2
      rw [h2.1] at k1
      rw [h2.2] at k2
      exact ⟨k1.mono hb, k2.mono hb⟩

/-- the base of the bound: it depends on the grammar only -/
def growth (C : Ctx α β) (ks : List Nat) (p : Parser α) : Nat :=
  let W := rankCost C ks (2 * ks.toFinset.card)
  max 2 (ks.foldr (fun k m => max ((C.custom k).body.weight W) m) (p.weight W))

theorem growth_weight {p : Parser α} {ks : List Nat} (hks : ∀ k, Uses C p (.custom k) → k ∈ ks) {q : Parser α}
    (hq : Uses C p q) : q.weight (rankCost C ks (2 * ks.toFinset.card)) ≤ growth C ks p := by
  generalize hW : rankCost C ks (2 * ks.toFinset.card) = W
  have hp : p.weight W ≤ growth C ks p := by
    subst hW; exact Nat.le_trans (foldr_max_ge _ _ _) (Nat.le_max_right ..)
  have hb : ∀ k ∈ ks, (C.custom k).body.weight W ≤ growth C ks p := fun k hk => by
    subst hW
    exact Nat.le_trans (le_foldr_max (fun k' => (C.custom k').body.weight _) _ hk) (Nat.le_max_right ..)
  suffices H : ∀ x, Uses C p x → x.weight W ≤ growth C ks p → ∀ {q}, Uses C x q → q.weight W ≤ growth C ks p from
    H p .self hp hq
  intro x hx hxh q hq
  induction hq with
  | self => exact hxh
  | part hm _ ih => exact ih (hx.child hm) (Nat.le_trans (weight_part hm) hxh)
  | custom _ ih => exact ih (hx.trans (.custom .self)) (hb _ (hks _ hx))

theorem counted_exponential {p : Parser α} {ks : List Nat} (hks : ∀ k, Uses C p (.custom k) → k ∈ ks)
    (s : Span) (hs : s.Valid C.mem) :
    Costs (CountedParse C p s) (growth C ks p ^ (s.len + 1)) ∧ Costs (CountedLook C p s) (growth C ks p ^ (s.len + 1)) := by
  have key := fun j => counted_returns hks (Nat.le_max_left ..) (fun q hq => growth_weight hks hq) j p .self
    (ks.toFinset ×ˢ {true, false}) (fun _ h => h) s (fun k m hk hn => by
      refine absurd (Finset.mem_product.2 ⟨List.mem_toFinset.2 (hks k hk), ?_⟩) hn
      cases m <;> simp) hs
  have hfull : (ks.toFinset ×ˢ {true, false} : Finset (Nat × Bool)).card = 2 * ks.toFinset.card := by
    rw [Finset.card_product, Nat.mul_comm]; rfl
  rw [hfull] at key
  have hm : p.weight (rankCost C ks (2 * ks.toFinset.card)) * growth C ks p ^ s.len ≤ growth C ks p ^ (s.len + 1) := by
    rw [Nat.pow_succ, Nat.mul_comm]; exact Nat.mul_le_mul_left _ (growth_weight hks .self)
  constructor
  · refine .of fun l r h => ?_
    obtain ⟨j, hj⟩ := CountedParse_eq_done.1 h
    exact Nat.le_trans ((key j).1.on _ _ hj) hm
  · refine .of fun l r h => ?_
    obtain ⟨j, hj⟩ := CountedLook_eq_done.1 h
    exact Nat.le_trans ((key j).2.on _ _ hj) hm

/-- the bound does not depend on anything else -/
theorem growth_custom {C C' : Ctx α β} (h : C'.custom = C.custom) (ks : List Nat) (p : Parser α) :
    growth C' ks p = growth C ks p := by
  have hr : ∀ r, rankCost C' ks r = rankCost C ks r := by
    intro r
    induction r with
    | zero => rfl
    | succ r ih => simp only [rankCost, ih, h]
  simp only [growth, hr, h]

end Tok3n
