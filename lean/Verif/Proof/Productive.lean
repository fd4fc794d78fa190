import Verif.Proof.Nullable
/-
A grammar that passes the check is productive.
-/

namespace Tok3n

variable {α β : Type} {C : Ctx α β} {null ok : Nat → Bool}

theorem allRepeatsOK_mem {ps : List (Parser α)} (h : allRepeatsOK null ps = true) {q} (hq : q ∈ ps) :
    q.repeatsOK null = true := by
  induction ps with
  | nil => cases hq
  | cons p ps ih =>
    simp only [allRepeatsOK, Bool.and_eq_true] at h
    cases hq with
    | head => exact h.1
    | tail _ hq => exact ih h.2 hq

theorem allCustoms_mem {ps : List (Parser α)} (h : allCustoms ok ps = true) {q} (hq : q ∈ ps) :
    q.customs ok = true := by
  induction ps with
  | nil => cases hq
  | cons p ps ih =>
    simp only [allCustoms, Bool.and_eq_true] at h
    cases hq with
    | head => exact h.1
    | tail _ hq => exact ih h.2 hq

theorem allFirsts_mem {ps : List (Parser α)} (h : allFirsts null ok ps = true) {q} (hq : q ∈ ps) :
    q.firsts null ok = true := by
  induction ps with
  | nil => cases hq
  | cons p ps ih =>
    simp only [allFirsts, Bool.and_eq_true] at h
    cases hq with
    | head => exact h.1
    | tail _ hq => exact ih h.2 hq

theorem repeatsOK_part {p q : Parser α} (h : p.repeatsOK null = true) (hq : q ∈ p.parts) :
    q.repeatsOK null = true := by
  cases p <;> simp only [Parser.parts, List.mem_singleton, List.mem_cons, List.not_mem_nil, or_false] at hq
  case choice => exact allRepeatsOK_mem (by simpa only [Parser.repeatsOK] using h) hq
  case sequence => exact allRepeatsOK_mem (by simpa only [Parser.repeatsOK] using h) hq
  case delimit =>
    simp only [Parser.repeatsOK, Bool.and_eq_true] at h
    rcases hq with rfl | rfl
    · exact h.1.2
    · exact h.2
  case oneOrMore => subst hq; simp only [Parser.repeatsOK, Bool.and_eq_true] at h; exact h.2
  case zeroOrMore => subst hq; simp only [Parser.repeatsOK, Bool.and_eq_true] at h; exact h.2
  all_goals subst hq; simpa only [Parser.repeatsOK] using h

theorem customs_part {p q : Parser α} (h : p.customs ok = true) (hq : q ∈ p.parts) : q.customs ok = true := by
  cases p <;> simp only [Parser.parts, List.mem_singleton, List.mem_cons, List.not_mem_nil, or_false] at hq
  case choice => exact allCustoms_mem (by simpa only [Parser.customs] using h) hq
  case sequence => exact allCustoms_mem (by simpa only [Parser.customs] using h) hq
  case delimit =>
    simp only [Parser.customs, Bool.and_eq_true] at h
    rcases hq with rfl | rfl
    · exact h.1
    · exact h.2
  all_goals subst hq; simpa only [Parser.customs] using h

theorem uses_ok (hb : ∀ k, ok k = true → (C.custom k).body.repeatsOK null = true ∧ (C.custom k).body.customs ok = true)
    {p q : Parser α} (hq : Uses C p q) (hr : p.repeatsOK null = true) (hc : p.customs ok = true) :
    q.repeatsOK null = true ∧ q.customs ok = true := by
  induction hq with
  | self => exact ⟨hr, hc⟩
  | part hm _ ih => exact ih (repeatsOK_part hr hm) (customs_part hc hm)
  | @custom k r _ ih =>
    have := hb k (by simpa only [Parser.customs] using hc)
    exact ih this.1 this.2

theorem repeatsOK_sound (hnull : NullOK C null) {p : Parser α}
    (h : p.repeatsOK null = true) : ¬ RepeatsNothing C p := by
  intro hn
  cases p <;> simp only [RepeatsNothing] at hn
  case delimit p d =>
    simp [Parser.repeatsOK, nullable_sound hnull hn.1, nullable_sound hnull hn.2] at h
  case oneOrMore p => simp [Parser.repeatsOK, nullable_sound hnull hn] at h
  case zeroOrMore p => simp [Parser.repeatsOK, nullable_sound hnull hn] at h

theorem firsts_sound (hnull : NullOK C null) {p : Parser α} {k : Nat}
    (hr : Reaches C p k) (h : p.firsts null ok = true) : ok k = true := by
  induction hr with
  | custom => simpa only [Parser.firsts] using h
  | @within p q k hp _ ih =>
    apply ih
    cases p <;> simp only [Parser.parts, List.cons.injEq, reduceCtorEq, and_false, and_true] at hp
    case choice => subst hp; exact allFirsts_mem (by simpa only [Parser.firsts] using h) (List.mem_singleton_self _)
    case sequence => subst hp; simp only [Parser.firsts, sequenceFirsts, Bool.and_eq_true] at h; exact h.1
    all_goals subst hp; simpa only [Parser.firsts] using h
  | choice hm _ ih => exact ih (allFirsts_mem (by simpa only [Parser.firsts] using h) hm)
  | @sequence qs q rs k hn _ ih =>
    apply ih
    simp only [Parser.firsts] at h
    induction qs with
    | nil => simp only [List.nil_append, sequenceFirsts, Bool.and_eq_true] at h; exact h.1
    | cons x qs ih' =>
      simp only [List.cons_append, sequenceFirsts, Bool.and_eq_true, nullable_sound hnull (hn x List.mem_cons_self),
        Bool.not_true, Bool.false_or] at h
      exact ih' (fun y hy => hn y (List.mem_cons_of_mem _ hy)) h.2
  | element _ ih => simp only [Parser.firsts, Bool.and_eq_true] at h; exact ih h.1
  | delimiter hn _ ih =>
    simp only [Parser.firsts, Bool.and_eq_true, nullable_sound hnull hn, Bool.not_true, Bool.false_or] at h
    exact ih h.2

/-- what the check says -/
theorem productive_spec {ks : List Nat} {null : Nat → Bool} {rank : Nat → Nat} {p : Parser α}
    (h : productive C ks null rank p = true) : (∀ q, Uses C p q → ¬ RepeatsNothing C q) ∧
      (∀ k, Uses C p (.custom k) → k ∈ ks) ∧
      ∀ j k, Uses C p (.custom j) → Reaches C (C.custom j).body k → rank k < rank j := by
  simp only [productive, Bool.and_eq_true, List.all_eq_true] at h
  obtain ⟨⟨hrep, hcus⟩, hall⟩ := h
  generalize hN : (fun k => !ks.contains k || null k) = N at *
  have hnull : NullOK C N := by
    intro k hk
    by_cases hm : k ∈ ks
    · have := (hall k hm).1.1.1
      have e : N k = (!ks.contains k || null k) := by rw [← hN]
      rw [← e] at this
      rcases hk with hk | hk <;> rw [hk] at this <;> simpa using this
    · rw [← hN]; simp [hm]
  have hb : ∀ k, ks.contains k = true →
      (C.custom k).body.repeatsOK N = true ∧ (C.custom k).body.customs ks.contains = true := fun k hk =>
    have := hall k (by simpa using hk)
    ⟨this.1.1.2, this.1.2⟩
  have hu : ∀ {q}, Uses C p q → q.repeatsOK N = true ∧ q.customs ks.contains = true := fun hq => uses_ok hb hq hrep hcus
  have hks : ∀ k, Uses C p (.custom k) → k ∈ ks := fun k hk => by simpa [Parser.customs] using (hu hk).2
  exact ⟨fun q hq => repeatsOK_sound hnull (hu hq).1, hks, fun j k hj hr => by
    simpa using firsts_sound hnull hr (hall j (hks j hj)).2⟩

theorem productive_ranks {ks : List Nat} {null : Nat → Bool} {rank : Nat → Nat} {p : Parser α}
    (h : productive C ks null rank p = true) : (∀ k, Uses C p (.custom k) → k ∈ ks) ∧
      ∀ j k, Uses C p (.custom j) → Reaches C (C.custom j).body k → rank k < rank j := (productive_spec h).2

theorem productive_sound {ks : List Nat} {null : Nat → Bool} {rank : Nat → Nat} {p : Parser α}
    (h : productive C ks null rank p = true) : Productive C p := by
  obtain ⟨hrep, hks, hlow⟩ := productive_spec h
  refine ⟨⟨ks, hks⟩, hrep, fun k hk hcyc => ?_⟩
  suffices h : ∀ j, Relation.TransGen (fun j k => Reaches C (C.custom j).body k) k j → Uses C p (.custom j) ∧ rank j < rank k from
    absurd (h k hcyc).2 (Nat.lt_irrefl _)
  intro j hj
  induction hj with
  | single h => exact ⟨hk.trans (.custom h.uses), hlow _ _ hk h⟩
  | tail _ h ih => exact ⟨ih.1.trans (.custom h.uses), Nat.lt_trans (hlow _ _ ih.1 h) ih.2⟩

end Tok3n
