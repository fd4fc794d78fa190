import Verif.Proof.Effort
import Verif.Proof.Loops
/-
Proofs for C65: bounds for the number of calls.
-/

namespace Tok3n

variable {α β A B : Type} {C : Ctx α β}

/-! ### The counted functions as limits -/

theorem marked_le {P P' : Sub} (h : P.le P') : (marked P).le (marked P') := fun s =>
  ⟨M.bind_le (m := M.log callMark) (M.le_refl _) fun _ => (h s).1,
    M.bind_le (m := M.log callMark) (M.le_refl _) fun _ => (h s).2⟩

theorem counted_le_succ (n : Nat) (p : Parser α) : (counted C n p).le (counted C (n + 1) p) := by
  induction n generalizing p with
  | zero => exact fun s => ⟨M.diverge_le _, M.diverge_le _⟩
  | succ n ih => exact marked_le (Sub.le_trans (step_rec_le ih n p) (step_fuel_le _ n p))

variable (C) in
/-- the functions with every call marked -/
noncomputable def cden (p : Parser α) : Sub := ⟨CountedParse C p, CountedLook C p⟩

theorem counted_lim (p : Parser α) : SubLim (fun n => counted C n p) (cden C p) :=
  ⟨fun s => Mono.lim fun n => (counted_le_succ n p s).1, fun s => Mono.lim fun n => (counted_le_succ n p s).2⟩

theorem CountedParse_eq_done {p : Parser α} {s : Span} {l r} :
    CountedParse C p s = .done l r ↔ ∃ n, (counted C n p).parse s = .done l r :=
  ((counted_lim p).parse s).iff l r

theorem CountedLook_eq_done {p : Parser α} {s : Span} {l r} :
    CountedLook C p s = .done l r ↔ ∃ n, (counted C n p).look s = .done l r :=
  ((counted_lim p).look s).iff l r

theorem erase_eq_done {m : Run A} {l r} : erase m = .done l r ↔ ∃ l', m = .done l' r ∧ unmarked l' = l := by
  cases m with
  | diverge => exact ⟨nofun, nofun⟩
  | done l' r' =>
    simp only [erase, M.done.injEq]
    exact ⟨fun ⟨h1, h2⟩ => ⟨l', ⟨rfl, h2⟩, h1⟩, fun ⟨l'', ⟨h1, h2⟩, h3⟩ => ⟨h1 ▸ h3, h2⟩⟩

theorem CountedParse_erases (p : Parser α) (s : Span) : erase (CountedParse C p s) = Parse C p s := by
  cases h : Parse C p s with
  | diverge =>
    cases h' : CountedParse C p s with
    | diverge => rfl
    | done l r =>
      obtain ⟨n, hn⟩ := CountedParse_eq_done.1 h'
      have := (counted_erases (C := C) n p).parse s
      rw [Erases, hn] at this
      rw [Parse_eq_done.2 ⟨n, this.symm⟩] at h; cases h
  | done l r =>
    obtain ⟨n, hn⟩ := Parse_eq_done.1 h
    have := (counted_erases (C := C) n p).parse s
    rw [Erases, hn, erase_eq_done] at this
    obtain ⟨l', h1, h2⟩ := this
    rw [CountedParse_eq_done.2 ⟨n, h1⟩]
    rw [erase_eq_done]; exact ⟨l', rfl, h2⟩

theorem CountedLook_erases (p : Parser α) (s : Span) : erase (CountedLook C p s) = Look C p s := by
  cases h : Look C p s with
  | diverge =>
    cases h' : CountedLook C p s with
    | diverge => rfl
    | done l r =>
      obtain ⟨n, hn⟩ := CountedLook_eq_done.1 h'
      have := (counted_erases (C := C) n p).look s
      rw [Erases, hn] at this
      rw [Look_eq_done.2 ⟨n, this.symm⟩] at h; cases h
  | done l r =>
    obtain ⟨n, hn⟩ := Look_eq_done.1 h
    have := (counted_erases (C := C) n p).look s
    rw [Erases, hn, erase_eq_done] at this
    obtain ⟨l', h1, h2⟩ := this
    rw [CountedLook_eq_done.2 ⟨n, h1⟩]
    rw [erase_eq_done]; exact ⟨l', rfl, h2⟩

theorem counted_good (n : Nat) (p : Parser α) : SubGood (counted C n p) := by
  induction n generalizing p with
  | zero => exact ⟨fun _ => Sat.diverge, fun _ => Sat.diverge⟩
  | succ n ih =>
    have h := step_good (C := C) n ih p
    exact ⟨fun s => Sat.bind (m := M.log callMark) (Sat.triv _) fun _ _ => h.parse s,
      fun s => Sat.bind (m := M.log callMark) (Sat.triv _) fun _ _ => h.look s⟩

/-! ### What a run costs -/

/-- If the run ends then after at most `b` calls. -/
structure Costs (m : Run A) (b : Nat) : Prop where of ::
  on : ∀ l r, m = .done l r → l.length ≤ b

theorem Costs.diverge {b : Nat} : Costs (M.diverge : Run A) b := .of fun _ _ h => by cases h
theorem Logs.costs {m : Run A} {b : Nat} (h : Logs m b) : Costs m b := .of fun l r hm => (h.on l r hm).1
theorem Costs.pure {a : A} {b : Nat} : Costs (M.pure a) b := Logs.pure.costs
theorem Costs.mono {m : Run A} {b b' : Nat} (h : Costs m b) (hb : b ≤ b') : Costs m b' :=
  .of fun l r hm => Nat.le_trans (h.on l r hm) hb

theorem Costs.bind {m : Run A} {f : A → Run B} {b b' : Nat} (h : Costs m b)
    (hf : ∀ l a, m = .done l (.ok a) → Costs (f a) b') : Costs (m.bind f) (b + b') := .of fun l r hm => by
  cases m with
  | diverge => cases hm
  | done l1 r1 =>
    have h1 := h.on _ _ rfl
    cases r1 with
    | err e => cases hm; exact Nat.le_trans h1 (Nat.le_add_right ..)
    | ok a =>
      have h2 := hf l1 a rfl
      rw [M.ok_bind] at hm
      obtain ⟨l2, hl, rfl⟩ := M.after_eq_done.1 hm
      have := h2.on _ _ hl
      rw [List.length_append]; omega

theorem Costs.bind0 {m : Run A} {f : A → Run B} {b : Nat} (h : Logs m 0) (hf : ∀ a, Costs (f a) b) : Costs (m.bind f) b :=
  (Costs.bind h.costs fun _ a _ => hf a).mono (Nat.le_of_eq (Nat.zero_add b))

theorem Costs.bindr {m : Run A} {f : A → Run B} {b : Nat} (h : Costs m b) (hf : ∀ a, Logs (f a) 0) : Costs (m.bind f) b :=
  Costs.bind (b' := 0) h fun _ a _ => (hf a).costs

theorem Costs.ite {c : Prop} [Decidable c] {m m' : Run A} {b : Nat} (h : c → Costs m b) (h' : ¬ c → Costs m' b) :
    Costs (if c then m else m') b := by
  split <;> [exact h ‹_›; exact h' ‹_›]

theorem Sat.at {m : Run A} {Q : A → Prop} {E : Err → Prop} (h : Sat m Q E) {l a} (hm : m = .done l (.ok a)) : Q a := by
  rw [hm] at h; exact h

/-- on inputs of length at most `n` the functions cost at most `e` -/
structure SubCosts (P : Sub) (n e : Nat) : Prop where
  parse : ∀ s : Span, s.len ≤ n → Costs (P.parse s) e
  look : ∀ s : Span, s.len ≤ n → Costs (P.look s) e

theorem SubCosts.mono {P : Sub} {n e n' e' : Nat} (h : SubCosts P n e) (hn : n' ≤ n) (he : e ≤ e') : SubCosts P n' e' :=
  ⟨fun s hs => (h.parse s (Nat.le_trans hs hn)).mono he, fun s hs => (h.look s (Nat.le_trans hs hn)).mono he⟩

section loops
variable {P D : Sub} {n e e' : Nat}

theorem exactlyLoop_costs (h : SubCosts P n e) (hg : SubGood P) (T : Ty) (o : Span) (k i : Nat) (s : Span) (v : Val)
    (hs : s.len ≤ n) : Costs (exactlyLoop T P o k i s v) (k * e) := by
  induction k generalizing i s v with
  | zero => exact .pure
  | succ k ih =>
    refine (Costs.bind (b' := k * e) (h.parse s hs) fun l r hr => ?_).mono (by rw [Nat.add_mul]; omega)
    have hl := ((hg.parse s).at hr).suffix.len_le
    exact .ite (fun _ => .pure) fun _ => .bind0 (builderArrayAssign_logs ..) fun v => ih _ _ _ (by omega)

theorem lookExactlyLoop_costs (h : SubCosts P n e) (hg : SubGood P) (o : Span) (k : Nat) (s : Span)
    (hs : s.len ≤ n) : Costs (lookExactlyLoop P o k s) (k * e) := by
  induction k generalizing s with
  | zero => exact .pure
  | succ k ih =>
    refine (Costs.bind (b' := k * e) (h.look s hs) fun l r hr => ?_).mono (by rw [Nat.add_mul]; omega)
    have hl := ((hg.look s).at hr).suffix.len_le
    exact .ite (fun _ => .pure) fun _ => ih _ (by omega)

/-- the value can take more elements -/
def CanInsert (T : Ty) (v : Val) : Prop := T = .void ∨ ∃ ws, v = .vec ws

theorem insertBack_can {T : Ty} {v w : Val} {r : R} {l} (h : builderInsertBack T v r = .done l (.ok w)) :
    CanInsert T w := by
  by_cases hT : T = .void
  · exact .inl hT
  · right
    cases v with
    | vec vs =>
      simp only [builderInsertBack, if_neg hT, M.bind_eq] at h
      rw [M.bind_eq_ok] at h
      obtain ⟨_, _, a, _, h2, _⟩ := h
      cases h2; exact ⟨_, rfl⟩
    | _ => simp only [builderInsertBack, if_neg hT] at h; cases h

theorem CanInsert.insert {T : Ty} {v : Val} (h : CanInsert T v) {r : R} (hr : r.hasValue = true) :
    ∃ w, builderInsertBack T v r = M.pure w ∧ CanInsert T w := by
  by_cases hT : T = .void
  · exact ⟨v, by unfold builderInsertBack; rw [if_pos hT], h⟩
  · obtain ⟨ws, rfl⟩ := h.resolve_left hT
    obtain ⟨_ | x, rem⟩ := r
    · cases hr
    · exact ⟨.vec (ws ++ [x]), by unfold builderInsertBack; rw [if_neg hT]; rfl, .inr ⟨_, rfl⟩⟩

theorem oneOrMoreLoop_stuck {T : Ty} {s : Span} {l r} (hr : P.parse s = .done l (.ok r)) (hv : r.hasValue = true)
    (hs : r.rem = s) (k : Nat) (b : Bool) (v : Val) (hc : CanInsert T v) : oneOrMoreLoop T P k b s v = .diverge := by
  induction k generalizing b v with
  | zero => rfl
  | succ k ih =>
    obtain ⟨w, hw, hc'⟩ := hc.insert hv
    simp only [oneOrMoreLoop, M.bind_eq, hr, M.ok_bind, hv, Bool.not_true, Bool.false_eq_true, if_false, hw, M.pure_bind, hs]
    rw [ih _ _ hc']; rfl

theorem oneOrMoreLoop_costs (h : SubCosts P n e) (hg : SubGood P) (T : Ty) (k : Nat) (b : Bool) (s : Span) (v : Val)
    (hs : s.len ≤ n) : Costs (oneOrMoreLoop T P k b s v) ((s.len + 1) * e) := by
  induction k generalizing b s v with
  | zero => exact .diverge
  | succ k ih =>
    refine (Costs.bind (b' := s.len * e) (h.parse s hs) fun l r hr => ?_).mono (by rw [Nat.add_mul]; omega)
    refine .ite (fun _ => .pure) fun hv => ?_
    have hv : r.hasValue = true := by simpa using hv
    have hl := ((hg.parse s).at hr).suffix
    by_cases hlt : r.rem.len < s.len
    · exact .bind0 (builderInsertBack_logs ..) fun w => (ih _ r.rem _ (by omega)).mono (Nat.mul_le_mul_right _ hlt)
    · have hrs := hl.eq_of_len (Nat.le_antisymm hl.len_le (by omega))
      refine (Costs.bind (b' := s.len * e) (builderInsertBack_logs ..).costs fun l w hw => ?_).mono
        (Nat.le_of_eq (Nat.zero_add _))
      rw [hrs, oneOrMoreLoop_stuck hr hv hrs _ _ _ (insertBack_can hw)]
      exact .diverge

theorem zeroOrMoreLoop_stuck {T : Ty} {s : Span} {l r} (hr : P.parse s = .done l (.ok r)) (hv : r.hasValue = true)
    (hs : r.rem = s) (k : Nat) (v : Val) (hc : CanInsert T v) : zeroOrMoreLoop T P k s v = .diverge := by
  induction k generalizing v with
  | zero => rfl
  | succ k ih =>
    obtain ⟨w, hw, hc'⟩ := hc.insert hv
    simp only [zeroOrMoreLoop, M.bind_eq, hr, M.ok_bind, hv, Bool.not_true, Bool.false_eq_true, if_false, hw, M.pure_bind, hs]
    rw [ih _ hc']; rfl

theorem zeroOrMoreLoop_costs (h : SubCosts P n e) (hg : SubGood P) (T : Ty) (k : Nat) (s : Span) (v : Val)
    (hs : s.len ≤ n) : Costs (zeroOrMoreLoop T P k s v) ((s.len + 1) * e) := by
  induction k generalizing s v with
  | zero => exact .diverge
  | succ k ih =>
    refine (Costs.bind (b' := s.len * e) (h.parse s hs) fun l r hr => ?_).mono (by rw [Nat.add_mul]; omega)
    refine .ite (fun _ => .pure) fun hv => ?_
    have hv : r.hasValue = true := by simpa using hv
    have hl := ((hg.parse s).at hr).suffix
    by_cases hlt : r.rem.len < s.len
    · exact .bind0 (builderInsertBack_logs ..) fun w => (ih r.rem _ (by omega)).mono (Nat.mul_le_mul_right _ hlt)
    · have hrs := hl.eq_of_len (Nat.le_antisymm hl.len_le (by omega))
      refine (Costs.bind (b' := s.len * e) (builderInsertBack_logs ..).costs fun l w hw => ?_).mono
        (Nat.le_of_eq (Nat.zero_add _))
      rw [hrs, zeroOrMoreLoop_stuck hr hv hrs _ _ (insertBack_can hw)]
      exact .diverge

theorem lookOneOrMoreLoop_costs (h : SubCosts P n e) (hg : SubGood P) (k : Nat) (b : Bool) (s : Span)
    (hs : s.len ≤ n) : Costs (lookOneOrMoreLoop P k b s) ((s.len + 1) * e) := by
  induction k generalizing b s with
  | zero => exact .diverge
  | succ k ih =>
    refine (Costs.bind (b' := s.len * e) (h.look s hs) fun l r hr => ?_).mono (by rw [Nat.add_mul]; omega)
    refine .ite (fun _ => .pure) fun hv => ?_
    have hv : r.hasValue = true := by simpa using hv
    have hl := ((hg.look s).at hr).suffix
    by_cases hlt : r.rem.len < s.len
    · exact (ih _ r.rem (by omega)).mono (Nat.mul_le_mul_right _ hlt)
    · have hrs := hl.eq_of_len (Nat.le_antisymm hl.len_le (by omega))
      have hstuck : ∀ k b, lookOneOrMoreLoop P k b s = .diverge := by
        intro k
        induction k with
        | zero => intro b; rfl
        | succ k ih =>
          intro b
          simp only [lookOneOrMoreLoop, M.bind_eq, hr, M.ok_bind, hv, Bool.not_true, Bool.false_eq_true, if_false, hrs]
          rw [ih]; rfl
      rw [hrs, hstuck]
      exact .diverge

theorem lookZeroOrMoreLoop_costs (h : SubCosts P n e) (hg : SubGood P) (k : Nat) (s : Span)
    (hs : s.len ≤ n) : Costs (lookZeroOrMoreLoop P k s) ((s.len + 1) * e) := by
  induction k generalizing s with
  | zero => exact .diverge
  | succ k ih =>
    refine (Costs.bind (b' := s.len * e) (h.look s hs) fun l r hr => ?_).mono (by rw [Nat.add_mul]; omega)
    refine .ite (fun _ => .pure) fun hv => ?_
    have hv : r.hasValue = true := by simpa using hv
    have hl := ((hg.look s).at hr).suffix
    by_cases hlt : r.rem.len < s.len
    · exact (ih r.rem (by omega)).mono (Nat.mul_le_mul_right _ hlt)
    · have hrs := hl.eq_of_len (Nat.le_antisymm hl.len_le (by omega))
      have hstuck : ∀ k, lookZeroOrMoreLoop P k s = .diverge := by
        intro k
        induction k with
        | zero => rfl
        | succ k ih =>
          simp only [lookZeroOrMoreLoop, M.bind_eq, hr, M.ok_bind, hv, Bool.not_true, Bool.false_eq_true, if_false, hrs]
          rw [ih]; rfl
      rw [hrs, hstuck]
      exact .diverge

/-- the value can take more elements and delimiters -/
def CanRecord (T tp td : Ty) (v : Val) : Prop :=
  T = .void ∨ (td = .void ∧ tp = .void) ∨ (¬ (tp ≠ .void ∧ td ≠ .void) ∧ ∃ ws, v = .vec ws) ∨
    (tp ≠ .void ∧ td ≠ .void ∧ ∃ a b, v = .pair (.vec a) (.vec b))

theorem insertBack_void {v : Val} {r : R} : builderInsertBack .void v r = M.pure v := by
  unfold builderInsertBack; rw [if_pos rfl]
theorem insertBackFirst_void {v : Val} {r : R} : builderInsertBackFirst .void v r = M.pure v := by
  unfold builderInsertBackFirst; rw [if_pos rfl]
theorem insertBackSecond_void {v : Val} {r : R} : builderInsertBackSecond .void v r = M.pure v := by
  unfold builderInsertBackSecond; rw [if_pos rfl]

theorem CanRecord.p {T tp td : Ty} {v : Val} (h : CanRecord T tp td v) {r : R} (hr : r.hasValue = true) :
    ∃ w, delimitRecordP T tp td v r = M.pure w ∧ CanRecord T tp td w := by
  obtain ⟨_ | x, rem⟩ := r
  · cases hr
  unfold delimitRecordP
  by_cases hT : T = .void
  · subst hT; rw [insertBack_void, insertBackFirst_void]; simp only [ite_self]; exact ⟨v, rfl, .inl rfl⟩
  by_cases htp : tp = .void
  · rw [if_neg (by simp [htp])]; exact ⟨v, rfl, h⟩
  · rw [if_pos htp]
    rcases h with h | ⟨_, h⟩ | ⟨h1, ws, rfl⟩ | ⟨h1, h2, a, b, rfl⟩
    · exact absurd h hT
    · exact absurd h htp
    · have htd : td = .void := by by_contra hh; exact h1 ⟨htp, hh⟩
      rw [if_pos htd]
      exact ⟨.vec (ws ++ [x]), by unfold builderInsertBack; rw [if_neg hT]; rfl, .inr (.inr (.inl ⟨h1, _, rfl⟩))⟩
    · rw [if_neg h2]
      exact ⟨.pair (.vec (a ++ [x])) (.vec b), by unfold builderInsertBackFirst; rw [if_neg hT]; rfl,
        .inr (.inr (.inr ⟨h1, h2, _, _, rfl⟩))⟩

theorem CanRecord.d {T tp td : Ty} {v : Val} (h : CanRecord T tp td v) {r d : R} (hr : r.hasValue = true)
    (hd : d.hasValue = true) : ∃ w, delimitRecordD T tp td v r d = M.pure w ∧ CanRecord T tp td w := by
  obtain ⟨_ | x, rem⟩ := d
  · cases hd
  unfold delimitRecordD
  rw [if_pos hr]
  by_cases hT : T = .void
  · subst hT; rw [insertBack_void, insertBackSecond_void]; simp only [ite_self]; exact ⟨v, rfl, .inl rfl⟩
  by_cases htd : td = .void
  · rw [if_neg (by simp [htd])]; exact ⟨v, rfl, h⟩
  · rw [if_pos htd]
    rcases h with h | ⟨h, _⟩ | ⟨h1, ws, rfl⟩ | ⟨h1, h2, a, b, rfl⟩
    · exact absurd h hT
    · exact absurd h htd
    · have htp : tp = .void := by by_contra hh; exact h1 ⟨hh, htd⟩
      rw [if_pos htp]
      exact ⟨.vec (ws ++ [x]), by unfold builderInsertBack; rw [if_neg hT]; rfl, .inr (.inr (.inl ⟨h1, _, rfl⟩))⟩
    · rw [if_neg h1]
      exact ⟨.pair (.vec a) (.vec (b ++ [x])), by unfold builderInsertBackSecond; rw [if_neg hT]; rfl,
        .inr (.inr (.inr ⟨h1, h2, _, _, rfl⟩))⟩

theorem insertBackFirst_shape {T : Ty} (hT : T ≠ .void) {v w : Val} {r : R} {l}
    (h : builderInsertBackFirst T v r = .done l (.ok w)) : ∃ a b, w = .pair (.vec a) b := by
  unfold builderInsertBackFirst at h
  rw [if_neg hT] at h
  split at h
  · rw [M.bind_eq, M.bind_eq_ok] at h
    obtain ⟨_, _, a, _, h2, _⟩ := h
    cases h2; exact ⟨_, _, rfl⟩
  · cases h

theorem insertBackSecond_shape {T : Ty} (hT : T ≠ .void) {v w : Val} {r : R} {l}
    (h : builderInsertBackSecond T v r = .done l (.ok w)) : ∃ a b b', v = .pair a b ∧ w = .pair a (.vec b') := by
  unfold builderInsertBackSecond at h
  rw [if_neg hT] at h
  split at h
  · rw [M.bind_eq, M.bind_eq_ok] at h
    obtain ⟨_, _, a, _, h2, _⟩ := h
    cases h2; exact ⟨_, _, _, rfl, rfl⟩
  · cases h

theorem canRecord_of {T tp td : Ty} {v w u : Val} {r r' d : R} {l l'} (hr : r'.hasValue = true)
    (h : delimitRecordP T tp td v r = .done l (.ok w)) (h' : delimitRecordD T tp td w r' d = .done l' (.ok u)) :
    CanRecord T tp td u := by
  unfold delimitRecordP at h
  unfold delimitRecordD at h'
  rw [if_pos hr] at h'
  by_cases hT : T = .void
  · exact .inl hT
  by_cases htp : tp = .void
  · by_cases htd : td = .void
    · exact .inr (.inl ⟨htd, htp⟩)
    · rw [if_pos htd, if_pos htp] at h'
      exact .inr (.inr (.inl ⟨fun h => h.1 htp, (insertBack_can h').resolve_left hT⟩))
  · rw [if_pos htp] at h
    by_cases htd : td = .void
    · rw [if_neg (by simp [htd])] at h'
      cases h'
      rw [if_pos htd] at h
      exact .inr (.inr (.inl ⟨fun h => h.2 htd, (insertBack_can h).resolve_left hT⟩))
    · rw [if_neg htd] at h
      rw [if_pos htd, if_neg htp] at h'
      obtain ⟨a, b, rfl⟩ := insertBackFirst_shape hT h
      obtain ⟨a', b', b'', h1, rfl⟩ := insertBackSecond_shape hT h'
      cases h1
      exact .inr (.inr (.inr ⟨htp, htd, _, _, rfl⟩))

theorem delimitLoop_stuck {T tp td : Ty} {s : Span} {l l' r d} (hd : D.parse s = .done l (.ok d)) (hdv : d.hasValue = true)
    (hr : P.parse d.rem = .done l' (.ok r)) (hv : r.hasValue = true) (hs : r.rem = s) (k : Nat) (o : Span) (v : Val)
    (hc : CanRecord T tp td v) : delimitLoop T tp td P D k r o v = .diverge := by
  induction k generalizing o v with
  | zero => rfl
  | succ k ih =>
    obtain ⟨w, hw, hc'⟩ := hc.p hv
    obtain ⟨u, hu, hc''⟩ := hc'.d hv hdv
    simp only [delimitLoop, M.bind_eq, hd, hr, M.ok_bind, hv, hdv, Bool.not_true, Bool.false_eq_true, if_false, hw, hu,
      M.pure_bind, hs]
    rw [ih _ _ hc'']; rfl

theorem delimitLoop_costs (h : SubCosts P n e) (hg : SubGood P) (h' : SubCosts D n e') (hg' : SubGood D) (T tp td : Ty)
    (k : Nat) (r : R) (o : Span) (v : Val) (hs : r.rem.len ≤ n) :
    Costs (delimitLoop T tp td P D k r o v) ((r.rem.len + 1) * (e + e')) := by
  induction k generalizing r o v with
  | zero => exact .diverge
  | succ k ih =>
    refine .ite (fun _ => .pure) fun hv => ?_
    have hv : r.hasValue = true := by simpa using hv
    refine (Costs.bind (b' := e' + (e + r.rem.len * (e + e'))) (delimitRecordP_logs ..).costs fun _ w hw => ?_).mono
      (by rw [Nat.add_mul]; omega)
    refine Costs.bind (h'.parse _ hs) fun l d hd => .ite (fun _ => .pure) fun hdv => ?_
    have hdv : d.hasValue = true := by simpa using hdv
    have hl := ((hg'.parse _).at hd).suffix
    refine Costs.bind (h.parse _ (Nat.le_trans hl.len_le hs)) fun l' r' hr' => ?_
    have hl' := ((hg.parse _).at hr').suffix
    refine (Costs.bind (b' := r.rem.len * (e + e')) (delimitRecordD_logs ..).costs fun _ u hu => ?_).mono
      (Nat.le_of_eq (Nat.zero_add _))
    by_cases hlt : r'.rem.len < r.rem.len
    · exact (ih _ _ _ (by omega)).mono (Nat.mul_le_mul_right _ hlt)
    · cases hv' : r'.hasValue with
      | false =>
        cases k with
        | zero => exact .diverge
        | succ k =>
          unfold delimitLoop
          rw [if_pos (by simp [hv'])]
          exact .pure
      | true =>
        have hrs := (hl'.trans hl).eq_of_len (Nat.le_antisymm (hl'.trans hl).len_le (by omega))
        rw [delimitLoop_stuck hd hdv hr' hv' hrs _ _ _ (canRecord_of hv' hw hu)]
        exact .diverge

theorem lookDelimitLoop_costs (h : SubCosts P n e) (hg : SubGood P) (h' : SubCosts D n e') (hg' : SubGood D)
    (k : Nat) (r : R) (o : Span) (hs : r.rem.len ≤ n) :
    Costs (lookDelimitLoop P D k r o) ((r.rem.len + 1) * (e + e')) := by
  induction k generalizing r o with
  | zero => exact .diverge
  | succ k ih =>
    refine .ite (fun _ => .pure) fun hv => ?_
    have hv : r.hasValue = true := by simpa using hv
    refine (Costs.bind (b' := e + r.rem.len * (e + e')) (h'.look _ hs) fun l d hd =>
      .ite (fun _ => .pure) fun hdv => ?_).mono (by rw [Nat.add_mul]; omega)
    have hdv : d.hasValue = true := by simpa using hdv
    have hl := ((hg'.look _).at hd).suffix
    refine Costs.bind (h.look _ (Nat.le_trans hl.len_le hs)) fun l' r' hr' => ?_
    have hl' := ((hg.look _).at hr').suffix
    by_cases hlt : r'.rem.len < r.rem.len
    · exact (ih _ _ (by omega)).mono (Nat.mul_le_mul_right _ hlt)
    · cases hv' : r'.hasValue with
      | false =>
        cases k with
        | zero => exact .diverge
        | succ k =>
          unfold lookDelimitLoop
          rw [if_pos (by simp [hv'])]
          exact .pure
      | true =>
        have hrs := (hl'.trans hl).eq_of_len (Nat.le_antisymm (hl'.trans hl).len_le (by omega))
        have hstuck : ∀ k o, lookDelimitLoop P D k r' o = .diverge := by
          intro k
          induction k with
          | zero => intro o; rfl
          | succ k ih =>
            intro o
            simp only [lookDelimitLoop, M.bind_eq, hrs, hd, hr', M.ok_bind, hv', hdv, Bool.not_true, Bool.false_eq_true,
              if_false]
            rw [ih]; rfl
        rw [hstuck]
        exact .diverge

end loops

/-! ### Choices and sequences -/

theorem execute_costs {e : Elem} {n b : Nat} (h : SubCosts e.sub n b) (T : Ty) (u c : Bool) (st : Exec)
    (hs : st.input.len ≤ n) : Costs (execute C T u c e st) b := by
  obtain ⟨P, t, i⟩ := e
  cases i with
  | none => exact .bindr (h.look _ hs) fun _ => .pure
  | some i =>
    refine .bindr (h.parse _ hs) fun r => .ite .pure (.bind0 ?_ fun _ => .pure)
    exact .ite (builderAssign_logs ..) (.ite (builderEmplaceAt_logs ..) (builderGetAssign_logs ..))

theorem execute_suffix {e : Elem} (hg : SubGood e.sub) (T : Ty) (u c : Bool) (st : Exec) :
    Sat (execute C T u c e st) (fun x => x.2.input.SuffixOf st.input) anyErr := by
  obtain ⟨P, t, i⟩ := e
  cases i with
  | none => exact Sat.bind (hg.look _) fun r hr => Sat.pure hr.suffix
  | some i =>
    refine Sat.bind (hg.parse _) fun r hr => ?_
    split
    · exact Sat.pure (.refl _)
    · exact Sat.bind (Sat.triv _) fun _ _ => Sat.pure hr.suffix

theorem foldOr_costs {es : List Elem} {n : Nat} {b : List Nat} (h : List.Forall₂ (fun e x => SubCosts e.sub n x) es b)
    (hg : ∀ e ∈ es, SubGood e.sub) (T : Ty) (u c : Bool) (st : Exec) (hs : st.input.len ≤ n) :
    Costs (foldOr (execute C T u c) es st) b.sum := by
  induction h generalizing st with
  | nil => exact .pure
  | @cons e x es b he _ ih =>
    rw [List.sum_cons]
    refine Costs.bind (execute_costs he T u c st hs) fun l y hy => ?_
    have := ((execute_suffix (C := C) (hg e (.head _)) T u c st).at hy).len_le
    exact .ite (fun _ => .pure) fun _ => ih (fun e' he' => hg e' (.tail _ he')) _ (by omega)

theorem foldAnd_costs {es : List Elem} {n : Nat} {b : List Nat} (h : List.Forall₂ (fun e x => SubCosts e.sub n x) es b)
    (hg : ∀ e ∈ es, SubGood e.sub) (T : Ty) (u c : Bool) (st : Exec) (hs : st.input.len ≤ n) :
    Costs (foldAnd (execute C T u c) es st) b.sum := by
  induction h generalizing st with
  | nil => exact .pure
  | @cons e x es b he _ ih =>
    rw [List.sum_cons]
    refine Costs.bind (execute_costs he T u c st hs) fun l y hy => ?_
    have := ((execute_suffix (C := C) (hg e (.head _)) T u c st).at hy).len_le
    exact .ite (fun _ => ih (fun e' he' => hg e' (.tail _ he')) _ (by omega)) fun _ => .pure

section
variable {rec : Parser α → Sub} {n : Nat} {e : Parser α → Nat}

theorem mkElems_costs {ps : List (Parser α)} (h : ∀ q ∈ ps, SubCosts (rec q) n (e q)) (is : List (Option Nat)) :
    ∃ b : List Nat, b.sum ≤ (ps.map e).sum ∧
      List.Forall₂ (fun x y => SubCosts x.sub n y) (mkElems rec C ps is) b := by
  induction ps generalizing is with
  | nil => exact ⟨[], Nat.le_refl _, .nil⟩
  | cons p ps ih =>
    cases is with
    | nil => exact ⟨[], Nat.zero_le _, .nil⟩
    | cons i is =>
      obtain ⟨b, h1, h2⟩ := ih (fun q hq => h q (.tail _ hq)) is
      refine ⟨e p :: b, ?_, .cons (h p (.head _)) h2⟩
      simp only [List.sum_cons, List.map_cons]; omega

theorem mkLookElems_costs {ps : List (Parser α)} (h : ∀ q ∈ ps, SubCosts (rec q) n (e q)) :
    List.Forall₂ (fun x y => SubCosts x.sub n y) (mkLookElems rec C ps) (ps.map e) := by
  induction ps with
  | nil => exact .nil
  | cons p ps ih => exact .cons (h p (.head _)) (ih fun q hq => h q (.tail _ hq))

end

/-! ### All parsers -/

theorem marked_costs {P : Sub} {n e : Nat} (h : SubCosts P n e) : SubCosts (marked P) n (1 + e) := by
  have hl : Costs (M.log callMark : Run Unit) 1 := .of fun l r h => by cases h; exact Nat.le_refl _
  exact ⟨fun s hs => .bind hl fun _ _ _ => h.parse s hs, fun s hs => .bind hl fun _ _ _ => h.look s hs⟩

section
variable {rec : Parser α → Sub} {n : Nat}

theorem joinGeneric_costs {P : Sub} {e : Nat} (h : SubCosts P n e) : SubCosts (joinGeneric C P) n e := by
  refine ⟨fun s hs => ?_, h.look⟩
  refine .bindr (h.parse s hs) fun r => .ite ?_ .pure
  refine .bind0 (joinExecutor_logs C r) fun j => ?_
  cases j <;> exact .pure

theorem semJoin_costs {e : Nat} {p : Parser α} (h : SubCosts (rec p) n e) (k : Nat) :
    SubCosts (semJoin C rec k p) n e := by
  have native : ∀ {P : Sub}, (∀ s, Logs (P.parse s) 0) → (∀ s, Logs (P.look s) 0) → SubCosts P n e := fun h1 h2 =>
    ⟨fun s _ => (h1 s).costs.mono (Nat.zero_le _), fun s _ => (h2 s).costs.mono (Nat.zero_le _)⟩
  cases p with
  | exactly q n =>
    simp only [semJoin]
    cases asBasic C q with
    | none => exact joinGeneric_costs h
    | some b => exact native (fun s => joinExactlyLoop_logs ..) (fun s => lookJoinExactlyLoop_logs ..)
  | maybe q =>
    simp only [semJoin]
    cases asBasic C q with
    | none => exact joinGeneric_costs h
    | some b =>
      refine native (fun s => ?_) (fun s => ?_) <;>
      exact .bind0 (failureCondition_logs ..) fun _ => .ite .pure (.bind0 (advance_logs ..) fun _ => .pure)
  | oneOrMore q =>
    simp only [semJoin]
    cases asBasic C q with
    | none => exact joinGeneric_costs h
    | some b =>
      refine native (fun s => ?_) (fun s => ?_)
      · exact .bind0 (failureCondition_logs ..) fun _ => .ite .pure
          (.bind0 (subspan_logs ..) fun _ => .bind0 (joinRepeatLoop_logs ..) fun _ => .pure)
      · exact .bind0 (failureCondition_logs ..) fun _ => .ite .pure
          (.bind0 (subspan_logs ..) fun _ => .bind0 (lookJoinRepeatLoop_logs ..) fun _ => .pure)
  | zeroOrMore q =>
    simp only [semJoin]
    cases asBasic C q with
    | none => exact joinGeneric_costs h
    | some b =>
      refine native (fun s => ?_) (fun s => ?_)
      · exact .bind0 (joinRepeatLoop_logs ..) fun _ => .pure
      · exact .bind0 (lookJoinRepeatLoop_logs ..) fun _ => .pure
  | _ => exact joinGeneric_costs h

theorem step_costs {d : Nat} (hg : ∀ q, SubGood (rec q)) (k : Nat) (p : Parser α)
    (h : ∀ q ∈ p.parts, SubCosts (rec q) n (effort C d q n))
    (hc : ∀ k, p = .custom k → SubCosts (rec (C.custom k).body) n (effort C d (C.custom k).body n)) :
    SubCosts (marked (step C rec k p)) n (effort C (d + 1) p n) := by
  refine marked_costs ?_
  cases p with
  | anyOf _ | noneOf _ | allOf _ | anything =>
    exact ⟨fun s _ => (parseBasic_logs ..).costs, fun s _ => (lookBasic_logs ..).costs⟩
  | epsilon => exact ⟨fun s _ => .pure, fun s _ => .pure⟩
  | choice ps =>
    refine ⟨fun s hs => ?_, fun s hs => ?_⟩
    · obtain ⟨b, h1, h2⟩ := mkElems_costs (C := C) h (choiceTrait (resultsFor C ps)).seq
      refine .bind0 (builderInit_logs ..) fun v => .bindr ((foldOr_costs h2 (mkElems_good hg _ _) _ _ _ _ hs).mono h1)
        fun x => .ite .pure .pure
    · exact .bindr (foldOr_costs (mkLookElems_costs h) (mkLookElems_good hg _) _ _ _ _ hs) fun x => .ite .pure .pure
  | sequence ps =>
    refine ⟨fun s hs => ?_, fun s hs => ?_⟩
    · obtain ⟨b, h1, h2⟩ := mkElems_costs (C := C) h (sequenceTrait (resultsFor C ps)).seq
      refine .bind0 (builderInit_logs ..) fun v => .bindr ((foldAnd_costs h2 (mkElems_good hg _ _) _ _ _ _ hs).mono h1)
        fun x => .ite .pure .pure
    · exact .bindr (foldAnd_costs (mkLookElems_costs h) (mkLookElems_good hg _) _ _ _ _ hs) fun x => .ite .pure .pure
  | maybe p =>
    have h := h p (.head _)
    refine ⟨fun s hs => ?_, fun s hs => ?_⟩
    · exact .bind0 (builderInit_logs ..) fun v => .bindr (h.parse s hs) fun r =>
        .bind0 (.ite (builderEmplace_logs ..) .pure) fun w => .pure
    · exact .bindr (h.look s hs) fun r => .ite .pure .pure
  | exactly p m =>
    have h := h p (.head _)
    refine ⟨fun s hs => ?_, fun s hs => lookExactlyLoop_costs h (hg p) _ _ _ hs⟩
    exact .bind0 (builderInit_logs ..) fun v => exactlyLoop_costs h (hg p) _ _ _ _ _ _ hs
  | oneOrMore p =>
    have h := h p (.head _)
    refine ⟨fun s hs => ?_, fun s hs => ?_⟩
    · exact .bind0 (builderInit_logs ..) fun v => .bindr
        ((oneOrMoreLoop_costs h (hg p) _ _ _ _ _ hs).mono (Nat.mul_le_mul_right _ (by omega))) fun x => .ite .pure .pure
    · exact .bindr ((lookOneOrMoreLoop_costs h (hg p) _ _ _ hs).mono (Nat.mul_le_mul_right _ (by omega)))
        fun x => .ite .pure .pure
  | zeroOrMore p =>
    have h := h p (.head _)
    refine ⟨fun s hs => ?_, fun s hs => ?_⟩
    · exact .bind0 (builderInit_logs ..) fun v => .bindr
        ((zeroOrMoreLoop_costs h (hg p) _ _ _ _ hs).mono (Nat.mul_le_mul_right _ (by omega))) fun x => .pure
    · exact .bindr ((lookZeroOrMoreLoop_costs h (hg p) _ _ hs).mono (Nat.mul_le_mul_right _ (by omega))) fun x => .pure
  | delimit p d =>
    have h1 := h p (.head _)
    have h2 := h d (.tail _ (.head _))
    refine ⟨fun s hs => ?_, fun s hs => ?_⟩
    · refine .bind0 (builderInit_logs ..) fun v => .bind (h1.parse s hs) fun l r hr => .ite (fun _ => .pure) fun _ => ?_
      have := (((hg p).parse s).at hr).suffix.len_le
      exact .bindr ((delimitLoop_costs h1 (hg p) h2 (hg d) _ _ _ _ _ _ _ (by omega)).mono
        (Nat.mul_le_mul_right _ (by omega))) fun _ => .pure
    · refine .bind (h1.look s hs) fun l r hr => .ite (fun _ => .pure) fun _ => ?_
      have := (((hg p).look s).at hr).suffix.len_le
      exact .bindr ((lookDelimitLoop_costs h1 (hg p) h2 (hg d) _ _ _ (by omega)).mono
        (Nat.mul_le_mul_right _ (by omega))) fun _ => .pure
  | ignore p => exact ⟨(h p (.head _)).look, (h p (.head _)).look⟩
  | complete p =>
    exact ⟨fun s hs => .bindr ((h p (.head _)).parse s hs) fun _ => .ite .pure .pure,
      fun s hs => .bindr ((h p (.head _)).look s hs) fun _ => .ite .pure .pure⟩
  | join p => exact semJoin_costs (h p (.head _)) k
  | map p f =>
    have h := h p (.head _)
    refine ⟨fun s hs => .bind (h.parse s hs) fun l r hr => .ite (fun _ => .pure) fun _ => Logs.costs ?_,
      (h.mono (Nat.le_refl _) (Nat.le_add_right ..)).look⟩
    exact .bind0 (argVals_logs ..) fun _ => Logs.bind (b' := 0) (invoke_logs ..) fun _ => .ite .pure .pure
  | filter p f =>
    have h := h p (.head _)
    refine ⟨fun s hs => .bind (h.parse s hs) fun l r hr => .ite (fun _ => .pure) fun _ => Logs.costs ?_,
      (h.mono (Nat.le_refl _) (Nat.le_add_right ..)).look⟩
    exact .bind0 (argVals_logs ..) fun _ => Logs.bind (b' := 0) (invoke_logs ..) fun _ => .ite .pure .pure
  | named p _ => exact h p (.head _)
  | custom j =>
    exact ⟨fun s hs => .bindr ((hc j rfl).parse s hs) fun r => convertResult_logs .., (hc j rfl).look⟩

end

theorem counted_costs {d : Nat} {p : Parser α} (hp : Fits C d p) (n k : Nat) :
    SubCosts (counted C k p) n (effort C d p n) := by
  induction hp generalizing k with
  | @intro d p _ _ ih ih' =>
    cases k with
    | zero => exact ⟨fun _ _ => .diverge, fun _ _ => .diverge⟩
    | succ k => exact step_costs (fun q => counted_good k q) k p (fun q hq => ih q hq k) fun j hj => ih' j hj k

theorem CountedParse_costs {d : Nat} {p : Parser α} (hp : Fits C d p) (s : Span) :
    Costs (CountedParse C p s) (effort C d p s.len) := .of fun l r h => by
  obtain ⟨k, hk⟩ := CountedParse_eq_done.1 h
  exact ((counted_costs hp s.len k).parse s (Nat.le_refl _)).on _ _ hk

theorem CountedLook_costs {d : Nat} {p : Parser α} (hp : Fits C d p) (s : Span) :
    Costs (CountedLook C p s) (effort C d p s.len) := .of fun l r h => by
  obtain ⟨k, hk⟩ := CountedLook_eq_done.1 h
  exact ((counted_costs hp s.len k).look s (Nat.le_refl _)).on _ _ hk

/-! ### The bound is a polynomial -/

theorem mem_le_max {l : List Nat} {x : Nat} (h : x ∈ l) : x ≤ l.foldr max 0 := by
  induction l with
  | nil => cases h
  | cons y l ih =>
    rw [List.foldr_cons]
    rcases List.mem_cons.1 h with rfl | h
    · exact Nat.le_max_left ..
    · exact Nat.le_trans (ih h) (Nat.le_max_right ..)

theorem effort_sum {d : Nat} {ps : List (Parser α)} {b : Nat}
    (ih : ∀ q : Parser α, ∃ c, ∀ n, effort C d q n ≤ c * (n + 1) ^ loops C d q)
    (hb : ∀ q ∈ ps, loops C d q ≤ b) : ∃ c, ∀ n, (ps.map fun q => effort C d q n).sum ≤ c * (n + 1) ^ b := by
  induction ps with
  | nil => exact ⟨0, fun n => Nat.zero_le _⟩
  | cons p ps ihps =>
    obtain ⟨c, hc⟩ := ihps fun q hq => hb q (.tail _ hq)
    obtain ⟨c', hc'⟩ := ih p
    refine ⟨c' + c, fun n => ?_⟩
    rw [List.map_cons, List.sum_cons, Nat.add_mul]
    refine Nat.add_le_add (Nat.le_trans (hc' n) (Nat.mul_le_mul_left _ ?_)) (hc n)
    exact Nat.pow_le_pow_right (Nat.succ_pos n) (hb p (.head _))

theorem effort_poly (d : Nat) (p : Parser α) : ∃ c, ∀ n, effort C d p n ≤ c * (n + 1) ^ loops C d p := by
  induction d generalizing p with
  | zero => exact ⟨0, fun n => Nat.zero_le _⟩
  | succ d ih =>
    have pos : ∀ n b : Nat, 1 ≤ (n + 1) ^ b := fun n b => Nat.pow_pos (Nat.succ_pos n)
    have one : ∀ (f : Nat → Nat) (b : Nat), (∃ c, ∀ n, f n ≤ c * (n + 1) ^ b) → ∃ c, ∀ n, 1 + f n ≤ c * (n + 1) ^ b := by
      rintro f b ⟨c, hc⟩
      refine ⟨1 + c, fun n => ?_⟩
      rw [Nat.add_mul, Nat.one_mul]
      exact Nat.add_le_add (pos n b) (hc n)
    cases p with
    | anyOf _ | noneOf _ | allOf _ | anything | epsilon => exact one _ 0 ⟨0, fun n => Nat.zero_le _⟩
    | choice ps | sequence ps =>
      exact one _ _ (effort_sum ih fun q hq => mem_le_max (List.mem_map_of_mem hq))
    | maybe p | ignore p | complete p | join p | named p _ => exact one _ _ (ih p)
    | custom k => exact one _ _ (ih (C.custom k).body)
    | map p f | filter p f =>
      refine one _ _ ?_
      obtain ⟨c, hc⟩ := one _ _ (ih p)
      exact ⟨c, fun n => Nat.le_trans (Nat.le_of_eq (Nat.add_comm (effort C d p n) 1)) (hc n)⟩
    | exactly p k =>
      obtain ⟨c, hc⟩ := ih p
      refine one _ _ ⟨k * c, fun n => ?_⟩
      rw [Nat.mul_assoc]
      exact Nat.mul_le_mul_left _ (hc n)
    | oneOrMore p | zeroOrMore p =>
      obtain ⟨c, hc⟩ := ih p
      refine one _ _ ⟨c, fun n => ?_⟩
      show (n + 1) * effort C d p n ≤ c * (n + 1) ^ (loops C d p + 1)
      rw [Nat.pow_succ, ← Nat.mul_assoc, Nat.mul_comm (n + 1)]
      exact Nat.mul_le_mul_right _ (hc n)
    | delimit p q =>
      obtain ⟨c, hc⟩ := ih p
      obtain ⟨c', hc'⟩ := ih q
      refine one _ _ ⟨c + (c + c'), fun n => ?_⟩
      show effort C d p n + (n + 1) * (effort C d p n + effort C d q n) ≤ (c + (c + c')) * (n + 1) ^ (max (loops C d p) (loops C d q) + 1)
      have h1 : effort C d p n ≤ c * (n + 1) ^ max (loops C d p) (loops C d q) :=
        Nat.le_trans (hc n) (Nat.mul_le_mul_left _ (Nat.pow_le_pow_right (Nat.succ_pos n) (Nat.le_max_left ..)))
      have h2 : effort C d q n ≤ c' * (n + 1) ^ max (loops C d p) (loops C d q) :=
        Nat.le_trans (hc' n) (Nat.mul_le_mul_left _ (Nat.pow_le_pow_right (Nat.succ_pos n) (Nat.le_max_right ..)))
      have h3 : effort C d p n ≤ c * (n + 1) ^ (max (loops C d p) (loops C d q) + 1) :=
        Nat.le_trans h1 (Nat.mul_le_mul_left _ (Nat.pow_le_pow_right (Nat.succ_pos n) (Nat.le_succ _)))
      rw [Nat.add_mul c]
      refine Nat.add_le_add h3 ?_
      rw [Nat.pow_succ, ← Nat.mul_assoc, Nat.mul_comm (n + 1), Nat.add_mul c]
      exact Nat.mul_le_mul_right _ (Nat.add_le_add h1 h2)

end Tok3n
