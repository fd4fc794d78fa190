import Verif.Spec.WrittenTerminate
import Verif.Proof.Written
import Verif.Proof.Nullable
import Verif.Proof.Causes
/-
Programs with hand-written parser classes return: as Proof/Terminate.lean, but one level of the library at a time
and for arbitrary parts.
-/

namespace Tok3n

variable {α β : Type} {C : Ctx α β}

namespace Written

/-- both functions return on readable spans of at most `n` elements -/
def RetsTo (C : Ctx α β) (n : Nat) (P : Sub) : Prop :=
  ∀ s : Span, s.Valid C.mem → s.len ≤ n → P.parse s ≠ .diverge ∧ P.look s ≠ .diverge

section
variable {P D : Sub} {n : Nat} {b d : Bool}

theorem _root_.Tok3n.SubEat.of_parse (h : SubEat b P) {s : Span} {l r} (e : P.parse s = .done l (.ok r)) : Eat b s r :=
  (h.parse s).ok e
theorem _root_.Tok3n.SubEat.of_look (h : SubEat b P) {s : Span} {l r} (e : P.look s = .done l (.ok r)) : Eat b s r :=
  (h.look s).ok e

theorem hasValue_of {r : R} (h : ¬(!r.hasValue) = true) : r.val.isSome = true := R.some_of h

theorem bind_ite {L A B : Type} {m : M L A} {c : A → Bool} {f g : A → M L B} (hm : m ≠ .diverge)
    (hf : ∀ l a, m = .done l (.ok a) → c a = true → f a ≠ .diverge)
    (hg : ∀ l a, m = .done l (.ok a) → c a = false → g a ≠ .diverge) :
    (M.bind m fun a => if c a then f a else g a) ≠ .diverge := by
  refine bind_ne' hm fun l a h => ?_
  split
  · next hc => exact hf l a h hc
  · next hc => exact hg l a h (by simpa using hc)

theorem exactlyLoop_rets (hP : RetsTo C n P) (he : SubEat b P) (T : Ty) (o : Span) (m : Nat) :
    ∀ i (s : Span) v, s.Valid C.mem → s.len ≤ n → exactlyLoop T P o m i s v ≠ .diverge := by
  induction m with
  | zero => intro i s v _ _; exact pure_ne _
  | succ m ih =>
    intro i s v hs hn
    refine bind_ne' (hP s hs hn).1 fun l r h => ite_ne (pure_ne _) ?_
    have hr := (he.of_parse h).suffix
    exact bind_ne (builderArrayAssign_ne _ _ _ _) fun w => ih _ _ _ (hr.valid hs) (by have := hr.len_le; omega)

theorem lookExactlyLoop_rets (hP : RetsTo C n P) (he : SubEat b P) (o : Span) (m : Nat) :
    ∀ s : Span, s.Valid C.mem → s.len ≤ n → lookExactlyLoop P o m s ≠ .diverge := by
  induction m with
  | zero => intro s _ _; exact pure_ne _
  | succ m ih =>
    intro s hs hn
    refine bind_ne' (hP s hs hn).2 fun l r h => ite_ne (pure_ne _) ?_
    have hr := (he.of_look h).suffix
    exact ih _ (hr.valid hs) (by have := hr.len_le; omega)

theorem oneOrMoreLoop_rets (hP : RetsTo C n P) (he : SubEat false P) (T : Ty) (k : Nat) :
    ∀ c (s : Span) v, s.Valid C.mem → s.len ≤ n → s.len < k → oneOrMoreLoop T P k c s v ≠ .diverge := by
  induction k with
  | zero => intro _ _ _ _ _ h; omega
  | succ k ih =>
    intro c s v hs hn hk
    refine bind_ne' (hP s hs hn).1 fun l r h => ?_
    by_cases hv : r.hasValue = true
    · have hr := he.of_parse h
      have := hr.less rfl hv
      simp only [hv, Bool.not_true, Bool.false_eq_true, if_false]
      exact bind_ne (builderInsertBack_ne _ _ _) fun w => ih _ _ _ (hr.suffix.valid hs) (by omega) (by omega)
    · simp only [hv]; exact pure_ne _

theorem lookOneOrMoreLoop_rets (hP : RetsTo C n P) (he : SubEat false P) (k : Nat) :
    ∀ c (s : Span), s.Valid C.mem → s.len ≤ n → s.len < k → lookOneOrMoreLoop P k c s ≠ .diverge := by
  induction k with
  | zero => intro _ _ _ _ h; omega
  | succ k ih =>
    intro c s hs hn hk
    refine bind_ne' (hP s hs hn).2 fun l r h => ?_
    by_cases hv : r.hasValue = true
    · have hr := he.of_look h
      have := hr.less rfl hv
      simp only [hv, Bool.not_true, Bool.false_eq_true, if_false]
      exact ih _ _ (hr.suffix.valid hs) (by omega) (by omega)
    · simp only [hv]; exact pure_ne _

theorem zeroOrMoreLoop_rets (hP : RetsTo C n P) (he : SubEat false P) (T : Ty) (k : Nat) :
    ∀ (s : Span) v, s.Valid C.mem → s.len ≤ n → s.len < k → zeroOrMoreLoop T P k s v ≠ .diverge := by
  induction k with
  | zero => intro _ _ _ _ h; omega
  | succ k ih =>
    intro s v hs hn hk
    refine bind_ne' (hP s hs hn).1 fun l r h => ?_
    by_cases hv : r.hasValue = true
    · have hr := he.of_parse h
      have := hr.less rfl hv
      simp only [hv, Bool.not_true, Bool.false_eq_true, if_false]
      exact bind_ne (builderInsertBack_ne _ _ _) fun w => ih _ _ (hr.suffix.valid hs) (by omega) (by omega)
    · simp only [hv]; exact pure_ne _

theorem lookZeroOrMoreLoop_rets (hP : RetsTo C n P) (he : SubEat false P) (k : Nat) :
    ∀ (s : Span), s.Valid C.mem → s.len ≤ n → s.len < k → lookZeroOrMoreLoop P k s ≠ .diverge := by
  induction k with
  | zero => intro _ _ _ h; omega
  | succ k ih =>
    intro s hs hn hk
    refine bind_ne' (hP s hs hn).2 fun l r h => ?_
    by_cases hv : r.hasValue = true
    · have hr := he.of_look h
      have := hr.less rfl hv
      simp only [hv, Bool.not_true, Bool.false_eq_true, if_false]
      exact ih _ (hr.suffix.valid hs) (by omega) (by omega)
    · simp only [hv]; exact pure_ne _

theorem delimitRecordP_ne (T tp td : Ty) (v : Val) (r : R) : delimitRecordP T tp td v r ≠ .diverge :=
  ite_ne (ite_ne (builderInsertBack_ne _ _ _) (builderInsertBackFirst_ne _ _ _)) (pure_ne _)
theorem delimitRecordD_ne (T tp td : Ty) (v : Val) (r r' : R) : delimitRecordD T tp td v r r' ≠ .diverge :=
  ite_ne (ite_ne (ite_ne (builderInsertBack_ne _ _ _) (builderInsertBackSecond_ne _ _ _)) (pure_ne _)) (pure_ne _)

theorem delimitLoop_rets (hP : RetsTo C n P) (hD : RetsTo C n D) (he : SubEat b P) (hd : SubEat d D)
    (hbd : d = true → b = true → False) (T tp td : Ty) (k : Nat) :
    ∀ (r : R) (s : Span) v, r.rem.Valid C.mem → r.rem.len ≤ n → (r.hasValue = true → r.rem.len < k) →
      delimitLoop T tp td P D (k + 1) r s v ≠ .diverge := by
  induction k with
  | zero =>
    intro r s v _ _ hk
    by_cases hv : r.hasValue = true
    · have := hk hv; omega
    · unfold delimitLoop; simp only [hv]; exact pure_ne _
  | succ k ih =>
    intro r s v hs hn hk
    by_cases hv : r.hasValue = true
    · unfold delimitLoop
      simp only [hv, Bool.not_true, Bool.false_eq_true, if_false]
      refine bind_ne (delimitRecordP_ne _ _ _ _ _) fun v => bind_ne' (hD _ hs hn).1 fun l x hx => ?_
      by_cases hxv : x.hasValue = true
      · have hX := hd.of_parse hx
        have hXl := hX.suffix.len_le
        simp only [hxv, Bool.not_true, Bool.false_eq_true, if_false]
        refine bind_ne' (hP _ (hX.suffix.valid hs) (by omega)).1 fun l' y hy => ?_
        have hY := he.of_parse hy
        have hYl := hY.suffix.len_le
        refine bind_ne (delimitRecordD_ne _ _ _ _ _ _) fun w =>
          ih _ _ _ (hY.suffix.valid (hX.suffix.valid hs)) (by omega) fun hyv => ?_
        have := hk hv
        cases hdb : d with
        | false => have := hX.less hdb hxv; omega
        | true =>
          cases hbb : b with
          | false => have := hY.less hbb hyv; omega
          | true => exact (hbd hdb hbb).elim
      · simp only [hxv]; exact pure_ne _
    · unfold delimitLoop; simp only [hv]; exact pure_ne _

theorem lookDelimitLoop_rets (hP : RetsTo C n P) (hD : RetsTo C n D) (he : SubEat b P) (hd : SubEat d D)
    (hbd : d = true → b = true → False) (k : Nat) :
    ∀ (r : R) (s : Span), r.rem.Valid C.mem → r.rem.len ≤ n → (r.hasValue = true → r.rem.len < k) →
      lookDelimitLoop P D (k + 1) r s ≠ .diverge := by
  induction k with
  | zero =>
    intro r s _ _ hk
    by_cases hv : r.hasValue = true
    · have := hk hv; omega
    · unfold lookDelimitLoop; simp only [hv]; exact pure_ne _
  | succ k ih =>
    intro r s hs hn hk
    by_cases hv : r.hasValue = true
    · unfold lookDelimitLoop
      simp only [hv, Bool.not_true, Bool.false_eq_true, if_false]
      refine bind_ne' (hD _ hs hn).2 fun l x hx => ?_
      by_cases hxv : x.hasValue = true
      · have hX := hd.of_look hx
        have hXl := hX.suffix.len_le
        simp only [hxv, Bool.not_true, Bool.false_eq_true, if_false]
        refine bind_ne' (hP _ (hX.suffix.valid hs) (by omega)).2 fun l' y hy => ?_
        have hY := he.of_look hy
        have hYl := hY.suffix.len_le
        refine ih _ _ (hY.suffix.valid (hX.suffix.valid hs)) (by omega) fun hyv => ?_
        have := hk hv
        cases hdb : d with
        | false => have := hX.less hdb hxv; omega
        | true =>
          cases hbb : b with
          | false => have := hY.less hbb hyv; omega
          | true => exact (hbd hdb hbb).elim
      · simp only [hxv]; exact pure_ne _
    · unfold lookDelimitLoop; simp only [hv]; exact pure_ne _

theorem subspan_ne (s : Span) (n : Nat) : (s.subspan C.mem n : Run Span) ≠ .diverge :=
  ite_ne (bind_ne (ptrAdd_ne _ _ _) fun _ => pure_ne _) (fail_ne _)
theorem advance_ne (s : Span) (n : Nat) : advance C s n ≠ .diverge :=
  bind_ne (ptrAdd_ne _ _ _) fun _ => bind_ne (ite_ne (pure_ne _) (fail_ne _)) fun _ => pure_ne _

theorem joinRepeatLoop_rets (x : BasicP α) (hx : x.length ≠ 0) (k : Nat) :
    ∀ (s r : Span), s.len < k → joinRepeatLoop C x k s r ≠ .diverge := by
  induction k with
  | zero => intro _ _ h; omega
  | succ k ih =>
    intro s r hk
    refine bind_ne (failureCondition_ne _ _) fun c => ite_ne (pure_ne _) (bind_ne' (subspan_ne _ _) fun l s' h => ?_)
    have := advanced_less ((subspan_good C s _).ok h) hx
    exact ih _ _ (by omega)

theorem lookJoinRepeatLoop_rets (x : BasicP α) (hx : x.length ≠ 0) (k : Nat) :
    ∀ (s : Span), s.len < k → lookJoinRepeatLoop C x k s ≠ .diverge := by
  induction k with
  | zero => intro _ h; omega
  | succ k ih =>
    intro s hk
    refine bind_ne (failureCondition_ne _ _) fun c => ite_ne (pure_ne _) (bind_ne' (subspan_ne _ _) fun l s' h => ?_)
    have := advanced_less ((subspan_good C s _).ok h) hx
    exact ih _ (by omega)

theorem joinExactlyLoop_ne (x : BasicP α) (o : Span) (m : Nat) (s r : Span) : joinExactlyLoop C x o m s r ≠ .diverge := by
  induction m generalizing s r with
  | zero => exact pure_ne _
  | succ m ih =>
    exact bind_ne (failureCondition_ne _ _) fun c => ite_ne (pure_ne _) (bind_ne (subspan_ne _ _) fun s' => ih _ _)
theorem lookJoinExactlyLoop_ne (x : BasicP α) (o : Span) (m : Nat) (s : Span) :
    lookJoinExactlyLoop C x o m s ≠ .diverge := by
  induction m generalizing s with
  | zero => exact pure_ne _
  | succ m ih =>
    exact bind_ne (failureCondition_ne _ _) fun c => ite_ne (pure_ne _) (bind_ne (subspan_ne _ _) fun s' => ih _)

theorem joinGeneric_rets {s : Span} (h : P.parse s ≠ .diverge ∧ P.look s ≠ .diverge) :
    (joinGeneric C P).parse s ≠ .diverge ∧ (joinGeneric C P).look s ≠ .diverge := by
  refine ⟨bind_ne h.1 fun r => ite_ne (bind_ne (joinExecutor_ne _ _) fun j => ?_) (pure_ne _), h.2⟩
  cases j <;> exact pure_ne _

theorem custom_rets {k : Nat} {s : Span} {rec : Parser α → Sub} {m : Nat}
    (h : (rec (C.custom k).body).parse s ≠ .diverge ∧ (rec (C.custom k).body).look s ≠ .diverge) :
    (Tok3n.step C rec m (.custom k)).parse s ≠ .diverge ∧ (Tok3n.step C rec m (.custom k)).look s ≠ .diverge := by
  refine ⟨bind_ne h.1 fun r => ?_, h.2⟩
  unfold convertResult
  refine ite_ne (pure_ne _) (ite_ne (fail_ne _) ?_)
  cases fromOptional C (resultFor C (C.custom k).body) (C.custom k).ty with
  | some g => exact pure_ne _
  | none =>
    cases r.val with
    | none => exact pure_ne _
    | some v => exact bind_ne (convert_ne _ _ _ _) fun _ => pure_ne _

end

section
variable {rec : Parser α → Sub} {null : Nat → Bool} (hE : ∀ q, SubEat (q.nullable null) (rec q))

theorem execute_rets {e : Elem} (T : Ty) (u c : Bool) (st : Exec)
    (h : e.sub.parse st.input ≠ .diverge ∧ e.sub.look st.input ≠ .diverge) : execute C T u c e st ≠ .diverge := by
  obtain ⟨P, t, i⟩ := e
  cases i with
  | none => exact bind_ne h.2 fun _ => pure_ne _
  | some i =>
    refine bind_ne h.1 fun r => ite_ne (pure_ne _) (bind_ne ?_ fun _ => pure_ne _)
    exact ite_ne (builderAssign_ne _ _ _) (ite_ne (builderEmplaceAt_ne _ _ _ _ _ _) (builderGetAssign_ne _ _ _ _))

include hE

theorem foldOr_rets {es : List Elem} {ps : List (Parser α)} (he : RunsOf rec es ps) (T : Ty) (u c : Bool) (st : Exec)
    (h : ∀ q ∈ ps, (rec q).parse st.input ≠ .diverge ∧ (rec q).look st.input ≠ .diverge) :
    foldOr (execute C T u c) es st ≠ .diverge := by
  induction he generalizing st with
  | nil => exact pure_ne _
  | @cons e es q ps heq _ ih =>
    refine bind_ne' (execute_rets T u c st (heq ▸ h q (by simp))) fun l x hx => ?_
    obtain ⟨ok, st'⟩ := x
    cases ok with
    | true => exact pure_ne _
    | false =>
      have hi : st'.input = st.input := ((execute_eat (heq ▸ hE q) T u c st).ok hx).2.1 rfl
      exact ih st' fun q hq => by rw [hi]; exact h q (by simp [hq])

theorem foldAnd_rets {es : List Elem} {ps : List (Parser α)} (he : RunsOf rec es ps) (n : Nat) (T : Ty) (u c : Bool)
    (ok : Nat → Bool) (st : Exec) (hs : st.input.Valid C.mem) (hn : st.input.len ≤ n)
    (hlt : ∀ q ∈ ps, ∀ s : Span, s.Valid C.mem → s.len < n → (rec q).parse s ≠ .diverge ∧ (rec q).look s ≠ .diverge)
    (hfirst : st.input.len = n → sequenceFirsts null ok ps = true)
    (heq : ∀ q ∈ ps, q.firsts null ok = true → RetsTo C n (rec q)) :
    foldAnd (execute C T u c) es st ≠ .diverge := by
  induction he generalizing st with
  | nil => exact pure_ne _
  | @cons e es q ps hq _ ih =>
    have hr : (rec q).parse st.input ≠ .diverge ∧ (rec q).look st.input ≠ .diverge := by
      rcases Nat.lt_or_ge st.input.len n with h | h
      · exact hlt q (by simp) _ hs h
      · have hf := hfirst (by omega)
        simp only [sequenceFirsts, Bool.and_eq_true] at hf
        exact heq q (by simp) hf.1 _ hs hn
    refine bind_ne' (execute_rets T u c st (hq ▸ hr)) fun l x hx => ?_
    obtain ⟨b, st'⟩ := x
    cases b with
    | false => exact pure_ne _
    | true =>
      obtain ⟨hsuf, -, hless⟩ := (execute_eat (hq ▸ hE q) T u c st).ok hx
      simp only at hsuf hless
      have hle := hsuf.len_le
      refine ih st' (hsuf.valid hs) (by omega) (fun q hq => hlt q (by simp [hq])) (fun hst => ?_)
        fun q hq => heq q (by simp [hq])
      have hf := hfirst (by omega)
      simp only [sequenceFirsts, Bool.and_eq_true, Bool.or_eq_true, Bool.not_eq_true'] at hf
      rcases hf.2 with h | h
      · have := hless trivial h; omega
      · exact h

/-- If the parts of `q` return on inputs shorter than `n`, and those reached before something is consumed also at length `n`,
then with enough fuel so does `q`. -/
theorem step_rets (q : Parser α) (n : Nat) (ok : Nat → Bool) (hrep : q.repeatsOK null = true) (hf : q.firsts null ok = true)
    (hlt : ∀ r ∈ q.parts, ∀ s : Span, s.Valid C.mem → s.len < n → (rec r).parse s ≠ .diverge ∧ (rec r).look s ≠ .diverge)
    (heq : ∀ r ∈ q.parts, r.firsts null ok = true → RetsTo C n (rec r))
    (hk : ∀ k, q ≠ .custom k)
    (s : Span) (hs : s.Valid C.mem) (hn : s.len ≤ n) :
    (Tok3n.step C rec (s.len + 2) q).parse s ≠ .diverge ∧ (Tok3n.step C rec (s.len + 2) q).look s ≠ .diverge := by
  have one : ∀ r, q.parts = [r] → r.firsts null ok = true → RetsTo C n (rec r) := fun r h => heq r (by rw [h]; simp)
  cases q with
  | anyOf a => exact basic_ne _ s
  | noneOf a => exact basic_ne _ s
  | allOf a => exact basic_ne _ s
  | anything => exact basic_ne _ s
  | epsilon => exact ⟨pure_ne _, pure_ne _⟩
  | choice ps =>
    have h : ∀ r ∈ ps, (rec r).parse s ≠ .diverge ∧ (rec r).look s ≠ .diverge := fun r hr =>
      heq r hr (all hf r hr) s hs hn
    refine ⟨bind_ne (ofOption_ne _ _) fun v => bind_ne ?_ fun x => ite_ne (pure_ne _) (pure_ne _),
      bind_ne ?_ fun x => ite_ne (pure_ne _) (pure_ne _)⟩
    · exact foldOr_rets hE (runsOf_mkElems ps _ (choiceTrait_length ps)) _ _ _ _ h
    · exact foldOr_rets hE (runsOf_mkLookElems ps) _ _ _ _ h
  | sequence ps =>
    refine ⟨bind_ne (ofOption_ne _ _) fun v => bind_ne ?_ fun x => ite_ne (pure_ne _) (pure_ne _),
      bind_ne ?_ fun x => ite_ne (pure_ne _) (pure_ne _)⟩
    · exact foldAnd_rets hE (runsOf_mkElems ps _ (sequenceTrait_length ps)) n _ _ _ ok _ hs hn hlt (fun _ => hf) heq
    · exact foldAnd_rets hE (runsOf_mkLookElems ps) n _ _ _ ok _ hs hn hlt (fun _ => hf) heq
  | maybe r =>
    have h := one r rfl hf s hs hn
    exact ⟨bind_ne (ofOption_ne _ _) fun _ => bind_ne h.1 fun _ =>
      bind_ne (ite_ne (builderEmplace_ne _ _ _) (pure_ne _)) fun _ => pure_ne _,
      bind_ne h.2 fun _ => ite_ne (pure_ne _) (pure_ne _)⟩
  | exactly r m =>
    have h := one r rfl hf
    exact ⟨bind_ne (ofOption_ne _ _) fun v => exactlyLoop_rets h (hE r) _ _ _ _ _ _ hs hn,
      lookExactlyLoop_rets h (hE r) _ _ _ hs hn⟩
  | oneOrMore r =>
    have h := one r rfl hf
    simp only [Parser.repeatsOK, Bool.and_eq_true, Bool.not_eq_true'] at hrep
    have he : SubEat false (rec r) := hrep.1 ▸ hE r
    exact ⟨bind_ne (ofOption_ne _ _) fun v => bind_ne (oneOrMoreLoop_rets h he _ _ _ _ _ hs hn (by omega)) fun _ =>
      ite_ne (pure_ne _) (pure_ne _),
      bind_ne (lookOneOrMoreLoop_rets h he _ _ _ hs hn (by omega)) fun _ => ite_ne (pure_ne _) (pure_ne _)⟩
  | zeroOrMore r =>
    have h := one r rfl hf
    simp only [Parser.repeatsOK, Bool.and_eq_true, Bool.not_eq_true'] at hrep
    have he : SubEat false (rec r) := hrep.1 ▸ hE r
    exact ⟨bind_ne (ofOption_ne _ _) fun v => bind_ne (zeroOrMoreLoop_rets h he _ _ _ _ hs hn (by omega)) fun _ => pure_ne _,
      bind_ne (lookZeroOrMoreLoop_rets h he _ _ hs hn (by omega)) fun _ => pure_ne _⟩
  | delimit r d =>
    simp only [Parser.repeatsOK, Bool.and_eq_true, Bool.not_eq_true', Bool.and_eq_false_iff] at hrep
    simp only [Parser.firsts, Bool.and_eq_true, Bool.or_eq_true, Bool.not_eq_true'] at hf
    have hr := heq r (by simp [Parser.parts]) hf.1
    have hbd : d.nullable null = true → r.nullable null = true → False := by
      intro h1 h2; rcases hrep.1.1 with h | h <;> simp_all
    -- behind an element the delimiter is tried on a shorter input, or it is a "first" too
    have hd : ∀ m ≤ n, (m = n → r.nullable null = true) → RetsTo C m (rec d) := by
      intro m hm hmn s hs hsm
      rcases Nat.lt_or_ge s.len n with h | h
      · exact hlt d (by simp [Parser.parts]) s hs h
      · have hnull := hmn (by omega)
        rcases hf.2 with h' | h'
        · rw [h'] at hnull; cases hnull
        · exact heq d (by simp [Parser.parts]) h' s hs (by omega)
    constructor
    · refine bind_ne (ofOption_ne _ _) fun v => bind_ne' (hr s hs hn).1 fun l x hx => ?_
      have hX := (hE r).of_parse hx
      have hXl := hX.suffix.len_le
      by_cases hv : x.hasValue = true
      · simp only [hv, Bool.not_true, Bool.false_eq_true, if_false]
        refine bind_ne ?_ fun _ => pure_ne _
        refine delimitLoop_rets (n := x.rem.len) (fun s hs hl => hr s hs (by omega)) (hd _ (by omega) fun h => ?_) (hE r) (hE d)
          hbd _ _ _ _ x _ _ (hX.suffix.valid hs) (Nat.le_refl _) fun _ => by omega
        by_contra hc
        have := hX.less (by simpa using hc) hv
        omega
      · simp only [hv]; exact pure_ne _
    · refine bind_ne' (hr s hs hn).2 fun l x hx => ?_
      have hX := (hE r).of_look hx
      have hXl := hX.suffix.len_le
      by_cases hv : x.hasValue = true
      · simp only [hv, Bool.not_true, Bool.false_eq_true, if_false]
        refine bind_ne ?_ fun _ => pure_ne _
        refine lookDelimitLoop_rets (n := x.rem.len) (fun s hs hl => hr s hs (by omega)) (hd _ (by omega) fun h => ?_) (hE r) (hE d)
          hbd _ x _ (hX.suffix.valid hs) (Nat.le_refl _) fun _ => by omega
        by_contra hc
        have := hX.less (by simpa using hc) hv
        omega
      · simp only [hv]; exact pure_ne _
  | ignore r => exact ⟨(one r rfl hf s hs hn).2, (one r rfl hf s hs hn).2⟩
  | complete r =>
    have h := one r rfl hf s hs hn
    exact ⟨bind_ne h.1 fun _ => ite_ne (pure_ne _) (pure_ne _), bind_ne h.2 fun _ => ite_ne (pure_ne _) (pure_ne _)⟩
  | join r =>
    have h := one r rfl hf s hs hn
    show (semJoin C rec (s.len + 2) r).parse s ≠ _ ∧ (semJoin C rec (s.len + 2) r).look s ≠ _
    unfold semJoin
    split
    · split
      · exact ⟨joinExactlyLoop_ne _ _ _ _ _, lookJoinExactlyLoop_ne _ _ _ _⟩
      · exact joinGeneric_rets h
    · split
      · exact ⟨bind_ne (failureCondition_ne _ _) fun _ => ite_ne (pure_ne _) (bind_ne (advance_ne _ _) fun _ => pure_ne _),
          bind_ne (failureCondition_ne _ _) fun _ => ite_ne (pure_ne _) (bind_ne (advance_ne _ _) fun _ => pure_ne _)⟩
      · exact joinGeneric_rets h
    · next q =>
      split
      · next x hx =>
        simp only [Parser.repeatsOK, Bool.and_eq_true, Bool.not_eq_true'] at hrep
        have hl := asBasic_length (null := null) hx hrep.1
        refine ⟨bind_ne (failureCondition_ne _ _) fun _ => ite_ne (pure_ne _) (bind_ne' (subspan_ne _ _) fun l s' h =>
          bind_ne (joinRepeatLoop_rets x hl _ _ _ ?_) fun _ => pure_ne _),
          bind_ne (failureCondition_ne _ _) fun _ => ite_ne (pure_ne _) (bind_ne' (subspan_ne _ _) fun l s' h =>
          bind_ne (lookJoinRepeatLoop_rets x hl _ _ ?_) fun _ => pure_ne _)⟩ <;>
        · have := advanced_less ((subspan_good C s _).ok h) hl
          omega
      · exact joinGeneric_rets h
    · next q =>
      split
      · next x hx =>
        simp only [Parser.repeatsOK, Bool.and_eq_true, Bool.not_eq_true'] at hrep
        have hl := asBasic_length (null := null) hx hrep.1
        exact ⟨bind_ne (joinRepeatLoop_rets x hl _ _ _ (by omega)) fun _ => pure_ne _,
          bind_ne (lookJoinRepeatLoop_rets x hl _ _ (by omega)) fun _ => pure_ne _⟩
      · exact joinGeneric_rets h
    · exact joinGeneric_rets h
  | map r f =>
    have h := one r rfl hf s hs hn
    exact ⟨bind_ne h.1 fun _ => ite_ne (pure_ne _) (bind_ne (argVals_ne _ _) fun _ =>
      bind_ne (invoke_ne _ _ _) fun _ => ite_ne (pure_ne _) (pure_ne _)), h.2⟩
  | filter r f =>
    have h := one r rfl hf s hs hn
    exact ⟨bind_ne h.1 fun _ => ite_ne (pure_ne _) (bind_ne (argVals_ne _ _) fun _ =>
      bind_ne (invoke_ne _ _ _) fun _ => ite_ne (pure_ne _) (pure_ne _)), h.2⟩
  | named r m => exact one r rfl hf s hs hn
  | custom k => exact (hk k rfl).elim
where
  all {ps : List (Parser α)} (h : allFirsts null ok ps = true) : ∀ r ∈ ps, r.firsts null ok = true := by
    induction ps with
    | nil => exact nofun
    | cons p ps ih =>
      simp only [allFirsts, Bool.and_eq_true] at h
      intro r hr
      rcases List.mem_cons.1 hr with rfl | hr
      · exact h.1
      · exact ih h.2 r hr

end

theorem repeatsOK_part {null : Nat → Bool} {p q : Parser α} (h : p.repeatsOK null = true) (hq : q ∈ p.parts) :
    q.repeatsOK null = true := by
  have all : ∀ ps : List (Parser α), allRepeatsOK null ps = true → ∀ r ∈ ps, r.repeatsOK null = true := by
    intro ps
    induction ps with
    | nil => exact fun _ => nofun
    | cons p ps ih =>
      intro h r hr
      simp only [allRepeatsOK, Bool.and_eq_true] at h
      rcases List.mem_cons.1 hr with rfl | hr
      · exact h.1
      · exact ih h.2 r hr
  cases p <;> simp only [Parser.parts, List.mem_cons, List.not_mem_nil, or_false] at hq <;>
    simp only [Parser.repeatsOK, Bool.and_eq_true] at h
  case choice ps => exact all ps h q hq
  case sequence ps => exact all ps h q hq
  case delimit p d => rcases hq with rfl | rfl <;> simp_all
  all_goals (subst hq; simp_all)

variable {W : Written} {null : Nat → Bool} {rank : Nat → Nat}

theorem den_eat (h : Table C W null rank) (q : Parser α) : SubEat (q.nullable null) (den C W q) := by
  have base : ∀ k S, W k = some S → SubEat (Parser.nullable (α := α) null (.custom k)) S := by
    intro k S hS
    have hg := (h.protocol k S hS).subGood
    refine ⟨fun s => ?_, fun s => ?_⟩
    · cases e : S.parse s with
      | diverge => exact Sat.diverge
      | done l r =>
        cases r with
        | err e => trivial
        | ok r =>
          refine ⟨(hg.parse s).ok e, fun hb hv => ?_⟩
          obtain ⟨rv, rr⟩ := r
          cases rv with
          | none => cases hv
          | some v => exact (h.consumes k S hS (by simpa [Parser.nullable] using hb) s l v rr).1 e
    · cases e : S.look s with
      | diverge => exact Sat.diverge
      | done l r =>
        cases r with
        | err e => trivial
        | ok r =>
          refine ⟨(hg.look s).ok e, fun hb hv => ?_⟩
          obtain ⟨rv, rr⟩ := r
          cases rv with
          | none => cases hv
          | some v => exact (h.consumes k S hS (by simpa [Parser.nullable] using hb) s l v rr).2 e
  have hn : ∀ n q, SubEat (q.nullable null) (sem C W n q) := by
    intro n
    induction n with
    | zero => exact fun _ => ⟨fun _ => Sat.diverge, fun _ => Sat.diverge⟩
    | succ n ih =>
      intro q
      show SubEat _ (step C W (sem C W n) n q)
      rcases step_eq C W q with ⟨k, S, rfl, hk, e⟩ | ⟨hne, e⟩
      · rw [e]; exact base k S hk
      · rw [e]
        refine step_eat_of n ih q fun k hk hb => ?_
        refine h.nullable k ?_ hb
        cases hW : W k with
        | none => rfl
        | some S => exact (hne k S hk hW).elim
  exact ⟨fun s => Sat.lim ((sem_lim q).parse s) fun n => (hn n q).parse s,
    fun s => Sat.lim ((sem_lim q).look s) fun n => (hn n q).look s⟩

theorem le_ne {L A : Type} {m m' : M L A} (h : M.le m m') (hm : m ≠ .diverge) : m' ≠ .diverge := by rw [h hm]; exact hm

theorem table_rets (h : Table C W null rank) (n : Nat) : ∀ q : Parser α, q.repeatsOK null = true → RetsTo C n (den C W q) := by
  induction n using Nat.strong_induction_on with
  | _ n ihn =>
  have short : ∀ q : Parser α, q.repeatsOK null = true → ∀ s : Span, s.Valid C.mem → s.len < n →
      (den C W q).parse s ≠ .diverge ∧ (den C W q).look s ≠ .diverge := fun q hq s hs hl => ihn s.len hl q hq s hs (Nat.le_refl _)
  -- the hand-written classes
  have hand : ∀ k, (W k).isSome = true → RetsTo C n (den C W (.custom k : Parser α)) := by
    intro k hk
    obtain ⟨S, hS⟩ := Option.isSome_iff_exists.1 hk
    rw [den_custom hS]
    exact fun s hs _ => h.returns k S hS s hs
  -- an expression, given the custom parsers it reaches
  have core : ∀ ok : Nat → Bool, (∀ k, ok k = true → RetsTo C n (den C W (.custom k : Parser α))) →
      ∀ q : Parser α, q.repeatsOK null = true → q.firsts null ok = true → RetsTo C n (den C W q) := by
    intro ok hok q
    induction hz : sizeOf q using Nat.strong_induction_on generalizing q with
    | _ z ih =>
    intro hrep hf
    by_cases hc : ∃ k, q = .custom k
    · obtain ⟨k, rfl⟩ := hc
      exact hok k hf
    · intro s hs hl
      have := step_rets (C := C) (den_eat h) q n ok hrep hf (fun r hr => short r (repeatsOK_part hrep hr))
        (fun r hr => ih _ (hz ▸ parts_lt hr) r rfl (repeatsOK_part hrep hr)) (fun k hk => hc ⟨k, hk⟩) s hs hl
      have hle := step_den_le (C := C) (W := W) q (s.len + 2) s
      rcases step_eq C W q with ⟨k, S, rfl, hk, e⟩ | ⟨-, e⟩
      · exact (hc ⟨k, rfl⟩).elim
      · rw [e] at hle
        exact ⟨le_ne hle.1 this.1, le_ne hle.2 this.2⟩
  -- the custom parsers, by rank
  have cust : ∀ k, RetsTo C n (den C W (.custom k : Parser α)) := by
    intro k
    induction hr : rank k using Nat.strong_induction_on generalizing k with
    | _ r ih =>
    cases hW : W k with
    | some S => exact hand k (by rw [hW]; rfl)
    | none =>
      have hb := core (fun j => (W j).isSome || decide (rank j < rank k)) (fun j hj => by
        simp only [Bool.or_eq_true, decide_eq_true_eq] at hj
        rcases hj with hj | hj
        · exact hand j hj
        · exact ih _ (hr ▸ hj) j rfl) _ (h.repeats k hW) (h.firsts k hW)
      intro s hs hl
      have := custom_rets (C := C) (m := 0) (hb s hs hl)
      have hle := step_den_le (C := C) (W := W) (.custom k) 0 s
      rcases step_eq C W (.custom k) with ⟨k, S, hk', hk, e⟩ | ⟨-, e⟩
      · cases hk'; rw [hW] at hk; cases hk
      · rw [e] at hle
        exact ⟨le_ne hle.1 this.1, le_ne hle.2 this.2⟩
  exact fun q hq => core (fun _ => true) (fun k _ => cust k) q hq (firsts_true null q)
where
  firsts_true (null : Nat → Bool) (q : Parser α) : q.firsts null (fun _ => true) = true := by
    refine Parser.rec (motive_1 := fun q => q.firsts null (fun _ => true) = true)
      (motive_2 := fun ps => allFirsts null (fun _ => true) ps = true ∧ sequenceFirsts null (fun _ => true) ps = true)
      ?_ ?_ ?_ ?_ ?_ ?_ ?_ ?_ ?_ ?_ ?_ ?_ ?_ ?_ ?_ ?_ ?_ ?_ ?_ ?_ ?_ q <;> intros <;>
      simp_all [Parser.firsts, allFirsts, sequenceFirsts]

end Written

end Tok3n
