import Verif.Proof.Quiet
import Verif.Proof.Indices
import Verif.Spec.Values
/-
Induction VII: without `filter` and `join`, `lookahead` does what `parse` does, except
that it runs no callbacks.
-/

namespace Tok3n

variable {α β L A A' B B' : Type}

/-- `m'` follows `m`: it does not return if `m` does not, and returns quietly a related
value if `m` returns one; nothing is said if `m` ends with an error. -/
def Follows (Rel : A → A' → Prop) (m : M L A) (m' : M L A') : Prop :=
  match m with
  | .diverge => m' = .diverge
  | .done _ (.err _) => True
  | .done _ (.ok a) => ∃ a', m' = .done [] (.ok a') ∧ Rel a a'

section
variable {Rel Rel' : A → A' → Prop}

theorem Follows.diverge : Follows Rel (M.diverge : M L A) (M.diverge : M L A') := rfl
theorem Follows.pure {a : A} {a' : A'} (h : Rel a a') : Follows Rel (M.pure a : M L A) (M.pure a') :=
  ⟨a', rfl, h⟩
theorem Follows.fail {e : Err} {m' : M L A'} : Follows Rel (M.fail e : M L A) m' := trivial

theorem Follows.after (l : List L) {m : M L A} {m' : M L A'} (h : Follows Rel m m') :
    Follows Rel (m.after l) m' := by
  cases m with
  | diverge => exact h
  | done _ r => cases r <;> exact h

theorem after_nil (m : M L A) : m.after [] = m := by cases m <;> rfl

theorem Follows.bind {RelB : B → B' → Prop} {m : M L A} {m' : M L A'} {f : A → M L B} {f' : A' → M L B'}
    (h : Follows Rel m m') (hf : ∀ a a', Rel a a' → Follows RelB (f a) (f' a')) :
    Follows RelB (M.bind m f) (M.bind m' f') := by
  cases m with
  | diverge =>
    have h : m' = .diverge := h
    subst h; exact Follows.diverge
  | done l r =>
    cases r with
    | err e => trivial
    | ok a =>
      obtain ⟨a', rfl, hr⟩ := h
      show Follows RelB ((f a).after l) ((f' a').after [])
      rw [after_nil]
      exact (hf a a' hr).after l

theorem Follows.bind_ok {RelB : B → B' → Prop} {m : M L A} {m' : M L A'} {f : A → M L B} {f' : A' → M L B'}
    (h : Follows Rel m m') (hf : ∀ l a a', m = .done l (.ok a) → Rel a a' → Follows RelB (f a) (f' a')) :
    Follows RelB (M.bind m f) (M.bind m' f') := by
  cases m with
  | diverge =>
    have h : m' = .diverge := h
    subst h; exact Follows.diverge
  | done l r =>
    cases r with
    | err e => trivial
    | ok a =>
      obtain ⟨a', rfl, hr⟩ := h
      show Follows RelB ((f a).after l) ((f' a').after [])
      rw [after_nil]
      exact (hf l a a' rfl hr).after l

/-- a step only `m` takes -/
theorem Follows.left {RelB : B → B' → Prop} {m : M L A} {f : A → M L B} {m' : M L B'}
    (hm : m ≠ .diverge) (hf : ∀ l a, m = .done l (.ok a) → Follows RelB (f a) m') :
    Follows RelB (M.bind m f) m' := by
  cases m with
  | diverge => exact absurd rfl hm
  | done l r =>
    cases r with
    | err e => trivial
    | ok a => exact (hf l a rfl).after l

theorem Follows.mono {m : M L A} {m' : M L A'} (h : Follows Rel m m') (hr : ∀ a a', Rel a a' → Rel' a a') :
    Follows Rel' m m' := by
  cases m with
  | diverge => exact h
  | done l r =>
    cases r with
    | err e => trivial
    | ok a => obtain ⟨a', h1, h2⟩ := h; exact ⟨a', h1, hr a a' h2⟩

theorem Follows.sat {m : M L A} {m' : M L A'} {Q : A → Prop} {E : Err → Prop} (h : Follows Rel m m')
    (hs : Sat m Q E) : Follows (fun a a' => Rel a a' ∧ Q a) m m' := by
  cases m with
  | diverge => exact h
  | done l r =>
    cases r with
    | err e => trivial
    | ok a => obtain ⟨a', h1, h2⟩ := h; exact ⟨a', h1, h2, hs⟩

theorem Follows.ite {c : Prop} [Decidable c] {m n : M L A} {m' n' : M L A'} (h : c → Follows Rel m m')
    (h' : ¬c → Follows Rel n n') : Follows Rel (if c then m else n) (if c then m' else n') := by
  by_cases hc : c
  · rw [if_pos hc, if_pos hc]; exact h hc
  · rw [if_neg hc, if_neg hc]; exact h' hc

/-- a quiet run follows itself -/
theorem Follows.refl {m : M L A} {Q : A → Prop} {E : Err → Prop} (h : Quiet m Q E) :
    Follows (fun a a' => a = a' ∧ Q a) m m := by
  cases m with
  | diverge => rfl
  | done l r =>
    cases r with
    | err e => trivial
    | ok a => obtain ⟨rfl, h⟩ := h; exact ⟨a, rfl, rfl, h⟩

theorem Follows.lim {m : Nat → M L A} {m' : Nat → M L A'} {a : M L A} {a' : M L A'} (hm : Lim m a)
    (hm' : Lim m' a') (hmono : Mono m) (h : ∀ n, Follows Rel (m n) (m' n)) : Follows Rel a a' := by
  cases a with
  | diverge =>
    have hall : ∀ n, m n = .diverge := by
      intro n
      cases hn : m n with
      | diverge => rfl
      | done l r => exact absurd ((hm.iff l r).2 ⟨n, hn⟩) (by simp)
    show a' = .diverge
    cases ha : a' with
    | diverge => rfl
    | done l r =>
      obtain ⟨n, hn⟩ := (hm'.iff l r).1 ha
      have := h n
      rw [hall n] at this
      rw [show m' n = .diverge from this] at hn
      cases hn
  | done l r =>
    cases r with
    | err e => trivial
    | ok x =>
      obtain ⟨n, hn⟩ := (hm.iff l _).1 rfl
      have := h n
      rw [hn] at this
      obtain ⟨y, h1, h2⟩ := this
      exact ⟨y, (hm'.iff _ _).2 ⟨n, h1⟩, h2⟩

end

/-- `r'` is `r` without its value -/
def SameButValue (r r' : R) : Prop := r'.val = r.val.map (fun _ => .unit) ∧ r'.rem = r.rem

theorem SameButValue.hasValue {r r' : R} (h : SameButValue r r') : r'.hasValue = r.hasValue := by
  simp [R.hasValue, h.1]
theorem SameButValue.failure (s : Span) : SameButValue (R.failure s) (R.failure s) := ⟨rfl, rfl⟩
theorem SameButValue.success (v : Val) (s : Span) : SameButValue (R.success v s) (R.successVoid s) :=
  ⟨rfl, rfl⟩
theorem SameButValue.build (T : Ty) (v : Val) (s : Span) : SameButValue (builderBuild T v s) (R.successVoid s) := by
  unfold builderBuild; split <;> exact ⟨rfl, rfl⟩
theorem SameButValue.self {s : Span} {r : R} (h : GoodU s r) : SameButValue r r := by
  refine ⟨?_, rfl⟩
  cases hv : r.val with
  | none => rfl
  | some v => rw [h.unit v hv]; rfl

/-! No builder operation diverges. -/

theorem ofOption_ne (e : Err) (o : Option A) : (M.ofOption e o : M L A) ≠ .diverge := by
  cases o <;> simp [M.ofOption, M.pure, M.fail]
theorem bind_ne {m : M L A} {f : A → M L B} (hm : m ≠ .diverge) (hf : ∀ a, f a ≠ .diverge) :
    M.bind m f ≠ .diverge := by
  cases m with
  | diverge => exact absurd rfl hm
  | done l r =>
    cases r with
    | err e => simp [M.bind]
    | ok a =>
      have := hf a
      cases h : f a with
      | diverge => exact absurd h this
      | done l' r' => simp [M.bind, M.after, h]
theorem deref_ne (r : R) : r.deref ≠ .diverge := by
  unfold R.deref; split <;> simp [M.pure, M.fail]
theorem pure_ne (a : A) : (M.pure a : M L A) ≠ .diverge := by simp [M.pure]
theorem fail_ne (e : Err) : (M.fail e : M L A) ≠ .diverge := by simp [M.fail]
theorem ite_ne {c : Prop} [Decidable c] {m n : M L A} (h : m ≠ .diverge) (h' : n ≠ .diverge) :
    (if c then m else n) ≠ .diverge := by split <;> assumption

theorem builderAssign_ne (T : Ty) (v : Val) (r : R) : builderAssign T v r ≠ .diverge :=
  ite_ne (pure_ne _) (deref_ne _)
theorem builderArrayAssign_ne (T : Ty) (v : Val) (i : Nat) (r : R) : builderArrayAssign T v i r ≠ .diverge := by
  unfold builderArrayAssign
  refine ite_ne (pure_ne _) ?_
  split
  · exact bind_ne (deref_ne _) fun _ => ite_ne (pure_ne _) (fail_ne _)
  · exact fail_ne _
theorem builderGetAssign_ne (T : Ty) (v : Val) (i : Nat) (r : R) : builderGetAssign T v i r ≠ .diverge := by
  unfold builderGetAssign
  refine ite_ne (pure_ne _) ?_
  split
  · exact bind_ne (deref_ne _) fun _ => ite_ne (pure_ne _) (fail_ne _)
  · exact fail_ne _
theorem builderEmplace_ne (T : Ty) (v : Val) (r : R) : builderEmplace T v r ≠ .diverge := by
  unfold builderEmplace
  refine ite_ne (pure_ne _) ?_
  split
  · exact bind_ne (deref_ne _) fun _ => pure_ne _
  · exact fail_ne _
theorem convert_ne (C : Ctx α β) (a b : Ty) (v : Val) : convert C a b v ≠ .diverge := by
  unfold convert
  refine ite_ne (pure_ne _) ?_
  split
  · exact pure_ne _
  · exact fail_ne _
theorem builderEmplaceAt_ne (C : Ctx α β) (T : Ty) (i : Nat) (t : Ty) (v : Val) (r : R) :
    builderEmplaceAt C T i t v r ≠ .diverge := by
  unfold builderEmplaceAt
  split
  · exact pure_ne _
  · split
    · exact bind_ne (deref_ne _) fun _ => bind_ne (convert_ne _ _ _ _) fun _ => pure_ne _
    · exact fail_ne _
  · exact fail_ne _
theorem builderInsertBack_ne (T : Ty) (v : Val) (r : R) : builderInsertBack T v r ≠ .diverge := by
  unfold builderInsertBack
  refine ite_ne (pure_ne _) ?_
  split
  · exact bind_ne (deref_ne _) fun _ => pure_ne _
  · exact fail_ne _
theorem builderInsertBackFirst_ne (T : Ty) (v : Val) (r : R) : builderInsertBackFirst T v r ≠ .diverge := by
  unfold builderInsertBackFirst
  refine ite_ne (pure_ne _) ?_
  split
  · exact bind_ne (deref_ne _) fun _ => pure_ne _
  · exact fail_ne _
theorem builderInsertBackSecond_ne (T : Ty) (v : Val) (r : R) : builderInsertBackSecond T v r ≠ .diverge := by
  unfold builderInsertBackSecond
  refine ite_ne (pure_ne _) ?_
  split
  · exact bind_ne (deref_ne _) fun _ => pure_ne _
  · exact fail_ne _
theorem delimitRecordP_ne (T tp td : Ty) (v : Val) (r : R) : delimitRecordP T tp td v r ≠ .diverge :=
  ite_ne (ite_ne (builderInsertBack_ne _ _ _) (builderInsertBackFirst_ne _ _ _)) (pure_ne _)
theorem delimitRecordD_ne (T tp td : Ty) (v : Val) (r d : R) : delimitRecordD T tp td v r d ≠ .diverge :=
  ite_ne (ite_ne (ite_ne (builderInsertBack_ne _ _ _) (builderInsertBackSecond_ne _ _ _)) (pure_ne _)) (pure_ne _)
theorem liftCall_ne (r : Except Nat Val) : liftCall r ≠ .diverge := by
  unfold liftCall; split
  · exact pure_ne _
  · exact fail_ne _
theorem log_ne (l : L) : (M.log l : M L Unit) ≠ .diverge := by simp [M.log]
theorem invoke_ne (C : Ctx α β) (f : Fn) (args : List Val) : invoke C f args ≠ .diverge := by
  induction f generalizing args with
  | user k => exact bind_ne (log_ne _) fun _ => liftCall_ne _
  | apply f ih =>
    simp only [invoke]
    split
    · split
      · exact ih _
      · exact fail_ne _
    · exact fail_ne _
  | const k => exact bind_ne (log_ne _) fun _ => pure_ne _
  | construct t => exact bind_ne (log_ne _) fun _ => liftCall_ne _
  | deflt t => exact bind_ne (log_ne _) fun _ => ofOption_ne _ _
theorem argVals_ne (t : Ty) (r : R) : argVals t r ≠ .diverge :=
  ite_ne (pure_ne _) (bind_ne (deref_ne _) fun _ => pure_ne _)

theorem ptrAdd_ne (mem : Mem β) (p : Ptr) (n : Nat) : (p.add mem n : Run Ptr) ≠ .diverge := by
  cases p
  · exact ite_ne (pure_ne _) (fail_ne _)
  · exact ite_ne (pure_ne _) (fail_ne _)

theorem adjacent_ne (C : Ctx α β) (a b : Span) : adjacent C a b ≠ .diverge := by
  unfold adjacent
  split
  · refine bind_ne (ptrAdd_ne _ _ _) fun _ => ?_
    split
    · exact ite_ne (pure_ne _) (pure_ne _)
    · exact pure_ne _
    · exact pure_ne _
  · split
    · exact ite_ne (pure_ne _) (fail_ne _)
    · exact pure_ne _
    · exact fail_ne _
  · split
    · exact ite_ne (pure_ne _) (pure_ne _)
    · exact pure_ne _
    · exact pure_ne _

theorem tryJoinSpan_ne (C : Ctx α β) (j : Option Span) (o : Span) : tryJoinSpan C j o ≠ .diverge := by
  refine ite_ne (pure_ne _) ?_
  cases j with
  | none => exact pure_ne _
  | some j => exact bind_ne (adjacent_ne _ _ _) fun _ => ite_ne (pure_ne _) (pure_ne _)

mutual
theorem tryJoin_ne (C : Ctx α β) (j : Option Span) : ∀ v : Val, tryJoin C j v ≠ .diverge
  | .span s => by rw [tryJoin]; exact tryJoinSpan_ne _ _ _
  | .vec vs => by rw [tryJoin]; exact tryJoins_ne C j vs
  | .arr vs => by rw [tryJoin]; exact tryJoins_ne C j vs
  | .opt none => by rw [tryJoin]; exact pure_ne _
  | .opt (some v) => by rw [tryJoin]; exact tryJoin_ne C j v
  | .tup vs => by rw [tryJoin]; exact tryJoins_ne C j vs
  | .user k t vs => by
    rw [tryJoin]
    split
    · exact tryJoinSpan_ne _ _ _
    · exact fail_ne _
  | .unit => by rw [tryJoin]; exact fail_ne _
  | .var _ _ => by rw [tryJoin]; exact fail_ne _
  | .pair _ _ => by rw [tryJoin]; exact fail_ne _
theorem tryJoins_ne (C : Ctx α β) (j : Option Span) : ∀ vs : List Val, tryJoins C j vs ≠ .diverge
  | [] => by rw [tryJoins]; exact pure_ne _
  | v :: vs => by
    rw [tryJoins]
    exact bind_ne (tryJoin_ne C j v) fun x => ite_ne (tryJoins_ne C x.2 vs) (pure_ne _)
end

theorem joinExecutor_ne (C : Ctx α β) (r : R) : joinExecutor C r ≠ .diverge :=
  bind_ne (deref_ne _) fun _ => bind_ne (tryJoin_ne _ _ _) fun _ => ite_ne (pure_ne _) (pure_ne _)

/-! ### The induction -/

variable {C : Ctx α β} {P D : Sub}

/-- `lookahead` follows `parse` on the spans in `V`, which it does not leave -/
def Agree (V : Span → Prop) (P : Sub) : Prop :=
  ∀ s, V s → Follows (fun r r' => SameButValue r r' ∧ V r.rem) (P.parse s) (P.look s)

variable {V : Span → Prop}

/-- … with what is known about results -/
theorem Agree.good (h : Agree V P) (hg : SubGood P) (s : Span) (hs : V s) :
    Follows (fun r r' => (SameButValue r r' ∧ V r.rem) ∧ Good s r) (P.parse s) (P.look s) := (h s hs).sat (hg.parse s)

theorem basic_agree (b : BasicP α) (s : Span) :
    Follows SameButValue (parseBasic C b s) (lookBasic C b s) := by
  refine Follows.bind (Follows.refl (failureCondition_quiet_ub C b s)) ?_
  rintro c _ ⟨rfl, -⟩
  refine Follows.ite (fun _ => Follows.pure (.failure s)) fun _ => ?_
  refine Follows.bind (Follows.refl (advance_quiet_ub C s b.length)) ?_
  rintro s' _ ⟨rfl, -⟩
  exact Follows.pure (.success _ _)

/-- states of the executor with the same input -/
def SameExec (V : Span → Prop) (x y : Bool × Exec) : Prop := x.1 = y.1 ∧ x.2.input = y.2.input ∧ V x.2.input

theorem execute_agree {T T' : Ty} {u u' c c' : Bool} {t t' : Ty} (h : Agree V P) (hg : SubGood P)
    (hq : LookQuiet C P) (i : Option Nat) {st st' : Exec} (hst : st.input = st'.input) (hs : V st.input)
    (hV : ∀ {s s' : Span}, V s → s'.SuffixOf s → V s') :
    Follows (SameExec V) (execute C T u c ⟨P, t, i⟩ st) (execute C T' u' c' ⟨P, t', none⟩ st') := by
  cases i with
  | none =>
    simp only [execute]
    rw [← hst]
    refine Follows.bind (Follows.refl (hq st.input)) ?_
    rintro r _ ⟨rfl, hr⟩
    exact Follows.pure ⟨rfl, rfl, hV hs hr.suffix⟩
  | some i =>
    simp only [execute]
    rw [← hst]
    refine Follows.bind (h.good hg st.input hs) ?_
    rintro r r' ⟨⟨hr, hrV⟩, hgr⟩
    by_cases hv : r.hasValue = true
    · simp only [hv, Bool.not_true, Bool.false_eq_true, if_false]
      refine Follows.left ?_ fun l v _ => Follows.pure ⟨?_, ?_, hrV⟩
      · split
        · exact builderAssign_ne _ _ _
        · split
          · exact builderEmplaceAt_ne _ _ _ _ _ _
          · exact builderGetAssign_ne _ _ _ _
      · rw [hr.hasValue, hv]
      · exact hr.2.symm
    · rw [if_pos (by simp [hv])]
      refine Follows.pure ⟨?_, ?_, hs⟩
      · rw [hr.hasValue]; simpa using (Bool.eq_false_iff.2 hv).symm
      · show st.input = r'.rem
        rw [hr.2, hgr.of_not_hasValue hv]

theorem foldOr_agree {rec : Parser α → Sub} {T T' : Ty} {u u' c c' : Bool} (hg : ∀ q, SubGood (rec q))
    (hq : ∀ q, LookQuiet C (rec q)) (ps : List (Parser α)) (h : ∀ p ∈ ps, Agree V (rec p))
    (is : List (Option Nat)) (hl : is.length = ps.length) {st st' : Exec} (hst : st.input = st'.input) (hs : V st.input)
    (hV : ∀ {s s' : Span}, V s → s'.SuffixOf s → V s') :
    Follows (SameExec V) (foldOr (execute C T u c) (mkElems rec C ps is) st)
      (foldOr (execute C T' u' c') (mkLookElems rec C ps) st') := by
  induction ps generalizing is st st' with
  | nil => exact Follows.pure ⟨rfl, hst, hs⟩
  | cons p ps ih =>
    cases is with
    | nil => simp at hl
    | cons i is =>
      refine Follows.bind (execute_agree (h p (by simp)) (hg p) (hq p) i hst hs hV) ?_
      rintro ⟨b, x⟩ ⟨b', y⟩ ⟨hb, hx, hs'⟩
      simp only at hb hx hs'
      subst hb
      exact Follows.ite (fun _ => Follows.pure ⟨rfl, hx, hs'⟩) fun _ =>
        ih (fun p hp => h p (by simp [hp])) is (by simpa using hl) hx hs'

theorem foldAnd_agree {rec : Parser α → Sub} {T T' : Ty} {u u' c c' : Bool} (hg : ∀ q, SubGood (rec q))
    (hq : ∀ q, LookQuiet C (rec q)) (ps : List (Parser α)) (h : ∀ p ∈ ps, Agree V (rec p))
    (is : List (Option Nat)) (hl : is.length = ps.length) {st st' : Exec} (hst : st.input = st'.input) (hs : V st.input)
    (hV : ∀ {s s' : Span}, V s → s'.SuffixOf s → V s') :
    Follows (SameExec V) (foldAnd (execute C T u c) (mkElems rec C ps is) st)
      (foldAnd (execute C T' u' c') (mkLookElems rec C ps) st') := by
  induction ps generalizing is st st' with
  | nil => exact Follows.pure ⟨rfl, hst, hs⟩
  | cons p ps ih =>
    cases is with
    | nil => simp at hl
    | cons i is =>
      refine Follows.bind (execute_agree (h p (by simp)) (hg p) (hq p) i hst hs hV) ?_
      rintro ⟨b, x⟩ ⟨b', y⟩ ⟨hb, hx, hs'⟩
      simp only at hb hx hs'
      subst hb
      exact Follows.ite (fun _ => ih (fun p hp => h p (by simp [hp])) is (by simpa using hl) hx hs')
        fun _ => Follows.pure ⟨rfl, hx, hs'⟩

theorem exactlyLoop_agree (h : Agree V P) (T : Ty) (o : Span) (todo i : Nat) (s : Span) (hs : V s) (v : Val) :
    Follows SameButValue (exactlyLoop T P o todo i s v) (lookExactlyLoop P o todo s) := by
  induction todo generalizing i s hs v with
  | zero => exact Follows.pure (.build _ _ _)
  | succ n ih =>
    refine Follows.bind (h s hs) fun r r' ⟨hr, hrV⟩ => ?_
    rw [hr.hasValue, hr.2]
    exact Follows.ite (fun _ => Follows.pure (.failure o)) fun _ =>
      Follows.left (builderArrayAssign_ne _ _ _ _) fun _ _ _ => ih _ _ hrV _

theorem oneOrMoreLoop_agree (h : Agree V P) (T : Ty) (k : Nat) (b : Bool) (s : Span) (hs : V s) (v : Val) :
    Follows (fun x y => x.1 = y.1 ∧ x.2.1 = y.2) (oneOrMoreLoop T P k b s v) (lookOneOrMoreLoop P k b s) := by
  induction k generalizing b s hs v with
  | zero => exact Follows.diverge
  | succ n ih =>
    refine Follows.bind (h s hs) fun r r' ⟨hr, hrV⟩ => ?_
    simp only
    rw [hr.hasValue, hr.2]
    exact Follows.ite (fun _ => Follows.pure ⟨rfl, rfl⟩) fun _ =>
      Follows.left (builderInsertBack_ne _ _ _) fun _ _ _ => ih _ _ hrV _

theorem zeroOrMoreLoop_agree (h : Agree V P) (T : Ty) (k : Nat) (s : Span) (hs : V s) (v : Val) :
    Follows (fun x y => x.1 = y) (zeroOrMoreLoop T P k s v) (lookZeroOrMoreLoop P k s) := by
  induction k generalizing s hs v with
  | zero => exact Follows.diverge
  | succ n ih =>
    refine Follows.bind (h s hs) fun r r' ⟨hr, hrV⟩ => ?_
    simp only
    rw [hr.hasValue, hr.2]
    exact Follows.ite (fun _ => Follows.pure rfl) fun _ =>
      Follows.left (builderInsertBack_ne _ _ _) fun _ _ _ => ih _ hrV _

theorem delimitLoop_agree (h : Agree V P) (hD : Agree V D) (T tp td : Ty) (k : Nat) {r r' : R}
    (hr : SameButValue r r') (hrV : V r.rem) (s : Span) (v : Val) :
    Follows (fun x y => x.1 = y) (delimitLoop T tp td P D k r s v) (lookDelimitLoop P D k r' s) := by
  induction k generalizing r r' hrV s v with
  | zero => exact Follows.diverge
  | succ n ih =>
    simp only [delimitLoop, lookDelimitLoop]
    rw [hr.hasValue, hr.2]
    refine Follows.ite (fun _ => Follows.pure rfl) fun _ => ?_
    refine Follows.left (delimitRecordP_ne _ _ _ _ _) fun _ _ _ => ?_
    refine Follows.bind (hD r.rem hrV) fun d d' ⟨hd, hdV⟩ => ?_
    rw [hd.hasValue, hd.2]
    refine Follows.ite (fun _ => Follows.pure rfl) fun _ => ?_
    refine Follows.bind (h d.rem hdV) fun x x' ⟨hx, hxV⟩ => ?_
    exact Follows.left (delimitRecordD_ne _ _ _ _ _ _) fun _ _ _ => ih hx hxV _ _

theorem positions_length (n : Nat) (ts : List Ty) : (positions n ts).length = ts.length := by
  induction ts generalizing n with
  | nil => rfl
  | cons t ts ih => simp only [positions]; split <;> simp [ih]

theorem resultsFor_length (ps : List (Parser α)) : (resultsFor C ps).length = ps.length := by
  induction ps with
  | nil => rfl
  | cons p ps ih => simp [resultsFor, ih]

theorem choiceTrait_length (ps : List (Parser α)) :
    (choiceTrait (resultsFor C ps)).seq.length = ps.length := by
  rw [choiceTrait_seq, filterOutVoidDeduplicate_length, resultsFor_length]

theorem sequenceTrait_length (ps : List (Parser α)) :
    (sequenceTrait (resultsFor C ps)).seq.length = ps.length := by
  have : (sequenceTrait (resultsFor C ps)).seq = (filterOutVoid (resultsFor C ps)).2 := by
    simp only [sequenceTrait, compoundTrait]; split <;> rfl
  rw [this, filterOutVoid_eq, positions_length, resultsFor_length]

/-- `p` rejects what `q` in it matches -/
def RejectsAt (rec : Parser α → Sub) (k : Nat) (p q : Parser α) (s : Span) : Prop :=
  ∃ l l' v s' s'', (rec q).parse s = .done l (.ok ⟨some v, s'⟩) ∧ (step C rec k p).parse s = .done l' (.ok ⟨none, s''⟩)

/-- custom parser `j` succeeds on `s` although its body fails -/
def PretendsAt (rec : Parser α → Sub) (k j : Nat) (s : Span) : Prop :=
  ∃ l l' v s' s'', (rec (C.custom j).body).parse s = .done l (.ok ⟨none, s'⟩) ∧
    (step C rec k (.custom j)).parse s = .done l' (.ok ⟨some v, s''⟩)

theorem joinGeneric_agree (hg : SubGood P) (h : Agree V P) (s : Span) (hs : V s)
    (hrej : ¬ ∃ l l' v s' s'', P.parse s = .done l (.ok ⟨some v, s'⟩) ∧ parseJoin C P s = .done l' (.ok ⟨none, s''⟩)) :
    Follows SameButValue ((joinGeneric C P).parse s) ((joinGeneric C P).look s) := by
  have hb : Follows SameButValue (parseJoin C P s) (M.bind (P.look s) M.pure) := by
    refine Follows.bind_ok (h.good hg s hs) ?_
    rintro l r r' hl ⟨⟨hr, -⟩, hgr⟩
    by_cases hv : r.hasValue = true
    · rw [if_pos hv]
      refine Follows.left (joinExecutor_ne _ _) fun l1 j hj => ?_
      obtain ⟨x, hx⟩ := Option.isSome_iff_exists.1 hv
      cases j with
      | some j =>
        refine Follows.pure ⟨?_, hr.2⟩
        rw [hr.1, hx]; rfl
      | none =>
        refine (hrej ⟨l, l ++ (l1 ++ []), x, r.rem, s, ?_, ?_⟩).elim
        · rw [hl, ← hx]
        · simp only [parseJoin, M.bind_eq, hl, M.ok_bind, hv, if_true, hj]
          simp [M.after, M.pure, R.failure]
    · rw [if_neg hv]
      refine Follows.pure ⟨?_, ?_⟩
      · have : r.val = none := by simpa [R.hasValue] using hv
        rw [hr.1, this]; rfl
      · rw [hr.2, hgr.of_not_hasValue hv]; rfl
  rwa [M.bind_pure] at hb

theorem joinExactlyLoop_agree (b : BasicP α) (o : Span) (n : Nat) (s r : Span) :
    Follows SameButValue (joinExactlyLoop C b o n s r) (lookJoinExactlyLoop C b o n s) := by
  induction n generalizing s r with
  | zero => exact Follows.pure (.success _ _)
  | succ n ih =>
    refine Follows.bind (Follows.refl (failureCondition_quiet_ub C b s)) ?_
    rintro c _ ⟨rfl, -⟩
    refine Follows.ite (fun _ => Follows.pure (.failure o)) fun _ => ?_
    refine Follows.bind (Follows.refl (subspan_quiet_ub C s b.length)) ?_
    rintro s' _ ⟨rfl, -⟩
    exact ih _ _

theorem joinRepeatLoop_agree (b : BasicP α) (n : Nat) (s r : Span) :
    Follows (fun x y => x.1 = y) (joinRepeatLoop C b n s r) (lookJoinRepeatLoop C b n s) := by
  induction n generalizing s r with
  | zero => exact Follows.diverge
  | succ n ih =>
    refine Follows.bind (Follows.refl (failureCondition_quiet_ub C b s)) ?_
    rintro c _ ⟨rfl, -⟩
    refine Follows.ite (fun _ => Follows.pure rfl) fun _ => ?_
    refine Follows.bind (Follows.refl (subspan_quiet_ub C s b.length)) ?_
    rintro s' _ ⟨rfl, -⟩
    exact ih _ _

theorem semJoin_agree {rec : Parser α → Sub} (k : Nat) {p : Parser α} (hg : SubGood (rec p)) (h : Agree V (rec p)) (s : Span) (hs : V s)
    (hrej : ¬ RejectsAt (C := C) rec k (.join p) p s) :
    Follows SameButValue ((step C rec k (.join p)).parse s) ((step C rec k (.join p)).look s) := by
  have hgen : semJoin C rec k p = joinGeneric C (rec p) →
      Follows SameButValue ((semJoin C rec k p).parse s) ((semJoin C rec k p).look s) := by
    intro e
    rw [e]
    refine joinGeneric_agree hg h s hs ?_
    rintro ⟨l, l', v, s', s'', h1, h2⟩
    refine hrej ⟨l, l', v, s', s'', h1, ?_⟩
    show (semJoin C rec k p).parse s = _
    rw [e]; exact h2
  show Follows SameButValue ((semJoin C rec k p).parse s) ((semJoin C rec k p).look s)
  cases p with
  | exactly q n =>
    cases hq : asBasic C q with
    | none => exact hgen (by simp only [semJoin, hq])
    | some b => simp only [semJoin, hq]; exact joinExactlyLoop_agree b s n s _
  | maybe q =>
    cases hq : asBasic C q with
    | none => exact hgen (by simp only [semJoin, hq])
    | some b =>
      simp only [semJoin, hq]
      refine Follows.bind (Follows.refl (failureCondition_quiet_ub C b s)) ?_
      rintro c _ ⟨rfl, -⟩
      refine Follows.ite (fun _ => Follows.pure (.success _ _)) fun _ => ?_
      refine Follows.bind (Follows.refl (advance_quiet_ub C s b.length)) ?_
      rintro s' _ ⟨rfl, -⟩
      exact Follows.pure (.success _ _)
  | oneOrMore q =>
    cases hq : asBasic C q with
    | none => exact hgen (by simp only [semJoin, hq])
    | some b =>
      simp only [semJoin, hq]
      refine Follows.bind (Follows.refl (failureCondition_quiet_ub C b s)) ?_
      rintro c _ ⟨rfl, -⟩
      refine Follows.ite (fun _ => Follows.pure (.failure s)) fun _ => ?_
      refine Follows.bind (Follows.refl (subspan_quiet_ub C s b.length)) ?_
      rintro s' _ ⟨rfl, -⟩
      refine Follows.bind (joinRepeatLoop_agree b k s' _) ?_
      rintro ⟨x, w⟩ y hx
      simp only at hx
      subst hx
      exact Follows.pure (.success _ _)
  | zeroOrMore q =>
    cases hq : asBasic C q with
    | none => exact hgen (by simp only [semJoin, hq])
    | some b =>
      simp only [semJoin, hq]
      refine Follows.bind (joinRepeatLoop_agree b k s _) ?_
      rintro ⟨x, w⟩ y hx
      simp only at hx
      subst hx
      exact Follows.pure (.success _ _)
  | _ => exact hgen rfl

theorem step_agree {rec : Parser α → Sub} (k : Nat) (hg : ∀ q, SubGood (rec q)) (hq : ∀ q, LookQuiet C (rec q))
    (hV : ∀ {s s' : Span}, V s → s'.SuffixOf s → V s') (p : Parser α)
    (ch : ∀ {q}, ParseChild C p q → Agree V (rec q))
    (hrej : ∀ q, (p = .join q ∨ ∃ f, p = .filter q f) → ∀ s, V s → ¬ RejectsAt (C := C) rec k p q s)
    (hpre : ∀ j, p = .custom j → ∀ s, V s → ¬ PretendsAt (C := C) rec k j s)
    (s : Span) (hs : V s) : Follows SameButValue ((step C rec k p).parse s) ((step C rec k p).look s) := by
  cases p with
  | anyOf _ | noneOf _ | allOf _ | anything => exact basic_agree _ s
  | epsilon => exact Follows.pure ⟨rfl, rfl⟩
  | choice ps =>
    refine Follows.left (ofOption_ne _ _) fun _ v _ => ?_
    refine Follows.bind (foldOr_agree hg hq ps (fun p hp => ch (.choice hp)) _ (choiceTrait_length ps) rfl hs hV) ?_
    rintro ⟨b, x⟩ ⟨b', y⟩ ⟨hb, hx, -⟩
    simp only at hb hx
    subst hb
    simp only [hx]
    cases b
    · exact Follows.pure (.failure s)
    · exact Follows.pure (.build _ _ _)
  | sequence ps =>
    refine Follows.left (ofOption_ne _ _) fun _ v _ => ?_
    refine Follows.bind (foldAnd_agree hg hq ps (fun p hp => ch (.sequence hp)) _ (sequenceTrait_length ps) rfl hs hV) ?_
    rintro ⟨b, x⟩ ⟨b', y⟩ ⟨hb, hx, -⟩
    simp only at hb hx
    subst hb
    simp only [hx]
    cases b
    · exact Follows.pure (.failure s)
    · exact Follows.pure (.build _ _ _)
  | maybe p =>
    refine Follows.left (ofOption_ne _ _) fun _ v _ => ?_
    refine Follows.bind ((ch .maybe).good (hg p) s hs) ?_
    rintro r r' ⟨⟨hr, -⟩, hgr⟩
    rw [hr.hasValue, hr.2]
    by_cases hv : r.hasValue = true
    · simp only [hv, if_true]
      exact Follows.left (builderEmplace_ne _ _ _) fun _ _ _ => Follows.pure (.build _ _ _)
    · simp only [hv, if_false]
      rw [hgr.of_not_hasValue hv]
      exact Follows.left (pure_ne _) fun _ _ _ => Follows.pure (.build _ _ _)
  | exactly p n =>
    exact Follows.left (ofOption_ne _ _) fun _ v _ => exactlyLoop_agree (ch .exactly) _ s n 0 s hs v
  | oneOrMore p =>
    refine Follows.left (ofOption_ne _ _) fun _ v _ => ?_
    refine Follows.bind (oneOrMoreLoop_agree (ch .oneOrMore) _ k false s hs v) ?_
    rintro ⟨b, x, w⟩ ⟨b', y⟩ ⟨hb, hx⟩
    simp only at hb hx
    subst hb hx
    exact Follows.ite (fun _ => Follows.pure (.build _ _ _)) fun _ => Follows.pure (.failure _)
  | zeroOrMore p =>
    refine Follows.left (ofOption_ne _ _) fun _ v _ => ?_
    refine Follows.bind (zeroOrMoreLoop_agree (ch .zeroOrMore) _ k s hs v) ?_
    rintro ⟨x, w⟩ y hx
    simp only at hx
    subst hx
    exact Follows.pure (.build _ _ _)
  | delimit p d =>
    refine Follows.left (ofOption_ne _ _) fun _ v _ => ?_
    refine Follows.bind (ch .delimit s hs) fun r r' ⟨hr, hrV⟩ => ?_
    rw [hr.hasValue]
    refine Follows.ite (fun _ => Follows.pure (.failure s)) fun _ => ?_
    refine Follows.bind (delimitLoop_agree (ch .delimit) (ch .delimiter) _ _ _ k hr hrV s v) ?_
    rintro ⟨x, w⟩ y hx
    simp only at hx
    subst hx
    exact Follows.pure (.build _ _ _)
  | ignore p =>
    refine (Follows.refl (hq p s)).mono ?_
    rintro r _ ⟨rfl, hr⟩
    exact .self hr
  | complete p =>
    refine Follows.bind (ch .complete s hs) fun r r' ⟨hr, _⟩ => ?_
    rw [hr.hasValue, hr.2]
    exact Follows.ite (fun _ => Follows.pure (.failure s)) fun _ => Follows.pure hr
  | join p => exact semJoin_agree k (hg p) (ch .join) s hs (hrej p (.inl rfl) s hs)
  | map p f =>
    have hb : Follows SameButValue (parseMap C (resultFor C p) (resultFor C (.map p f)) f (rec p) s)
        (M.bind ((rec p).look s) M.pure) := by
      refine Follows.bind ((ch .map).good (hg p) s hs) ?_
      rintro r r' ⟨⟨hr, -⟩, hgr⟩
      by_cases hv : r.hasValue = true
      · simp only [hv, Bool.not_true, Bool.false_eq_true, if_false]
        refine Follows.left (argVals_ne _ _) fun _ _ _ => Follows.left (invoke_ne _ _ _) fun _ w _ => ?_
        have hr' : SameButValue (R.success w r.rem) r' := by
          refine ⟨?_, hr.2⟩
          rw [hr.1]
          obtain ⟨x, hx⟩ := Option.isSome_iff_exists.1 hv
          simp [hx, R.success]
        split
        · exact Follows.pure ⟨hr'.1, hr'.2⟩
        · exact Follows.pure hr'
      · rw [if_pos (by simp [hv])]
        refine Follows.pure ⟨?_, ?_⟩
        · have : r.val = none := by simpa [R.hasValue] using hv
          rw [hr.1, this]; rfl
        · rw [hr.2, hgr.of_not_hasValue hv]; rfl
    rwa [M.bind_pure] at hb
  | filter p f =>
    have hb : Follows SameButValue (parseFilter C (resultFor C p) f (rec p) s)
        (M.bind ((rec p).look s) M.pure) := by
      refine Follows.bind_ok ((ch .filter).good (hg p) s hs) ?_
      rintro l r r' hl ⟨⟨hr, -⟩, hgr⟩
      by_cases hv : r.hasValue = true
      · simp only [hv, Bool.not_true, Bool.false_eq_true, if_false]
        refine Follows.left (argVals_ne _ _) fun l1 a ha => Follows.left (invoke_ne _ _ _) fun l2 w hw => ?_
        by_cases ht : C.truthy w = true
        · rw [if_pos ht]; exact Follows.pure hr
        · exfalso
          obtain ⟨x, hx⟩ := Option.isSome_iff_exists.1 hv
          refine hrej p (.inr ⟨f, rfl⟩) s hs ⟨l, l ++ (l1 ++ (l2 ++ [])), x, r.rem, s, ?_, ?_⟩
          · rw [hl, ← hx]
          · show parseFilter C (resultFor C p) f (rec p) s = _
            simp only [parseFilter, M.bind_eq, hl, M.ok_bind, hv, Bool.not_true, Bool.false_eq_true, if_false, ha, hw, if_neg ht]
            simp [M.after, M.pure, R.failure]
      · rw [if_pos (by simp [hv])]
        refine Follows.pure ⟨?_, ?_⟩
        · have : r.val = none := by simpa [R.hasValue] using hv
          rw [hr.1, this]; rfl
        · rw [hr.2, hgr.of_not_hasValue hv]; rfl
    rwa [M.bind_pure] at hb
  | named p n => exact (ch .named s hs).mono fun _ _ h => h.1
  | custom j =>
    have hb : Follows SameButValue (parseCustom C (resultFor C (C.custom j).body) (C.custom j).ty
        (rec (C.custom j).body) s) (M.bind ((rec (C.custom j).body).look s) M.pure) := by
      refine Follows.bind_ok (ch .custom s hs) fun l r r' hrun ⟨hr, _⟩ => ?_
      unfold convertResult
      split
      · exact Follows.pure hr
      · next hne =>
        split
        · exact Follows.fail
        · split
          · next hvoid _ g hg =>
            obtain ⟨rv, rr⟩ := r
            cases rv with
            | some v => exact Follows.pure ⟨by rw [hr.1]; rfl, hr.2⟩
            | none =>
              refine (hpre j rfl s hs ⟨l, l ++ [], g none, rr, rr, hrun, ?_⟩).elim
              show parseCustom C (resultFor C (C.custom j).body) (C.custom j).ty (rec (C.custom j).body) s = _
              simp only [parseCustom, M.bind_eq, hrun, M.ok_bind]
              rw [convertResult, if_neg hne, if_neg hvoid, hg]
              simp [M.after, M.pure]
          · split
            · exact Follows.pure hr
            · next v hv =>
              refine Follows.left (convert_ne _ _ _ _) fun _ _ _ => Follows.pure ⟨?_, hr.2⟩
              rw [hr.1, hv]; rfl
    rwa [M.bind_pure] at hb

/-- no filter or join in `p` rejects what is below it, no custom parser accepts what its body rejects -/
structure NoOverrule (C : Ctx α β) (V : Span → Prop) (p : Parser α) : Prop where
  rejects : ∀ q, ParseReach C p q → ∀ r, (q = .join r ∨ ∃ f, q = .filter r f) → ∀ s, V s →
    ∀ log v s', Parse C r s = .done log (.ok ⟨some v, s'⟩) → ∀ log' s'', Parse C q s ≠ .done log' (.ok ⟨none, s''⟩)
  pretends : ∀ k, ParseReach C p (.custom k) → ∀ s, V s →
    ∀ log s', Parse C (C.custom k).body s = .done log (.ok ⟨none, s'⟩) →
    ∀ log' v s'', Parse C (.custom k) s ≠ .done log' (.ok ⟨some v, s''⟩)

theorem NoOverrule.child {p q : Parser α} (h : NoOverrule C V p) (hc : ParseChild C p q) : NoOverrule C V q :=
  ⟨fun r hr => h.rejects r (.step hc hr), fun k hk => h.pretends k (.step hc hk)⟩

/-- a custom parser that succeeds where its body fails makes its value from an optional -/
theorem pretends_of {k : Nat} {s : Span} {log s' log' v s''} (h1 : Parse C (C.custom k).body s = .done log (.ok ⟨none, s'⟩))
    (h2 : Parse C (.custom k) s = .done log' (.ok ⟨some v, s''⟩)) : Pretends C k := by
  have h : Parse C (.custom k) s = parseCustom C (resultFor C (C.custom k).body) (C.custom k).ty (den C (C.custom k).body) s := by
    rw [Parse_eq]; exact lim_const _
  rw [h] at h2
  simp only [parseCustom, M.bind_eq, den, h1, M.ok_bind, convertResult] at h2
  split at h2
  · cases h2
  · next hne =>
    refine ⟨hne, ?_⟩
    split at h2
    · cases h2
    · split at h2
      · next hg => rw [hg]; rfl
      · cases h2

theorem sem_agree (hV : ∀ {s s' : Span}, V s → s'.SuffixOf s → V s') (n : Nat) (p : Parser α) (hp : NoOverrule C V p) :
    Agree V (sem C n p) := by
  induction n generalizing p with
  | zero => exact fun s _ => Follows.diverge
  | succ n ih =>
    intro s hs
    refine ((step_agree n (fun q => sem_good n q) (fun q => sem_quiet n q) hV p (fun hc => ih _ (hp.child hc))
      ?_ ?_ s hs).sat ((sem_good (n + 1) p).parse s)).mono fun r _ h => ⟨h.1, hV hs h.2.suffix⟩
    · rintro q hq s hs ⟨l, l', v, s', s'', h1, h2⟩
      exact hp.rejects p .refl q hq s hs l v s' (Parse_eq_done.2 ⟨n, h1⟩) l' s'' (Parse_eq_done.2 ⟨n + 1, h2⟩)
    · rintro j rfl s hs ⟨l, l', v, s', s'', h1, h2⟩
      exact hp.pretends j .refl s hs l s' (Parse_eq_done.2 ⟨n, h1⟩) l' v s'' (Parse_eq_done.2 ⟨n + 1, h2⟩)

/-- if no filter and no join rejects anything, `lookahead` follows `parse` -/
theorem Look_follows_on (hV : ∀ {s s' : Span}, V s → s'.SuffixOf s → V s') {p : Parser α} (hp : NoOverrule C V p)
    (s : Span) (hs : V s) : Follows SameButValue (Parse C p s) (Look C p s) :=
  Follows.lim ((sem_lim p).parse s) ((sem_lim p).look s) (sem_mono_parse p s) fun n =>
    (sem_agree hV n p hp s hs).mono fun _ _ h => h.1

/-- without filter and join, `lookahead` follows `parse` -/
theorem Look_follows {p : Parser α} (hp : Plain C p) (s : Span) :
    Follows SameButValue (Parse C p s) (Look C p s) := by
  refine Look_follows_on (V := fun _ => True) (fun _ _ => trivial) ⟨?_, ?_⟩ s trivial
  · rintro q hq r (rfl | ⟨f, rfl⟩)
    · exact absurd rfl ((hp _ hq).2.1 r)
    · exact absurd rfl ((hp _ hq).1 r f)
  · intro k hk s _ log s' h1 log' v s'' h2
    exact (hp _ hk).2.2 k rfl (pretends_of h1 h2)

end Tok3n

namespace Tok3n

variable {α β : Type}

mutual
/-- no `filter` or `join` other than below `ignore` (not looking into custom parsers) -/
def plainB : Parser α → Bool
  | .filter _ _ | .join _ => false
  | .choice ps | .sequence ps => plainsB ps
  | .maybe p | .exactly p _ | .oneOrMore p | .zeroOrMore p | .complete p | .map p _ | .named p _ => plainB p
  | .delimit p d => plainB p && plainB d
  | _ => true
def plainsB : List (Parser α) → Bool
  | [] => true
  | p :: ps => plainB p && plainsB ps
end

theorem plainsB_mem {ps : List (Parser α)} (h : plainsB ps = true) : ∀ p ∈ ps, plainB p = true := by
  induction ps with
  | nil => simp
  | cons p ps ih =>
    simp only [plainsB, Bool.and_eq_true] at h
    intro q hq
    rcases List.mem_cons.1 hq with rfl | hq
    · exact h.1
    · exact ih h.2 q hq

theorem plain_of {C : Ctx α β} (hc : ∀ k, plainB (C.custom k).body = true ∧ ¬ Pretends C k) {p : Parser α}
    (hp : plainB p = true) : Plain C p := by
  intro q h
  induction h with
  | refl =>
    rename_i p
    cases p with
    | filter => simp [plainB] at hp
    | join => simp [plainB] at hp
    | custom k => exact ⟨nofun, nofun, fun j hj => by cases hj; exact (hc k).2⟩
    | _ => exact ⟨nofun, nofun, nofun⟩
  | step hch _ ih =>
    apply ih
    cases hch with
    | choice h => exact plainsB_mem (by simpa [plainB] using hp) _ h
    | sequence h => exact plainsB_mem (by simpa [plainB] using hp) _ h
    | delimit => simp only [plainB, Bool.and_eq_true] at hp; exact hp.1
    | delimiter => simp only [plainB, Bool.and_eq_true] at hp; exact hp.2
    | custom => exact (hc _).1
    | join => simp [plainB] at hp
    | filter => simp [plainB] at hp
    | _ => simpa [plainB] using hp

end Tok3n
