import Verif.Proof.StatefulTerminate
/-
Without `filter` and `join`, a run with stateful callbacks does what `lookahead` does, which
runs no callbacks: what they answer and the state they keep cannot change the verdict.  The
counterpart of `Proof/Agree.lean`.
-/

namespace Tok3n.Stateful

variable {σ α β A A' B B' : Type}

/-- `m'` follows `m`, from whatever state -/
def SFollows (Rel : A → A' → Prop) (m : SRun σ A) (m' : Run A') : Prop :=
  ∀ st, Follows (fun x y => Rel x.1 y) (m st) m'

section
variable {Rel Rel' : A → A' → Prop}

theorem SFollows.diverge : SFollows Rel (SRun.diverge : SRun σ A) (M.diverge : Run A') := fun _ => rfl
theorem SFollows.pure {a : A} {a' : A'} (h : Rel a a') : SFollows Rel (SRun.pure a : SRun σ A) (M.pure a') :=
  fun _ => Follows.pure h
theorem SFollows.bind {RelB : B → B' → Prop} {m : SRun σ A} {m' : Run A'} {f : A → SRun σ B} {f' : A' → Run B'}
    (h : SFollows Rel m m') (hf : ∀ a a', Rel a a' → SFollows RelB (f a) (f' a')) :
    SFollows RelB (m >>= f) (M.bind m' f') :=
  fun st => Follows.bind (h st) fun x y hxy => hf x.1 y hxy x.2
/-- a step only `m` takes -/
theorem SFollows.left {RelB : B → B' → Prop} {m : SRun σ A} {f : A → SRun σ B} {m' : Run B'}
    (hm : ∀ st, m st ≠ .diverge) (hf : ∀ a, SFollows RelB (f a) m') : SFollows RelB (m >>= f) m' :=
  fun st => Follows.left (hm st) fun _ x _ => hf x.1 x.2
theorem SFollows.lift {m : Run A} {m' : Run A'} (h : Follows Rel m m') : SFollows Rel (SRun.lift m : SRun σ A) m' := by
  intro st
  have := Follows.bind (f := fun a => (M.pure (a, st) : M Call (A × σ))) (f' := fun y => (M.pure y : Run A'))
    (RelB := fun x y => Rel x.1 y) h fun a a' h => Follows.pure h
  rwa [M.bind_pure] at this
theorem SFollows.mono {m : SRun σ A} {m' : Run A'} (h : SFollows Rel m m') (hr : ∀ a a', Rel a a' → Rel' a a') :
    SFollows Rel' m m' := fun st => (h st).mono fun _ _ => hr _ _
theorem SFollows.sat {m : SRun σ A} {m' : Run A'} {Q : A → Prop} {E : Err → Prop} (h : SFollows Rel m m')
    (hs : Sat m Q E) : SFollows (fun a a' => Rel a a' ∧ Q a) m m' := fun st => (h st).sat (hs st)
theorem SFollows.ite {c : Prop} [Decidable c] {m n : SRun σ A} {m' n' : Run A'} (h : c → SFollows Rel m m')
    (h' : ¬c → SFollows Rel n n') : SFollows Rel (if c then m else n) (if c then m' else n') := by
  by_cases hc : c
  · rw [if_pos hc, if_pos hc]; exact h hc
  · rw [if_neg hc, if_neg hc]; exact h' hc
theorem SFollows.lim {m : Nat → SRun σ A} {m' : Nat → Run A'} {a : SRun σ A} {a' : Run A'} (hm : Lim m a)
    (hm' : Tok3n.Lim m' a') (hmono : Mono m) (h : ∀ n, SFollows Rel (m n) (m' n)) : SFollows Rel a a' :=
  fun st => Follows.lim (hm st) hm' (fun n => hmono n st) fun n => h n st

end

variable {C : Ctx α β} {U : Callbacks σ} {P D : Sub σ} {P' D' : Tok3n.Sub}

/-- `parse` follows the stateless `lookahead` -/
def Agree (P : Sub σ) (P' : Tok3n.Sub) : Prop := ∀ s, SFollows SameButValue (P.parse s) (P'.look s)

theorem Agree.good (h : Agree P P') (hg : SubGood P) (s : Span) :
    SFollows (fun r r' => SameButValue r r' ∧ Good s r) (P.parse s) (P'.look s) := (h s).sat (hg.parse s)

/-- states of the executor with the same input -/
def SameExec (x y : Bool × Exec) : Prop := x.1 = y.1 ∧ x.2.input = y.2.input

theorem execute_agree {T T' : Ty} {u u' c c' : Bool} {t t' : Ty} (h : Agree P P') (hg : SubGood P)
    (hl : LookLift P P') (hq : LookQuiet C P') (i : Option Nat) {x x' : Exec} (hx : x.input = x'.input) :
    SFollows SameExec (execute C T u c ⟨P, t, i⟩ x) (Tok3n.execute C T' u' c' ⟨P', t', none⟩ x') := by
  cases i with
  | none =>
    simp only [execute, Tok3n.execute]
    rw [← hx, hl]
    refine SFollows.bind (SFollows.lift (Follows.refl (hq x.input))) ?_
    rintro r _ ⟨rfl, hr⟩
    exact SFollows.pure ⟨rfl, rfl⟩
  | some i =>
    simp only [execute, Tok3n.execute]
    rw [← hx]
    refine SFollows.bind (h.good hg x.input) ?_
    rintro r r' ⟨hr, hgr⟩
    by_cases hv : r.hasValue = true
    · simp only [hv, Bool.not_true, Bool.false_eq_true, if_false]
      refine SFollows.left (fun st => ?_) fun v => SFollows.pure ⟨?_, ?_⟩
      · exact site_ne (slift_ne (builderAssign_ne _ _ _) _) (site_ne (slift_ne (builderEmplaceAt_ne _ _ _ _ _ _) _)
          (slift_ne (builderGetAssign_ne _ _ _ _) _))
      · rw [hr.hasValue, hv]
      · exact hr.2.symm
    · rw [if_pos (by simp [hv])]
      refine SFollows.pure ⟨?_, ?_⟩
      · rw [hr.hasValue]; simpa using (Bool.eq_false_iff.2 hv).symm
      · show x.input = r'.rem
        rw [hr.2, hgr.of_not_hasValue hv]

section
variable {rec : Parser α → Sub σ} {lrec : Parser α → Tok3n.Sub} (hg : ∀ q, SubGood (rec q))
  (hl : ∀ q, LookLift (rec q) (lrec q)) (hq : ∀ q, LookQuiet C (lrec q))
include hg hl hq

theorem foldOr_agree {T T' : Ty} {u u' c c' : Bool} (ps : List (Parser α)) (h : ∀ p ∈ ps, Agree (rec p) (lrec p))
    (is : List (Option Nat)) (hn : is.length = ps.length) {x x' : Exec} (hx : x.input = x'.input) :
    SFollows SameExec (foldOr (execute C T u c) (mkElems rec C ps is) x)
      (Tok3n.foldOr (Tok3n.execute C T' u' c') (Tok3n.mkLookElems lrec C ps) x') := by
  induction ps generalizing is x x' with
  | nil => exact SFollows.pure ⟨rfl, hx⟩
  | cons p ps ih =>
    cases is with
    | nil => simp at hn
    | cons i is =>
      refine SFollows.bind (execute_agree (h p (by simp)) (hg p) (hl p) (hq p) i hx) ?_
      rintro ⟨b, x⟩ ⟨b', y⟩ ⟨hb, hx⟩
      simp only at hb hx
      subst hb
      exact SFollows.ite (fun _ => SFollows.pure ⟨rfl, hx⟩) fun _ =>
        ih (fun p hp => h p (by simp [hp])) is (by simpa using hn) hx

theorem foldAnd_agree {T T' : Ty} {u u' c c' : Bool} (ps : List (Parser α)) (h : ∀ p ∈ ps, Agree (rec p) (lrec p))
    (is : List (Option Nat)) (hn : is.length = ps.length) {x x' : Exec} (hx : x.input = x'.input) :
    SFollows SameExec (foldAnd (execute C T u c) (mkElems rec C ps is) x)
      (Tok3n.foldAnd (Tok3n.execute C T' u' c') (Tok3n.mkLookElems lrec C ps) x') := by
  induction ps generalizing is x x' with
  | nil => exact SFollows.pure ⟨rfl, hx⟩
  | cons p ps ih =>
    cases is with
    | nil => simp at hn
    | cons i is =>
      refine SFollows.bind (execute_agree (h p (by simp)) (hg p) (hl p) (hq p) i hx) ?_
      rintro ⟨b, x⟩ ⟨b', y⟩ ⟨hb, hx⟩
      simp only at hb hx
      subst hb
      exact SFollows.ite (fun _ => ih (fun p hp => h p (by simp [hp])) is (by simpa using hn) hx)
        fun _ => SFollows.pure ⟨rfl, hx⟩
end

theorem exactlyLoop_agree (h : Agree P P') (T : Ty) (o : Span) (todo i : Nat) (s : Span) (v : Val) :
    SFollows SameButValue (exactlyLoop T P o todo i s v) (Tok3n.lookExactlyLoop P' o todo s) := by
  induction todo generalizing i s v with
  | zero => exact SFollows.pure (.build _ _ _)
  | succ n ih =>
    refine SFollows.bind (h s) fun r r' hr => ?_
    rw [hr.hasValue, hr.2]
    exact SFollows.ite (fun _ => SFollows.pure (.failure o)) fun _ =>
      SFollows.left (slift_ne (builderArrayAssign_ne _ _ _ _)) fun _ => ih _ _ _

theorem oneOrMoreLoop_agree (h : Agree P P') (T : Ty) (k : Nat) (b : Bool) (s : Span) (v : Val) :
    SFollows (fun x y => x.1 = y.1 ∧ x.2.1 = y.2) (oneOrMoreLoop T P k b s v) (Tok3n.lookOneOrMoreLoop P' k b s) := by
  induction k generalizing b s v with
  | zero => exact SFollows.diverge
  | succ n ih =>
    refine SFollows.bind (h s) fun r r' hr => ?_
    simp only
    rw [hr.hasValue, hr.2]
    exact SFollows.ite (fun _ => SFollows.pure ⟨rfl, rfl⟩) fun _ =>
      SFollows.left (slift_ne (builderInsertBack_ne _ _ _)) fun _ => ih _ _ _

theorem zeroOrMoreLoop_agree (h : Agree P P') (T : Ty) (k : Nat) (s : Span) (v : Val) :
    SFollows (fun x y => x.1 = y) (zeroOrMoreLoop T P k s v) (Tok3n.lookZeroOrMoreLoop P' k s) := by
  induction k generalizing s v with
  | zero => exact SFollows.diverge
  | succ n ih =>
    refine SFollows.bind (h s) fun r r' hr => ?_
    simp only
    rw [hr.hasValue, hr.2]
    exact SFollows.ite (fun _ => SFollows.pure rfl) fun _ =>
      SFollows.left (slift_ne (builderInsertBack_ne _ _ _)) fun _ => ih _ _

theorem delimitLoop_agree (h : Agree P P') (hD : Agree D D') (T tp td : Ty) (k : Nat) {r r' : R}
    (hr : SameButValue r r') (s : Span) (v : Val) :
    SFollows (fun x y => x.1 = y) (delimitLoop T tp td P D k r s v) (Tok3n.lookDelimitLoop P' D' k r' s) := by
  induction k generalizing r r' s v with
  | zero => exact SFollows.diverge
  | succ n ih =>
    simp only [delimitLoop, Tok3n.lookDelimitLoop]
    rw [hr.hasValue, hr.2]
    refine SFollows.ite (fun _ => SFollows.pure rfl) fun _ => ?_
    refine SFollows.left (slift_ne (delimitRecordP_ne _ _ _ _ _)) fun _ => ?_
    refine SFollows.bind (hD r.rem) fun d d' hd => ?_
    rw [hd.hasValue, hd.2]
    refine SFollows.ite (fun _ => SFollows.pure rfl) fun _ => ?_
    refine SFollows.bind (h d.rem) fun x x' hx => ?_
    exact SFollows.left (slift_ne (delimitRecordD_ne _ _ _ _ _ _)) fun _ => ih hx _ _

theorem step_agree {rec : Parser α → Sub σ} {lrec : Parser α → Tok3n.Sub} (k : Nat) (hg : ∀ q, SubGood (rec q))
    (hl : ∀ q, LookLift (rec q) (lrec q)) (hq : ∀ q, LookQuiet C (lrec q)) (p : Parser α)
    (ch : ∀ {q}, ParseChild C p q → Agree (rec q) (lrec q)) (hf : ∀ r f, p ≠ .filter r f) (hj : ∀ r, p ≠ .join r)
    (hpre : ∀ j, p = .custom j → ¬ Pretends C j) :
    Agree (step C U rec k p) (Tok3n.step C lrec k p) := by
  intro s
  cases p with
  | anyOf _ | noneOf _ | allOf _ | anything => exact SFollows.lift (basic_agree _ s)
  | epsilon => exact SFollows.pure ⟨rfl, rfl⟩
  | choice ps =>
    refine SFollows.left (slift_ne (ofOption_ne _ _)) fun v => ?_
    refine SFollows.bind (foldOr_agree hg hl hq ps (fun p hp => ch (.choice hp)) _ (choiceTrait_length ps) rfl) ?_
    rintro ⟨b, x⟩ ⟨b', y⟩ ⟨hb, hx⟩
    simp only at hb hx
    subst hb
    simp only [hx]
    cases b
    · exact SFollows.pure (.failure s)
    · exact SFollows.pure (.build _ _ _)
  | sequence ps =>
    refine SFollows.left (slift_ne (ofOption_ne _ _)) fun v => ?_
    refine SFollows.bind (foldAnd_agree hg hl hq ps (fun p hp => ch (.sequence hp)) _ (sequenceTrait_length ps) rfl) ?_
    rintro ⟨b, x⟩ ⟨b', y⟩ ⟨hb, hx⟩
    simp only at hb hx
    subst hb
    simp only [hx]
    cases b
    · exact SFollows.pure (.failure s)
    · exact SFollows.pure (.build _ _ _)
  | maybe p =>
    refine SFollows.left (slift_ne (ofOption_ne _ _)) fun v => ?_
    refine SFollows.bind ((ch .maybe).good (hg p) s) ?_
    rintro r r' ⟨hr, hgr⟩
    rw [hr.hasValue, hr.2]
    by_cases hv : r.hasValue = true
    · simp only [hv, if_true]
      exact SFollows.left (slift_ne (builderEmplace_ne _ _ _)) fun _ => SFollows.pure (.build _ _ _)
    · simp only [hv, if_false]
      rw [hgr.of_not_hasValue hv]
      exact SFollows.left (spure_ne _) fun _ => SFollows.pure (.build _ _ _)
  | exactly p n =>
    exact SFollows.left (slift_ne (ofOption_ne _ _)) fun v => exactlyLoop_agree (ch .exactly) _ s n 0 s v
  | oneOrMore p =>
    refine SFollows.left (slift_ne (ofOption_ne _ _)) fun v => ?_
    refine SFollows.bind (oneOrMoreLoop_agree (ch .oneOrMore) _ k false s v) ?_
    rintro ⟨b, x, w⟩ ⟨b', y⟩ ⟨hb, hx⟩
    simp only at hb hx
    subst hb hx
    exact SFollows.ite (fun _ => SFollows.pure (.build _ _ _)) fun _ => SFollows.pure (.failure _)
  | zeroOrMore p =>
    refine SFollows.left (slift_ne (ofOption_ne _ _)) fun v => ?_
    refine SFollows.bind (zeroOrMoreLoop_agree (ch .zeroOrMore) _ k s v) ?_
    rintro ⟨x, w⟩ y hx
    simp only at hx
    subst hx
    exact SFollows.pure (.build _ _ _)
  | delimit p d =>
    refine SFollows.left (slift_ne (ofOption_ne _ _)) fun v => ?_
    refine SFollows.bind (ch .delimit s) fun r r' hr => ?_
    rw [hr.hasValue]
    refine SFollows.ite (fun _ => SFollows.pure (.failure s)) fun _ => ?_
    refine SFollows.bind (delimitLoop_agree (ch .delimit) (ch .delimiter) _ _ _ k hr s v) ?_
    rintro ⟨x, w⟩ y hx
    simp only at hx
    subst hx
    exact SFollows.pure (.build _ _ _)
  | ignore p =>
    show SFollows SameButValue ((rec p).look s) ((lrec p).look s)
    rw [hl]
    refine SFollows.lift ((Follows.refl (hq p s)).mono ?_)
    rintro r _ ⟨rfl, hr⟩
    exact .self hr
  | complete p =>
    refine SFollows.bind (ch .complete s) fun r r' hr => ?_
    rw [hr.hasValue, hr.2]
    exact SFollows.ite (fun _ => SFollows.pure (.failure s)) fun _ => SFollows.pure hr
  | join p => exact absurd rfl (hj p)
  | filter p f => exact absurd rfl (hf p f)
  | map p f =>
    have hb : SFollows SameButValue (parseMap C U (resultFor C p) (resultFor C (.map p f)) f (rec p) s)
        (M.bind ((lrec p).look s) M.pure) := by
      refine SFollows.bind ((ch .map).good (hg p) s) ?_
      rintro r r' ⟨hr, hgr⟩
      by_cases hv : r.hasValue = true
      · simp only [hv, Bool.not_true, Bool.false_eq_true, if_false]
        refine SFollows.left (slift_ne (argVals_ne _ _)) fun _ => SFollows.left (sinvoke_ne _ _ _ _) fun w => ?_
        have hr' : SameButValue (R.success w r.rem) r' := by
          refine ⟨?_, hr.2⟩
          rw [hr.1]
          obtain ⟨x, hx⟩ := Option.isSome_iff_exists.1 hv
          simp [hx, R.success]
        split
        · exact SFollows.pure ⟨hr'.1, hr'.2⟩
        · exact SFollows.pure hr'
      · rw [if_pos (by simp [hv])]
        refine SFollows.pure ⟨?_, ?_⟩
        · have : r.val = none := by simpa [R.hasValue] using hv
          rw [hr.1, this]; rfl
        · rw [hr.2, hgr.of_not_hasValue hv]; rfl
    rwa [M.bind_pure] at hb
  | named p n => exact ch .named s
  | custom j =>
    have hb : SFollows SameButValue (parseCustom C (resultFor C (C.custom j).body) (C.custom j).ty
        (rec (C.custom j).body) s) (M.bind ((lrec (C.custom j).body).look s) M.pure) := by
      refine SFollows.bind (ch .custom s) fun r r' hr => SFollows.lift ?_
      unfold convertResult
      split
      · exact Follows.pure hr
      · next hne =>
        split
        · exact Follows.fail
        · split
          · next hvoid _ g hg =>
            exact absurd ⟨hne, by rw [hg]; rfl⟩ (hpre j rfl)
          · split
            · exact Follows.pure hr
            · next v hv =>
              refine Follows.left (convert_ne _ _ _ _) fun _ _ _ => Follows.pure ⟨?_, hr.2⟩
              rw [hr.1, hv]; rfl
    rwa [M.bind_pure] at hb

theorem sem_agree (n : Nat) (p : Parser α) (hp : Plain C p) : Agree (sem C U n p) (Tok3n.sem C n p) := by
  induction n generalizing p with
  | zero => exact fun s => SFollows.diverge
  | succ n ih =>
    exact step_agree n (fun q => sem_good U n q) (fun q => sem_look C U n q) (fun q => sem_quiet n q) p
      (fun hc => ih _ (hp.child hc)) (hp p .refl).1 (hp p .refl).2.1 (hp p .refl).2.2

/-- without filter and join, `lookahead` follows `parse` -/
theorem Look_follows {p : Parser α} (hp : Plain C p) (s : Span) :
    SFollows SameButValue (Parse C U p s) (Tok3n.Look C p s) :=
  SFollows.lim ((sem_lim p).parse s) ((Tok3n.sem_lim p).look s) (sem_mono_parse p s) fun n =>
    sem_agree n p hp s

end Tok3n.Stateful
