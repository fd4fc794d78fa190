import Verif.Proof.StatefulPrefix
import Verif.Proof.Typing
/-
The counterpart of `Proof/Typing.lean` for stateful callbacks.
-/

namespace Tok3n.Stateful

variable {σ α β L A B : Type}

section
set_option smartUnfolding false
variable (C : Ctx α β) (U : Callbacks σ) (st : σ) (q : Parser α)
theorem resultFor_freeze : resultFor (freeze C U st) q = resultFor C q := by with_unfolding_all rfl
theorem parseOK_freeze : parseOK (freeze C U st) q = parseOK C q := by with_unfolding_all rfl
theorem tyOK_freeze : tyOK (freeze C U st) q = tyOK C q := by with_unfolding_all rfl
theorem step_freeze (rec : Parser α → Sub σ) (n : Nat) :
    step (freeze C U st) U rec n q = step C U rec n q := by
  cases q <;> with_unfolding_all rfl
theorem fnTy_freeze (f : Fn) (ts : List Ty) : fnTy (freeze C U st) f ts = fnTy C f ts := by
  with_unfolding_all rfl
theorem freeze_freeze (st' : σ) : freeze (freeze C U st) U st' = freeze C U st' := rfl
end

theorem sem_freeze (C : Ctx α β) (U : Callbacks σ) (st : σ) (n : Nat) :
    (sem (freeze C U st) U n : Parser α → Sub σ) = sem C U n := by
  induction n with
  | zero => rfl
  | succ n ih => funext p; simp only [sem, ih]; exact step_freeze C U st p _ n

theorem pure_bind (a : A) (f : A → SRun σ B) : (SRun.pure a >>= f) = f a := by
  funext st
  show M.bind (M.pure (a, st)) (fun x => f x.1 x.2) = f a st
  rw [M.pure_bind]

/-- the step of `invoke` in one state is that of the frozen context -/
theorem invoke_freeze (C : Ctx α β) (U : Callbacks σ) (st : σ) : ∀ (f : Fn) (args : List Val),
    ∃ st', invoke C U f args st = M.bind (Tok3n.invoke (freeze C U st) f args) fun v => M.pure (v, st')
  | .user k, args => ⟨(U.fnCall k args st).2, by
      simp only [invoke, Tok3n.invoke, answer, freeze]
      obtain ⟨r, st'⟩ := U.fnCall k args st
      cases r <;> rfl⟩
  | .apply _, [] => ⟨st, rfl⟩
  | .apply f, [v] => by
    simp only [invoke, Tok3n.invoke]
    cases componentsOf v with
    | some vs => exact invoke_freeze C U st f vs
    | none => exact ⟨st, rfl⟩
  | .apply _, _ :: _ :: _ => ⟨st, rfl⟩
  | .const k, args => ⟨st, rfl⟩
  | .construct t, args => ⟨(U.ctor t args st).2, by
      simp only [invoke, Tok3n.invoke, answer, freeze]
      obtain ⟨r, st'⟩ := U.ctor t args st
      cases r <;> rfl⟩
  | .deflt t, args => ⟨st, by
      have : defaultVal (freeze C U st) t = defaultVal C t := by
        set_option smartUnfolding false in with_unfolding_all rfl
      simp only [invoke, Tok3n.invoke, this]
      cases defaultVal C t <;> rfl⟩

theorem invoke_sat {C : Ctx α β} {U : Callbacks σ} {f : Fn} {args : List Val} {Q : Val → Prop}
    {E : Err → Prop} (h : ∀ st, Tok3n.Sat (Tok3n.invoke (freeze C U st) f args) Q E) :
    Sat (invoke C U f args) Q E := by
  intro st
  obtain ⟨st', h'⟩ := invoke_freeze C U st f args
  rw [h']
  exact Tok3n.Sat.bind (h st) fun a ha => ha

theorem child_freeze {C : Ctx α β} {U : Callbacks σ} (st : σ) {p q : Parser α}
    (h : ParseChild C p q) : ParseChild (freeze C U st) p q := by
  cases h with
  | choice h => exact .choice h
  | sequence h => exact .sequence h
  | maybe => exact .maybe
  | exactly => exact .exactly
  | oneOrMore => exact .oneOrMore
  | zeroOrMore => exact .zeroOrMore
  | delimit => exact .delimit
  | delimiter => exact .delimiter
  | complete => exact .complete
  | join => exact .join
  | map => exact .map
  | filter => exact .filter
  | named => exact .named
  | custom => exact .custom (C := Stateful.freeze C U st)

/-- no function mapped over a result invents spans, in whatever state it is called -/
def SLocal (C : Ctx α β) (U : Callbacks σ) (p : Parser α) : Prop := ∀ st, SpanLocal (freeze C U st) p
/-- no function mapped over something that is joined invents spans -/
def SSafe (C : Ctx α β) (U : Callbacks σ) (p : Parser α) : Prop := ∀ st, JoinSafe (freeze C U st) p

theorem SLocal.ctx {C : Ctx α β} {U : Callbacks σ} {p : Parser α} (h : SLocal C U p) (st : σ) :
    C.Local := ⟨(h st).ctx.conv, (h st).ctx.convOpt, (h st).ctx.dflt, (h st).ctx.toSpan⟩

theorem SLocal.child {C : Ctx α β} {U : Callbacks σ} {p q : Parser α} (h : SLocal C U p)
    (hc : ParseChild C p q) : SLocal C U q := fun st => (h st).child (child_freeze st hc)
theorem SSafe.child {C : Ctx α β} {U : Callbacks σ} {p q : Parser α} (h : SSafe C U p)
    (hc : ParseChild C p q) : SSafe C U q := fun st => (h st).child (child_freeze st hc)

/-- a lookahead commits no memory error on a valid input -/
def LookOK (C : Ctx α β) (P : Sub σ) : Prop := ∀ s, Sat (P.look s) (GoodU s) (OnlyBadInput C s)

/-- the statement of the induction for one parser -/
def ParseOK (C : Ctx α β) (loc safe : Prop) (t : Ty) (P : Sub σ) : Prop :=
  ∀ s, Sat (P.parse s) (GoodV loc t s) (OkErr C safe s)

theorem ParseOK.mono {C : Ctx α β} {loc loc' safe safe' : Prop} {t : Ty} {P : Sub σ}
    (h : ParseOK C loc safe t P) (hl : loc' → loc) (hs : safe' → safe) : ParseOK C loc' safe' t P :=
  fun s => (h s).mono (fun _ hr => ⟨hr.toGood, fun v hv => (hr.val v hv).mono fun _ h hl' => h (hl hl')⟩)
    fun _ he => ⟨he.1, fun hu hv => he.2 hu ⟨hv.1, hs hv.2⟩⟩

theorem ParseOK.from {C : Ctx α β} {loc safe : Prop} {t : Ty} {P : Sub σ} (h : ParseOK C loc safe t P)
    {s o : Span} (hs : s.SuffixOf o) : Sat (P.parse s) (GoodV loc t s) (OkErr C safe o) :=
  (h s).mono (fun _ h => h) fun _ => .trans hs

section
variable {C : Ctx α β} {U : Callbacks σ} {loc safe : Prop} {o : Span}

theorem goodSpan_ok {m : Run R} {s : Span} (h : Quiet m (GoodSpan s) (OnlyBadInput C s)) :
    Sat (SRun.lift m : SRun σ R) (GoodV loc .span s) (OkErr C safe s) := .lift h.goodSpan_ok

/-- what `elementOK` and the induction hypothesis say of one element -/
def ElemOK (C : Ctx α β) (loc safe : Prop) (isChoice : Bool) (tr : Trait) (e : Elem σ) : Prop :=
  (e.idx = none → LookOK C e.sub) ∧
  ∀ i, e.idx = some i → ParseOK C loc safe e.ty e.sub ∧ elementOK C isChoice tr e.ty (some i) = true

theorem execute_ok (hT : C.Typed) (hloc : loc → C.Local) {isChoice : Bool} {tr : Trait} {e : Elem σ}
    (he : ElemOK C loc safe isChoice tr e) (st : Exec) (hs : st.input.SuffixOf o)
    (hv : Vok (Reg loc o st.input) tr.ty st.value) :
    Sat (execute C tr.ty tr.unwrapped isChoice e st)
      (fun x => x.2.input.SuffixOf o ∧ Vok (Reg loc o x.2.input) tr.ty x.2.value) (OkErr C safe o) := by
  obtain ⟨P, t, i⟩ := e
  cases i with
  | none =>
    refine Sat.bind ((he.1 rfl st.input).mono (fun _ h => h) fun _ h => .of_ub (h.trans hs)) fun r hr => ?_
    exact Sat.pure ⟨hr.suffix.trans hs, hv.mono fun x hx => hx.mono (.refl _) hr.suffix⟩
  | some i =>
    obtain ⟨hP, hel⟩ := he.2 i rfl
    refine Sat.bind (hP.from hs) fun r hr => ?_
    refine Sat.ite (fun _ => Sat.pure ⟨hs, hv⟩) fun hn => ?_
    obtain ⟨w, hw⟩ : ∃ w, r.val = some w := Option.isSome_iff_exists.1 (by simpa [R.hasValue, Option.isSome_iff_ne_none] using hn)
    have hwv : Vok (Reg loc o r.rem) t w := (hr.val w hw).mono fun x hx => hx.mono hs (.refl _)
    have hv' : Vok (Reg loc o r.rem) tr.ty st.value := hv.mono fun x hx => hx.mono (.refl _) hr.suffix
    suffices h : ∃ v', (if tr.unwrapped then builderAssign tr.ty st.value r
         else if isChoice then builderEmplaceAt C tr.ty i t st.value r
         else builderGetAssign tr.ty st.value i r) = M.pure v' ∧ Vok (Reg loc o r.rem) tr.ty v' by
      obtain ⟨v', h1, h2⟩ := h
      simp only [liftM_eq, ← lift_ite]
      rw [h1, lift_pure, pure_bind]
      exact Sat.pure ⟨hr.suffix.trans hs, h2⟩
    simp only [elementOK] at hel
    by_cases hu : tr.unwrapped = true
    · rw [if_pos hu] at hel ⊢
      have : t = tr.ty := by simpa using hel
      subst this
      exact builderAssign_ok hw hv' hwv
    · rw [if_neg hu] at hel ⊢
      cases hty : tr.ty with
      | var ts =>
        simp only [hty, Bool.and_eq_true] at hel
        rw [if_pos hel.1]
        cases hg : ts[i]? with
        | none => simp [hg] at hel
        | some u =>
          simp only [hg] at hel
          obtain ⟨w', h1, h2⟩ := convert_ok hT hloc hel.2 hwv
          refine ⟨.var i w', ?_, ⟨i, w', rfl, .of_get hg h2.ty⟩, h2.spans⟩
          simp only [builderEmplaceAt, hg, M.bind_eq, R.deref_eq hw, M.pure_bind, h1]
      | tup ts =>
        simp only [hty, Bool.and_eq_true] at hel
        have hc : ¬ isChoice = true := by simpa using hel.1
        rw [if_neg hc]
        cases hg : ts[i]? with
        | none => simp [hg] at hel
        | some u =>
          simp only [hg] at hel
          have : t = u := by simpa using hel.2
          subst this
          rw [hty] at hv'
          exact builderGetAssign_ok hw hg hv' hwv
      | _ => simp [hty] at hel

theorem foldOr_ok (hT : C.Typed) (hloc : loc → C.Local) {isChoice : Bool} {tr : Trait} {es : List (Elem σ)}
    (he : ∀ e ∈ es, ElemOK C loc safe isChoice tr e) (st : Exec) (hs : st.input.SuffixOf o)
    (hv : Vok (Reg loc o st.input) tr.ty st.value) :
    Sat (foldOr (execute C tr.ty tr.unwrapped isChoice) es st)
      (fun x => x.2.input.SuffixOf o ∧ Vok (Reg loc o x.2.input) tr.ty x.2.value) (OkErr C safe o) := by
  induction es generalizing st with
  | nil => exact Sat.pure ⟨hs, hv⟩
  | cons e es ih =>
    refine Sat.bind (execute_ok hT hloc (he e (by simp)) st hs hv) fun ⟨ok, st'⟩ hx => ?_
    exact Sat.ite (fun _ => Sat.pure hx) fun _ => ih (fun e h => he e (by simp [h])) st' hx.1 hx.2

theorem foldAnd_ok (hT : C.Typed) (hloc : loc → C.Local) {isChoice : Bool} {tr : Trait} {es : List (Elem σ)}
    (he : ∀ e ∈ es, ElemOK C loc safe isChoice tr e) (st : Exec) (hs : st.input.SuffixOf o)
    (hv : Vok (Reg loc o st.input) tr.ty st.value) :
    Sat (foldAnd (execute C tr.ty tr.unwrapped isChoice) es st)
      (fun x => x.2.input.SuffixOf o ∧ Vok (Reg loc o x.2.input) tr.ty x.2.value) (OkErr C safe o) := by
  induction es generalizing st with
  | nil => exact Sat.pure ⟨hs, hv⟩
  | cons e es ih =>
    refine Sat.bind (execute_ok hT hloc (he e (by simp)) st hs hv) fun ⟨ok, st'⟩ hx => ?_
    exact Sat.ite (fun _ => ih (fun e h => he e (by simp [h])) st' hx.1 hx.2) fun _ => Sat.pure hx

theorem mkElems_ok {rec : Parser α → Sub σ} (hq : ∀ q, LookOK C (rec q)) {isChoice : Bool} {tr : Trait}
    (ps : List (Parser α)) (is : List (Option Nat)) (hty : tysOK C ps = true)
    (hel : elementsOK C isChoice tr (resultsFor C ps) is = true) (hpa : parsesOK C ps is = true)
    (hrec : ∀ p ∈ ps, tyOK C p = true → parseOK C p = true → ParseOK C loc safe (resultFor C p) (rec p)) :
    ∀ e ∈ mkElems rec C ps is, ElemOK C loc safe isChoice tr e := by
  induction ps generalizing is with
  | nil => intro e he; cases is <;> simp [mkElems] at he
  | cons p ps ih =>
    cases is with
    | nil => intro e he; simp [mkElems] at he
    | cons i is =>
      simp only [tysOK, Bool.and_eq_true] at hty
      simp only [resultsFor, elementsOK, Bool.and_eq_true] at hel
      have hpa' : parsesOK C ps is = true := by
        cases i with
        | none => simpa [parsesOK] using hpa
        | some i => simp [parsesOK] at hpa; exact hpa.2
      intro e he
      rcases List.mem_cons.1 he with rfl | he
      · refine ⟨fun _ => hq p, fun j hj => ?_⟩
        have hj : i = some j := hj
        subst hj
        simp [parsesOK] at hpa
        exact ⟨hrec p (by simp) hty.1 hpa.1, hel.1⟩
      · exact ih is hty.2 hel.2 hpa' (fun p hp => hrec p (by simp [hp])) e he

/-! #### loops -/

variable {P D : Sub σ} {t u : Ty}

theorem exactlyLoop_ok (hP : ParseOK C loc safe t P) {n : Nat} (todo i : Nat) (hi : i + todo = n) (s : Span)
    (v : Val) (hs : s.SuffixOf o) (hv : Vok (Reg loc o s) (voidOr (.arr · n) t) v) :
    Sat (exactlyLoop (voidOr (.arr · n) t) P o todo i s v) (GoodV loc (voidOr (.arr · n) t) o)
      (OkErr C safe o) := by
  induction todo generalizing i s v with
  | zero => exact Sat.pure (.build hs hv)
  | succ k ih =>
    refine Sat.bind (hP.from hs) fun r hr => Sat.ite (fun _ => Sat.pure (.failure _ _)) fun hn => ?_
    obtain ⟨w, hw⟩ : ∃ w, r.val = some w := Option.isSome_iff_exists.1 (by simpa [R.hasValue, Option.isSome_iff_ne_none] using hn)
    have hwv : Vok (Reg loc o r.rem) t w := (hr.val w hw).mono fun x hx => hx.mono hs (.refl _)
    have hv' := hv.mono fun x hx => Reg.mono hx (.refl _) hr.suffix
    obtain ⟨v', h1, h2⟩ := builderArrayAssign_ok (n := n) (i := i) hw (by omega) hv' hwv
    simp only [liftM_eq]
    rw [h1, lift_pure, pure_bind]
    exact ih _ (by omega) _ _ (hr.suffix.trans hs) h2

theorem oneOrMoreLoop_ok (hP : ParseOK C loc safe t P) (fuel : Nat) (b : Bool) (s : Span) (v : Val)
    (hs : s.SuffixOf o) (hb : b = false → s = o) (hv : Vok (Reg loc o s) (voidOr .vec t) v) :
    Sat (oneOrMoreLoop (voidOr .vec t) P fuel b s v)
      (fun x => x.2.1.SuffixOf o ∧ (x.1 = false → x.2.1 = o) ∧ Vok (Reg loc o x.2.1) (voidOr .vec t) x.2.2)
      (OkErr C safe o) := by
  induction fuel generalizing b s v with
  | zero => exact Sat.diverge
  | succ k ih =>
    refine Sat.bind (hP.from hs) fun r hr => ?_
    have hv' := hv.mono fun x hx => Reg.mono hx (.refl _) hr.suffix
    refine Sat.ite (fun hn => Sat.pure ⟨hr.suffix.trans hs, fun hb' => ?_, hv'⟩) fun hn => ?_
    · have hb2 : b = false := by simp at hb'; exact hb'.1
      rw [← hb hb2]
      exact hr.toGood.of_not_hasValue (by simpa using hn)
    · obtain ⟨w, hw⟩ : ∃ w, r.val = some w := Option.isSome_iff_exists.1 (by simpa [R.hasValue, Option.isSome_iff_ne_none] using hn)
      have hwv : Vok (Reg loc o r.rem) t w := (hr.val w hw).mono fun x hx => hx.mono hs (.refl _)
      obtain ⟨v', h1, h2⟩ := builderInsertBack_ok hw hv' hwv
      simp only [liftM_eq]
      rw [h1, lift_pure, pure_bind]
      exact ih _ _ _ (hr.suffix.trans hs) (fun hf => by simp at hn; simp [hn] at hf) h2

theorem zeroOrMoreLoop_ok (hP : ParseOK C loc safe t P) (fuel : Nat) (s : Span) (v : Val)
    (hs : s.SuffixOf o) (hv : Vok (Reg loc o s) (voidOr .vec t) v) :
    Sat (zeroOrMoreLoop (voidOr .vec t) P fuel s v)
      (fun x => x.1.SuffixOf o ∧ Vok (Reg loc o x.1) (voidOr .vec t) x.2) (OkErr C safe o) := by
  induction fuel generalizing s v with
  | zero => exact Sat.diverge
  | succ k ih =>
    refine Sat.bind (hP.from hs) fun r hr => ?_
    have hv' := hv.mono fun x hx => Reg.mono hx (.refl _) hr.suffix
    refine Sat.ite (fun hn => Sat.pure ⟨hr.suffix.trans hs, hv'⟩) fun hn => ?_
    obtain ⟨w, hw⟩ : ∃ w, r.val = some w := Option.isSome_iff_exists.1 (by simpa [R.hasValue, Option.isSome_iff_ne_none] using hn)
    have hwv : Vok (Reg loc o r.rem) t w := (hr.val w hw).mono fun x hx => hx.mono hs (.refl _)
    obtain ⟨v', h1, h2⟩ := builderInsertBack_ok hw hv' hwv
    simp only [liftM_eq]
    rw [h1, lift_pure, pure_bind]
    exact ih _ _ (hr.suffix.trans hs) h2

theorem delimitLoop_ok (hP : ParseOK C loc safe t P) (hD : ParseOK C loc safe u D) (fuel : Nat) (r : R)
    (s : Span) (v : Val) {s0 : Span} (hs0 : s0.SuffixOf o) (hs : s.SuffixOf o) (hrs : r.rem.SuffixOf s)
    (hr : GoodV loc t s0 r) (hv : Vok (Reg loc o r.rem) (delimitTy t u) v)
    (hvs : r.val = none → Vok (Reg loc o s) (delimitTy t u) v) :
    Sat (delimitLoop (delimitTy t u) t u P D fuel r s v)
      (fun x => x.1.SuffixOf o ∧ Vok (Reg loc o x.1) (delimitTy t u) x.2) (OkErr C safe o) := by
  induction fuel generalizing r s v s0 with
  | zero => exact Sat.diverge
  | succ k ih =>
    refine Sat.ite (fun hn => Sat.pure ⟨hs, hvs (by simpa [R.hasValue] using hn)⟩) fun hn => ?_
    obtain ⟨w, hw⟩ : ∃ w, r.val = some w := Option.isSome_iff_exists.1 (by simpa [R.hasValue, Option.isSome_iff_ne_none] using hn)
    have hwv : Vok (Reg loc o r.rem) t w := (hr.val w hw).mono fun x hx => hx.mono hs0 (.refl _)
    have hro := hr.suffix.trans hs0
    obtain ⟨v1, h1, hv1⟩ := delimitRecordP_ok (u := u) hw hv hwv
    simp only [liftM_eq]
    rw [h1, lift_pure, pure_bind]
    refine Sat.bind (hD.from hro) fun dr hdr => ?_
    refine Sat.ite (fun _ => Sat.pure ⟨hro, hv1⟩) fun hdn => ?_
    obtain ⟨dw, hdw⟩ : ∃ w, dr.val = some w := Option.isSome_iff_exists.1 (by simpa [R.hasValue, Option.isSome_iff_ne_none] using hdn)
    have hdo := hdr.suffix.trans hro
    refine Sat.bind (hP.from hdo) fun r' hr' => ?_
    have hdwv : Vok (Reg loc o r'.rem) u dw := (hdr.val dw hdw).mono fun x hx => hx.mono hro hr'.suffix
    have hv1' : Vok (Reg loc o r'.rem) (delimitTy t u) v1 :=
      hv1.mono fun x hx => Reg.mono hx (.refl _) (hr'.suffix.trans hdr.suffix)
    by_cases hr'v : r'.val = none
    · have : delimitRecordD (delimitTy t u) t u v1 r' dr = M.pure v1 := by
        simp [delimitRecordD, R.hasValue, hr'v]
      rw [this, lift_pure, pure_bind]
      exact ih r' r.rem v1 hdo hro (hr'.suffix.trans hdr.suffix) hr' hv1' fun _ => hv1
    · obtain ⟨v2, h2, hv2⟩ := delimitRecordD_ok (t := t) (r := r') hdw hv1' hdwv
      rw [h2, lift_pure, pure_bind]
      exact ih r' r.rem v2 hdo hro (hr'.suffix.trans hdr.suffix) hr' hv2 fun h => absurd h hr'v

theorem joinGeneric_ok {locQ : Prop} (hlocQ : locQ → C.Local) (hsafe : safe → locQ) (hloc : loc → locQ)
    {t : Ty} (hj : joinable C t = true) {P : Sub σ} (hP : ParseOK C locQ safe t P) :
    ParseOK C loc safe .span (joinGeneric C P) := by
  intro s
  refine Sat.bind (hP s) fun r hr => ?_
  refine Sat.ite (fun hn => ?_) fun _ => Sat.pure (.failure _ _)
  obtain ⟨w, hw⟩ : ∃ w, r.val = some w := Option.isSome_iff_exists.1 (by simpa [R.hasValue, Option.isSome_iff_ne_none] using hn)
  refine Sat.bind (.lift (joinExecutor_ok hlocQ hsafe hloc hj hr hw)) fun j hjv => ?_
  cases j with
  | none => exact Sat.pure (.failure _ _)
  | some j =>
    refine Sat.pure ⟨.success _ hr.suffix, ?_⟩
    rintro v ⟨⟩
    refine ⟨⟨_, rfl⟩, fun x hx => ?_⟩
    simp only [Val.spans, List.mem_singleton] at hx; subst hx
    exact hjv _ rfl

end

section
variable {C : Ctx α β} {U : Callbacks σ} {rec : Parser α → Sub σ}

theorem semJoin_ok (st0 : σ) (k : Nat) (p : Parser α) (hj : joinable C (resultFor C p) = true)
    (hP : ParseOK C (SLocal C U p) (SSafe C U p) (resultFor C p) (rec p)) :
    ParseOK C (SLocal C U (.join p)) (SSafe C U (.join p)) .span (semJoin C rec k p) := by
  have gen : ParseOK C (SLocal C U (.join p)) (SSafe C U (.join p)) .span (joinGeneric C (rec p)) :=
    joinGeneric_ok (locQ := SLocal C U p) (fun h => h.ctx st0) (fun h st => h st p .refl) (fun h => h.child .join) hj
      (hP.mono (fun h => h) fun h => h.child .join)
  cases p with
  | exactly q n =>
    simp only [semJoin]
    cases asBasic C q with
    | none => exact gen
    | some b => exact fun s => goodSpan_ok (joinExactlyLoop_quiet b n s 0 (.refl s))
  | maybe q =>
    simp only [semJoin]
    cases asBasic C q with
    | none => exact gen
    | some b =>
      refine fun s => goodSpan_ok ?_
      refine Quiet.bind (failureCondition_quiet C b s) fun c hc => ?_
      refine Quiet.ite (fun _ => Quiet.pure (.success (.refl s))) fun hn => ?_
      exact Quiet.bind (advance_quiet C fun hs => hc hs (by simpa using hn)) fun s' h =>
        Quiet.pure (.success h)
  | oneOrMore q =>
    simp only [semJoin]
    cases asBasic C q with
    | none => exact gen
    | some b =>
      refine fun s => goodSpan_ok ?_
      refine Quiet.bind (failureCondition_quiet C b s) fun c hc => ?_
      refine Quiet.ite (fun _ => Quiet.pure (.failure s)) fun hn => ?_
      refine Quiet.bind (subspan_quiet C fun hs => hc hs (by simpa using hn)) fun s' h => ?_
      refine Quiet.bind (joinRepeatLoop_quiet b k s' _ h) fun ⟨i, r⟩ hx => ?_
      obtain ⟨k, rfl, hk⟩ := hx
      exact Quiet.pure (.success hk)
  | zeroOrMore q =>
    simp only [semJoin]
    cases asBasic C q with
    | none => exact gen
    | some b =>
      refine fun s => goodSpan_ok ?_
      refine Quiet.bind (joinRepeatLoop_quiet b k s 0 (.refl s)) fun ⟨i, r⟩ hx => ?_
      obtain ⟨k, rfl, hk⟩ := hx
      exact Quiet.pure (.success hk)
  | _ => exact gen

/-- the induction statement -/
def TypedSub (C : Ctx α β) (U : Callbacks σ) (p : Parser α) (P : Sub σ) : Prop :=
  tyOK C p = true → parseOK C p = true → ParseOK C (SLocal C U p) (SSafe C U p) (resultFor C p) P

theorem step_typed (st0 : σ) (hT : C.Typed) (hU : ∀ st, (freeze C U st).Typed)
    (hty : ∀ k, tyOK C (C.custom k).body = true) (hpa : ∀ k, parseOK C (C.custom k).body = true)
    (k : Nat) (hl : ∀ q, LookOK C (rec q)) (h : ∀ q, TypedSub C U q (rec q)) (p : Parser α) :
    TypedSub C U p (step C U rec k p) := by
  intro ht hp
  have ch : ∀ {q}, ParseChild C p q → tyOK C q = true → parseOK C q = true →
      ParseOK C (SLocal C U p) (SSafe C U p) (resultFor C q) (rec q) := fun hc h1 h2 =>
    (h _ h1 h2).mono (fun h => h.child hc) fun h => h.child hc
  have hctx : SLocal C U p → C.Local := fun h => h.ctx st0
  cases p with
  | anyOf _ | noneOf _ | allOf _ | anything => exact fun s => goodSpan_ok (parseBasic_quiet _ s)
  | epsilon =>
    exact fun s => Sat.pure ⟨.successVoid (.refl s), by rintro v ⟨⟩; exact Vok.unit⟩
  | choice ps =>
    simp only [parseOK, Bool.and_eq_true] at hp
    obtain ⟨⟨⟨h1, h2⟩, h3⟩, h4⟩ := hp
    have hes := mkElems_ok (C := C) (rec := rec) hl ps _ h1 h3 h4
      fun p hp => ch (.choice hp)
    intro s
    obtain ⟨v, hv, hvok⟩ := builderInit_ok hT hctx h2 s s
    simp only [step]
    simp only [parseChoice, liftM_eq]
    rw [hv, lift_pure, pure_bind]
    refine Sat.bind (foldOr_ok hT hctx hes ⟨s, v⟩ (.refl s) hvok) fun x hx => ?_
    exact Sat.ite (fun _ => Sat.pure (.failure _ _)) fun _ => Sat.pure (.build hx.1 hx.2)
  | sequence ps =>
    simp only [parseOK, Bool.and_eq_true] at hp
    obtain ⟨⟨⟨h1, h2⟩, h3⟩, h4⟩ := hp
    have hes := mkElems_ok (C := C) (rec := rec) hl ps _ h1 h3 h4
      fun p hp => ch (.sequence hp)
    intro s
    obtain ⟨v, hv, hvok⟩ := builderInit_ok hT hctx h2 s s
    simp only [step]
    simp only [parseSequence, liftM_eq]
    rw [hv, lift_pure, pure_bind]
    refine Sat.bind (foldAnd_ok hT hctx hes ⟨s, v⟩ (.refl s) hvok) fun x hx => ?_
    exact Sat.ite (fun _ => Sat.pure (.failure _ _)) fun _ => Sat.pure (.build hx.1 hx.2)
  | maybe q =>
    simp only [parseOK, Bool.and_eq_true] at hp
    have hq := ch .maybe hp.1 hp.2
    intro s
    have hd : (defaultVal C (voidOr .opt (resultFor C q))).isSome = true := by
      unfold voidOr; split <;> rfl
    obtain ⟨v, hv, hvok⟩ := builderInit_ok hT hctx hd s s
    show Sat (parseMaybe C (voidOr .opt (resultFor C q)) (rec q) s) (GoodV _ (voidOr .opt (resultFor C q)) s) _
    simp only [parseMaybe, liftM_eq]
    rw [hv, lift_pure, pure_bind]
    refine Sat.bind (hq s) fun r hr => ?_
    have hv' := hvok.mono fun x hx => Reg.mono hx (.refl _) hr.suffix
    by_cases hn : r.hasValue = true
    · rw [if_pos hn]
      obtain ⟨w, hw⟩ : ∃ w, r.val = some w := Option.isSome_iff_exists.1 hn
      obtain ⟨v', e1, e2⟩ := builderEmplace_ok hw hv' (hr.val w hw)
      rw [e1, lift_pure, pure_bind]; exact Sat.pure (.build hr.suffix e2)
    · rw [if_neg hn, pure_bind]; exact Sat.pure (.build hr.suffix hv')
  | exactly q n =>
    simp only [parseOK, Bool.and_eq_true] at hp
    have hq := ch .exactly hp.1.1 hp.1.2
    intro s
    obtain ⟨v, hv, hvok⟩ := builderInit_ok hT hctx hp.2 s s
    show Sat (parseExactly C (voidOr (.arr · n) (resultFor C q)) n (rec q) s)
      (GoodV _ (voidOr (.arr · n) (resultFor C q)) s) _
    simp only [parseExactly, liftM_eq]
    rw [hv, lift_pure, pure_bind]
    exact exactlyLoop_ok hq n 0 (by omega) s v (.refl s) hvok
  | oneOrMore q =>
    simp only [parseOK, Bool.and_eq_true] at hp
    have hq := ch .oneOrMore hp.1 hp.2
    intro s
    have hd : (defaultVal C (voidOr .vec (resultFor C q))).isSome = true := by
      unfold voidOr; split <;> rfl
    obtain ⟨v, hv, hvok⟩ := builderInit_ok hT hctx hd s s
    show Sat (parseOneOrMore C (voidOr .vec (resultFor C q)) (rec q) k s)
      (GoodV _ (voidOr .vec (resultFor C q)) s) _
    simp only [parseOneOrMore, liftM_eq]
    rw [hv, lift_pure, pure_bind]
    refine Sat.bind (oneOrMoreLoop_ok hq k false s v (.refl s) (fun _ => rfl) hvok) fun ⟨b, s', v'⟩ hx => ?_
    refine Sat.ite (fun _ => Sat.pure (.build hx.1 hx.2.2)) fun hb => ?_
    have : s' = s := hx.2.1 (by simpa using hb)
    subst this; exact Sat.pure (.failure _ _)
  | zeroOrMore q =>
    simp only [parseOK, Bool.and_eq_true] at hp
    have hq := ch .zeroOrMore hp.1 hp.2
    intro s
    have hd : (defaultVal C (voidOr .vec (resultFor C q))).isSome = true := by
      unfold voidOr; split <;> rfl
    obtain ⟨v, hv, hvok⟩ := builderInit_ok hT hctx hd s s
    show Sat (parseZeroOrMore C (voidOr .vec (resultFor C q)) (rec q) k s)
      (GoodV _ (voidOr .vec (resultFor C q)) s) _
    simp only [parseZeroOrMore, liftM_eq]
    rw [hv, lift_pure, pure_bind]
    refine Sat.bind (zeroOrMoreLoop_ok hq k s v (.refl s) hvok) fun ⟨s', v'⟩ hx => ?_
    exact Sat.pure (.build hx.1 hx.2)
  | delimit q d =>
    simp only [parseOK, Bool.and_eq_true] at hp
    have hq := ch .delimit hp.1.1.1 hp.1.2
    have hd := ch .delimiter hp.1.1.2 hp.2
    intro s
    have hdf : (defaultVal C (delimitTy (resultFor C q) (resultFor C d))).isSome = true := by
      unfold delimitTy; split <;> split <;> rfl
    obtain ⟨v, hv, hvok⟩ := builderInit_ok hT hctx hdf s s
    show Sat (parseDelimit C (delimitTy (resultFor C q) (resultFor C d)) (resultFor C q) (resultFor C d)
      (rec q) (rec d) k s) (GoodV _ (delimitTy (resultFor C q) (resultFor C d)) s) _
    simp only [parseDelimit, liftM_eq]
    rw [hv, lift_pure, pure_bind]
    refine Sat.bind (hq s) fun r hr => Sat.ite (fun _ => Sat.pure (.failure _ _)) fun hn => ?_
    refine Sat.bind (delimitLoop_ok hq hd k r s v (.refl s) (.refl s) hr.suffix hr
      (hvok.mono fun x hx => Reg.mono hx (.refl _) hr.suffix) fun _ => hvok) fun ⟨s', v'⟩ hx => ?_
    exact Sat.pure (.build hx.1 hx.2)
  | ignore q =>
    intro s
    refine (hl q s).mono (fun r hr => ⟨hr.toGood, fun v hv => ?_⟩) fun _ => .of_ub
    rw [hr.unit v hv]; exact Vok.unit
  | complete q =>
    simp only [parseOK, Bool.and_eq_true] at hp
    intro s
    refine Sat.bind (ch .complete hp.1 hp.2 s) fun r hr => ?_
    exact Sat.ite (fun _ => Sat.pure (.failure _ _)) fun _ => Sat.pure hr
  | join q =>
    simp only [parseOK, Bool.and_eq_true] at hp
    exact semJoin_ok st0 k q hp.2 (h q hp.1.1 hp.1.2)
  | map q f =>
    simp only [parseOK, tyOK, Bool.and_eq_true] at hp
    intro s
    refine Sat.bind (ch .map hp.1.1 hp.2 s) fun r hr => Sat.ite (fun _ => Sat.pure (.failure _ _)) fun hn => ?_
    obtain ⟨w, hw⟩ : ∃ w, r.val = some w := Option.isSome_iff_exists.1 (by simpa [R.hasValue, Option.isSome_iff_ne_none] using hn)
    have hwv := hr.val w hw
    obtain ⟨args, ha, hat, haw⟩ := argVals_ok hw hwv.ty
    obtain ⟨t, hft⟩ := Option.isSome_iff_exists.1 hp.1.2
    have hmt : resultFor C (.map q f) = t := by simp [resultFor, mapTy, hft]
    simp only [liftM_eq]
    rw [ha, lift_pure, pure_bind, hmt]
    refine Sat.bind (Q := fun v => HasTy t v ∧ ∃ st log, Tok3n.invoke (freeze C U st) f args = .done log (.ok v))
      (invoke_sat fun st => ?_) fun v hv => ?_
    · have hinv := Tok3n.invoke_ok (hU st) f ((fnTy_freeze C U st f _).trans hft) hat
      refine Tok3n.Sat.intro (fun l a ha => ⟨hinv.ok ha, st, l, ha⟩) fun l e he => ?_
      exact exn_okErr (hinv.err he)
    · refine Sat.ite (fun htv => Sat.pure ⟨.successVoid hr.suffix, ?_⟩) fun _ =>
        Sat.pure ⟨.success _ hr.suffix, ?_⟩
      · rintro v ⟨⟩; subst htv; exact Vok.unit
      · rintro v ⟨⟩
        obtain ⟨htv, st, log, hlog⟩ := hv
        refine ⟨htv, fun x hx hl => ?_⟩
        rcases ((hl st).maps q f .refl) args log _ hlog x hx with rfl | ⟨a, ha, hxa⟩
        · exact .inl rfl
        · rw [haw a ha] at hxa; exact hwv.spans x hxa hl
  | filter q f =>
    simp only [parseOK, tyOK, Bool.and_eq_true] at hp
    intro s
    refine Sat.bind (ch .filter hp.1.1 hp.2 s) fun r hr => Sat.ite (fun _ => Sat.pure (.failure _ _)) fun hn => ?_
    obtain ⟨w, hw⟩ : ∃ w, r.val = some w := Option.isSome_iff_exists.1 (by simpa [R.hasValue, Option.isSome_iff_ne_none] using hn)
    have hwv := hr.val w hw
    obtain ⟨args, ha, hat, haw⟩ := argVals_ok hw hwv.ty
    simp only [liftM_eq]
    rw [ha, lift_pure, pure_bind]
    cases hft : fnTy C f (argTys (resultFor C q)) with
    | none => simp [hft] at hp
    | some t =>
      refine Sat.bind (invoke_sat fun st => (Tok3n.invoke_ok (hU st) f ((fnTy_freeze C U st f _).trans hft) hat).mono (fun _ h => h) fun e he => exn_okErr he) fun v hv => ?_
      exact Sat.ite (fun _ => Sat.pure hr) fun _ => Sat.pure (.failure _ _)
  | named q n =>
    simp only [parseOK, Bool.and_eq_true] at hp
    exact ch .named hp.1 hp.2
  | custom j =>
    intro s
    simp only [parseOK] at hp
    have hq := ch (q := (C.custom j).body) .custom (hty j) (hpa j)
    refine Sat.bind (hq s) fun r hr => ?_
    show Sat (convertResult C (resultFor C (C.custom j).body) (C.custom j).ty r) (GoodV _ (C.custom j).ty s) _
    unfold convertResult
    by_cases he : resultFor C (C.custom j).body = (C.custom j).ty
    · rw [if_pos he, ← he]; exact Sat.pure hr
    · simp only [he, decide_false, Bool.false_or, Bool.and_eq_true, bne_iff_ne] at hp
      rw [if_neg he, if_neg (by simp [hp.1.1, hp.1.2])]
      cases hg : fromOptional C (resultFor C (C.custom j).body) (C.custom j).ty with
      | some g =>
        exact Sat.pure ⟨⟨hr.suffix, nofun⟩, by rintro v ⟨⟩; exact fromOptional_ok hT hctx hg fun w hw => hr.val w hw⟩
      | none =>
        cases hv : r.val with
        | none => exact Sat.pure ⟨hr.toGood, by rw [hv]; nofun⟩
        | some w =>
          have hwv := hr.val w hv
          obtain ⟨w', h1, h2⟩ := convert_ok hT hctx (src := resultFor C (C.custom j).body)
            (dst := (C.custom j).ty) (by simpa [convOK, hg] using Or.inr (by simpa [hg] using hp.2)) hwv
          simp only [M.bind_eq]
          rw [h1, M.pure_bind, liftM_eq, lift_pure]
          exact Sat.pure ⟨⟨hr.suffix, nofun⟩, by rintro v ⟨⟩; exact h2⟩

theorem sem_lookOK (n : Nat) (p : Parser α) : LookOK C (sem C U n p) := by
  intro s
  rw [sem_look C U n p s]
  exact .lift (sem_quiet n p s).sat

theorem sem_typed (st0 : σ) (hT : C.Typed) (hU : ∀ st, (freeze C U st).Typed)
    (hty : ∀ k, tyOK C (C.custom k).body = true) (hpa : ∀ k, parseOK C (C.custom k).body = true) :
    ∀ (n : Nat) (p : Parser α), TypedSub C U p (sem C U n p)
  | 0, _ => fun _ _ _ => Sat.diverge
  | n + 1, p => step_typed st0 hT hU hty hpa n (sem_lookOK n) (sem_typed st0 hT hU hty hpa n) p

end

end Tok3n.Stateful
