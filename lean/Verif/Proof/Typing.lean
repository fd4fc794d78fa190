import Verif.Proof.Regions
/-
Inductions II-IV in one: a `parse` that compiles returns a value of the announced type,
stores only spans of the consumed region, and commits no memory error.
-/

namespace Tok3n

variable {α β L A B : Type}

/-- what may be assumed of spans in values, given `loc` -/
abbrev Reg (loc : Prop) (o s : Span) : Span → Prop := fun x => loc → InRegion o s x

theorem Reg.mono {loc : Prop} {o s o' s' x : Span} (h : Reg loc s s' x) (hs : s.SuffixOf o)
    (hs' : o'.SuffixOf s') : Reg loc o o' x := fun hl => (h hl).mono hs hs'

/-- a good result with a good value -/
structure GoodV (loc : Prop) (t : Ty) (s : Span) (r : R) : Prop extends Good s r where
  val : ∀ v, r.val = some v → Vok (Reg loc s r.rem) t v

/-- the admissible errors: never ill-formed; undefined only on bad input or unsafe joins -/
def OkErr (C : Ctx α β) (safe : Prop) (s : Span) (e : Err) : Prop :=
  e ≠ .ill ∧ (e = .ub → ¬ (s.Valid C.mem ∧ safe))

theorem OkErr.trans {C : Ctx α β} {safe : Prop} {s o : Span} (hs : s.SuffixOf o) {e : Err}
    (h : OkErr C safe s e) : OkErr C safe o e :=
  ⟨h.1, fun he hv => h.2 he ⟨hs.valid hv.1, hv.2⟩⟩

theorem OkErr.of_ub {C : Ctx α β} {safe : Prop} {s : Span} {e : Err} (h : OnlyBadInput C s e) :
    OkErr C safe s e := ⟨by rw [h.1]; nofun, fun _ hv => h.2 hv.1⟩

/-- the statement of the induction for one parser -/
def ParseOK (C : Ctx α β) (loc safe : Prop) (t : Ty) (P : Sub) : Prop :=
  ∀ s, Sat (P.parse s) (GoodV loc t s) (OkErr C safe s)

theorem ParseOK.mono {C : Ctx α β} {loc loc' safe safe' : Prop} {t : Ty} {P : Sub}
    (h : ParseOK C loc safe t P) (hl : loc' → loc) (hs : safe' → safe) : ParseOK C loc' safe' t P :=
  fun s => (h s).mono (fun _ hr => ⟨hr.toGood, fun v hv => (hr.val v hv).mono fun _ h hl' => h (hl hl')⟩)
    fun _ he => ⟨he.1, fun hu hv => he.2 hu ⟨hv.1, hs hv.2⟩⟩

theorem ParseOK.from {C : Ctx α β} {loc safe : Prop} {t : Ty} {P : Sub} (h : ParseOK C loc safe t P)
    {s o : Span} (hs : s.SuffixOf o) : Sat (P.parse s) (GoodV loc t s) (OkErr C safe o) :=
  (h s).mono (fun _ h => h) fun _ => .trans hs

section
variable {C : Ctx α β} {loc safe : Prop} {o : Span}

theorem GoodV.failure (t : Ty) (s : Span) : GoodV loc t s (R.failure s) := ⟨.failure s, nofun⟩

theorem GoodV.build {t : Ty} {s : Span} {v : Val} (hs : s.SuffixOf o) (hv : Vok (Reg loc o s) t v) :
    GoodV loc t o (builderBuild t v s) := by
  unfold builderBuild
  split
  · rename_i ht; subst ht
    exact ⟨.successVoid hs, by rintro v ⟨⟩; exact Vok.unit⟩
  · exact ⟨.success v hs, by rintro v ⟨⟩; exact hv⟩

theorem builderInit_ok (hT : C.Typed) (hloc : loc → C.Local) {t : Ty} (h : (defaultVal C t).isSome = true)
    (s s' : Span) : ∃ v, builderInit C t = M.pure v ∧ Vok (Reg loc s s') t v := by
  obtain ⟨v, hv⟩ := Option.isSome_iff_exists.1 h
  refine ⟨v, by simp [builderInit, hv, M.ofOption], defaultVal_hasTy hT t v hv, fun x hx hl => ?_⟩
  exact .inl (defaultVal_spans (hloc hl) t v hv x hx)

/-! #### basic parsers and specialised joins -/

/-- success with the span of what was consumed -/
structure GoodSpan (o : Span) (r : R) : Prop extends Good o r where
  val : ∀ v, r.val = some v → ∃ k, v = .span ⟨o.ptr, k⟩ ∧ o.Advanced k r.rem

theorem GoodSpan.failure (s : Span) : GoodSpan s (R.failure s) := ⟨.failure s, nofun⟩
theorem GoodSpan.success {s s' : Span} {k : Nat} (h : s.Advanced k s') :
    GoodSpan s (R.success (.span ⟨s.ptr, k⟩) s') :=
  ⟨.success _ ⟨_, h⟩, by rintro v ⟨⟩; exact ⟨k, rfl, h⟩⟩

theorem GoodSpan.goodV {s : Span} {r : R} (h : GoodSpan s r) : GoodV loc .span s r := by
  refine ⟨h.toGood, fun v hv => ?_⟩
  obtain ⟨k, rfl, hk⟩ := h.val v hv
  refine ⟨⟨_, rfl⟩, fun x hx _ => ?_⟩
  simp only [Val.spans, List.mem_singleton] at hx; subst hx
  exact hk.inRegion

theorem Quiet.goodSpan_ok {m : Run R} {s : Span} (h : Quiet m (GoodSpan s) (OnlyBadInput C s)) :
    Sat m (GoodV loc .span s) (OkErr C safe s) :=
  h.sat.mono (fun _ h => h.goodV) fun _ => .of_ub

theorem parseBasic_quiet (b : BasicP α) (s : Span) :
    Quiet (parseBasic C b s) (GoodSpan s) (OnlyBadInput C s) := by
  refine Quiet.bind (failureCondition_quiet C b s) fun c hc => ?_
  refine Quiet.ite (fun _ => Quiet.pure (.failure s)) fun hn => ?_
  exact Quiet.bind (advance_quiet C fun hs => hc hs (by simpa using hn)) fun s' h =>
    Quiet.pure (.success h)

theorem joinExactlyLoop_quiet (b : BasicP α) (todo : Nat) (s : Span) (k : Nat) (hs : o.Advanced k s) :
    Quiet (joinExactlyLoop C b o todo s ⟨o.ptr, k⟩) (GoodSpan o) (OnlyBadInput C o) := by
  induction todo generalizing s k with
  | zero => exact Quiet.pure (.success hs)
  | succ n ih =>
    refine Quiet.bind ((failureCondition_quiet C b s).mono (fun _ h => h) fun _ => .trans ⟨_, hs⟩) fun c hc => ?_
    refine Quiet.ite (fun _ => Quiet.pure (.failure o)) fun hn => ?_
    refine Quiet.bind ((subspan_quiet C fun hs => hc hs (by simpa using hn)).mono (fun _ h => h)
      fun _ => .trans ⟨_, hs⟩) fun s' h => ?_
    exact ih _ _ (hs.trans h)

theorem joinRepeatLoop_quiet (b : BasicP α) (fuel : Nat) (s : Span) (k : Nat) (hs : o.Advanced k s) :
    Quiet (joinRepeatLoop C b fuel s ⟨o.ptr, k⟩) (fun x => ∃ k, x.2 = ⟨o.ptr, k⟩ ∧ o.Advanced k x.1)
      (OnlyBadInput C o) := by
  induction fuel generalizing s k with
  | zero => exact Quiet.diverge
  | succ n ih =>
    refine Quiet.bind ((failureCondition_quiet C b s).mono (fun _ h => h) fun _ => .trans ⟨_, hs⟩) fun c hc => ?_
    refine Quiet.ite (fun _ => Quiet.pure ⟨_, rfl, hs⟩) fun hn => ?_
    refine Quiet.bind ((subspan_quiet C fun hs => hc hs (by simpa using hn)).mono (fun _ h => h)
      fun _ => .trans ⟨_, hs⟩) fun s' h => ?_
    exact ih _ _ (hs.trans h)

/-! #### compound parsers -/

/-- what `elementOK` and the induction hypothesis say of one element -/
def ElemOK (C : Ctx α β) (loc safe : Prop) (isChoice : Bool) (tr : Trait) (e : Elem) : Prop :=
  (e.idx = none → LookQuiet C e.sub) ∧
  ∀ i, e.idx = some i → ParseOK C loc safe e.ty e.sub ∧ elementOK C isChoice tr e.ty (some i) = true

theorem convert_ok (hT : C.Typed) (hloc : loc → C.Local) {src dst : Ty} (h : convOK C src dst = true)
    {v : Val} {s s' : Span} (hv : Vok (Reg loc s s') src v) :
    ∃ w, convert C src dst v = M.pure w ∧ Vok (Reg loc s s') dst w := by
  unfold convert
  by_cases he : src = dst
  · subst he; exact ⟨v, by simp, hv⟩
  · simp only [convOK, he, decide_false, Bool.false_or] at h
    obtain ⟨f, hf⟩ := Option.isSome_iff_exists.1 h
    refine ⟨f v, by simp [he, hf], hT.conv src dst f v hf hv.ty, fun x hx hl => ?_⟩
    rcases (hloc hl).conv src dst f v hf x hx with h | h
    · exact .inl h
    · exact hv.spans x h hl

theorem fromOptional_ok (hT : C.Typed) (hloc : loc → C.Local) {src dst : Ty} {g : Option Val → Val}
    (h : fromOptional C src dst = some g) {o : Option Val} {s s' : Span} (hv : ∀ v, o = some v → Vok (Reg loc s s') src v) :
    Vok (Reg loc s s') dst (g o) := by
  have ho : Vok (Reg loc s s') (.opt src) (.opt o) := by
    cases o with
    | none => exact ⟨by simp [HasTy], by simp [Val.spans]⟩
    | some v => exact ⟨by simpa only [HasTy] using Or.inr ⟨v, rfl, (hv v rfl).ty⟩, fun x hx => (hv v rfl).spans x (by simpa [Val.spans] using hx)⟩
  unfold fromOptional at h
  split at h
  · next he => cases h; subst he; exact ho
  · refine ⟨hT.convOpt src dst g o h ho.ty, fun x hx hl => ?_⟩
    rcases (hloc hl).convOpt src dst g o h x hx with h | h
    · exact .inl h
    · exact ho.spans x h hl

theorem execute_ok (hT : C.Typed) (hloc : loc → C.Local) {isChoice : Bool} {tr : Trait} {e : Elem}
    (he : ElemOK C loc safe isChoice tr e) (st : Exec) (hs : st.input.SuffixOf o)
    (hv : Vok (Reg loc o st.input) tr.ty st.value) :
    Sat (execute C tr.ty tr.unwrapped isChoice e st)
      (fun x => x.2.input.SuffixOf o ∧ Vok (Reg loc o x.2.input) tr.ty x.2.value) (OkErr C safe o) := by
  obtain ⟨P, t, i⟩ := e
  cases i with
  | none =>
    refine Sat.bind (((he.1 rfl st.input).sat).mono (fun _ h => h) fun _ h => .of_ub (h.trans hs)) fun r hr => ?_
    exact Sat.pure ⟨hr.suffix.trans hs, hv.mono fun x hx => hx.mono (.refl _) hr.suffix⟩
  | some i =>
    obtain ⟨hP, hel⟩ := he.2 i rfl
    refine Sat.bind (hP.from hs) fun r hr => ?_
    refine Sat.ite (fun _ => Sat.pure ⟨hs, hv⟩) fun hn => ?_
    obtain ⟨w, hw⟩ : ∃ w, r.val = some w := Option.isSome_iff_exists.1 (by simpa [R.hasValue, Option.isSome_iff_ne_none] using hn)
    have hwv : Vok (Reg loc o r.rem) t w := (hr.val w hw).mono fun x hx => hx.mono hs (.refl _)
    have hv' : Vok (Reg loc o r.rem) tr.ty st.value := hv.mono fun x hx => hx.mono (.refl _) hr.suffix
    suffices h : ∃ v', (if tr.unwrapped then builderAssign tr.ty st.value r
         else if isChoice then builderEmplaceAt C tr.ty i t st.value r
         else builderGetAssign tr.ty st.value i r) = M.pure v' ∧ Vok (Reg loc o r.rem) tr.ty v' by
      obtain ⟨v', h1, h2⟩ := h
      simp only [M.bind_eq]
      rw [h1, M.pure_bind]
      exact Sat.pure ⟨hr.suffix.trans hs, h2⟩
    simp only [elementOK] at hel
    by_cases hu : tr.unwrapped = true
    · rw [if_pos hu] at hel ⊢
      have : t = tr.ty := by simpa using hel
      subst this
      exact builderAssign_ok hw hv' hwv
    · rw [if_neg hu] at hel ⊢
      cases hty : tr.ty with
      | var ts =>
        simp only [hty, Bool.and_eq_true] at hel
        rw [if_pos hel.1]
        cases hg : ts[i]? with
        | none => simp [hg] at hel
        | some u =>
          simp only [hg] at hel
          obtain ⟨w', h1, h2⟩ := convert_ok hT hloc hel.2 hwv
          refine ⟨.var i w', ?_, ⟨i, w', rfl, .of_get hg h2.ty⟩, h2.spans⟩
          simp only [builderEmplaceAt, hg, M.bind_eq, R.deref_eq hw, M.pure_bind, h1]
      | tup ts =>
        simp only [hty, Bool.and_eq_true] at hel
        have hc : ¬ isChoice = true := by simpa using hel.1
        rw [if_neg hc]
        cases hg : ts[i]? with
        | none => simp [hg] at hel
        | some u =>
          simp only [hg] at hel
          have : t = u := by simpa using hel.2
          subst this
          rw [hty] at hv'
          exact builderGetAssign_ok hw hg hv' hwv
      | _ => simp [hty] at hel

theorem foldOr_ok (hT : C.Typed) (hloc : loc → C.Local) {isChoice : Bool} {tr : Trait} {es : List Elem}
    (he : ∀ e ∈ es, ElemOK C loc safe isChoice tr e) (st : Exec) (hs : st.input.SuffixOf o)
    (hv : Vok (Reg loc o st.input) tr.ty st.value) :
    Sat (foldOr (execute C tr.ty tr.unwrapped isChoice) es st)
      (fun x => x.2.input.SuffixOf o ∧ Vok (Reg loc o x.2.input) tr.ty x.2.value) (OkErr C safe o) := by
  induction es generalizing st with
  | nil => exact Sat.pure ⟨hs, hv⟩
  | cons e es ih =>
    refine Sat.bind (execute_ok hT hloc (he e (by simp)) st hs hv) fun ⟨ok, st'⟩ hx => ?_
    exact Sat.ite (fun _ => Sat.pure hx) fun _ => ih (fun e h => he e (by simp [h])) st' hx.1 hx.2

theorem foldAnd_ok (hT : C.Typed) (hloc : loc → C.Local) {isChoice : Bool} {tr : Trait} {es : List Elem}
    (he : ∀ e ∈ es, ElemOK C loc safe isChoice tr e) (st : Exec) (hs : st.input.SuffixOf o)
    (hv : Vok (Reg loc o st.input) tr.ty st.value) :
    Sat (foldAnd (execute C tr.ty tr.unwrapped isChoice) es st)
      (fun x => x.2.input.SuffixOf o ∧ Vok (Reg loc o x.2.input) tr.ty x.2.value) (OkErr C safe o) := by
  induction es generalizing st with
  | nil => exact Sat.pure ⟨hs, hv⟩
  | cons e es ih =>
    refine Sat.bind (execute_ok hT hloc (he e (by simp)) st hs hv) fun ⟨ok, st'⟩ hx => ?_
    exact Sat.ite (fun _ => ih (fun e h => he e (by simp [h])) st' hx.1 hx.2) fun _ => Sat.pure hx

theorem mkElems_ok {rec : Parser α → Sub} (hq : ∀ q, LookQuiet C (rec q)) {isChoice : Bool} {tr : Trait}
    (ps : List (Parser α)) (is : List (Option Nat)) (hty : tysOK C ps = true)
    (hel : elementsOK C isChoice tr (resultsFor C ps) is = true) (hpa : parsesOK C ps is = true)
    (hrec : ∀ p ∈ ps, tyOK C p = true → parseOK C p = true → ParseOK C loc safe (resultFor C p) (rec p)) :
    ∀ e ∈ mkElems rec C ps is, ElemOK C loc safe isChoice tr e := by
  induction ps generalizing is with
  | nil => intro e he; cases is <;> simp [mkElems] at he
  | cons p ps ih =>
    cases is with
    | nil => intro e he; simp [mkElems] at he
    | cons i is =>
      simp only [tysOK, Bool.and_eq_true] at hty
      simp only [resultsFor, elementsOK, Bool.and_eq_true] at hel
      have hpa' : parsesOK C ps is = true := by
        cases i with
        | none => simpa [parsesOK] using hpa
        | some i => simp [parsesOK] at hpa; exact hpa.2
      intro e he
      rcases List.mem_cons.1 he with rfl | he
      · refine ⟨fun _ => hq p, fun j hj => ?_⟩
        have hj : i = some j := hj
        subst hj
        simp [parsesOK] at hpa
        exact ⟨hrec p (by simp) hty.1 hpa.1, hel.1⟩
      · exact ih is hty.2 hel.2 hpa' (fun p hp => hrec p (by simp [hp])) e he

/-! #### loops -/

variable {P D : Sub} {t u : Ty}

theorem exactlyLoop_ok (hP : ParseOK C loc safe t P) {n : Nat} (todo i : Nat) (hi : i + todo = n) (s : Span)
    (v : Val) (hs : s.SuffixOf o) (hv : Vok (Reg loc o s) (voidOr (.arr · n) t) v) :
    Sat (exactlyLoop (voidOr (.arr · n) t) P o todo i s v) (GoodV loc (voidOr (.arr · n) t) o)
      (OkErr C safe o) := by
  induction todo generalizing i s v with
  | zero => exact Sat.pure (.build hs hv)
  | succ k ih =>
    refine Sat.bind (hP.from hs) fun r hr => Sat.ite (fun _ => Sat.pure (.failure _ _)) fun hn => ?_
    obtain ⟨w, hw⟩ : ∃ w, r.val = some w := Option.isSome_iff_exists.1 (by simpa [R.hasValue, Option.isSome_iff_ne_none] using hn)
    have hwv : Vok (Reg loc o r.rem) t w := (hr.val w hw).mono fun x hx => hx.mono hs (.refl _)
    have hv' := hv.mono fun x hx => Reg.mono hx (.refl _) hr.suffix
    obtain ⟨v', h1, h2⟩ := builderArrayAssign_ok (n := n) (i := i) hw (by omega) hv' hwv
    simp only [M.bind_eq]
    rw [h1, M.pure_bind]
    exact ih _ (by omega) _ _ (hr.suffix.trans hs) h2

theorem oneOrMoreLoop_ok (hP : ParseOK C loc safe t P) (fuel : Nat) (b : Bool) (s : Span) (v : Val)
    (hs : s.SuffixOf o) (hb : b = false → s = o) (hv : Vok (Reg loc o s) (voidOr .vec t) v) :
    Sat (oneOrMoreLoop (voidOr .vec t) P fuel b s v)
      (fun x => x.2.1.SuffixOf o ∧ (x.1 = false → x.2.1 = o) ∧ Vok (Reg loc o x.2.1) (voidOr .vec t) x.2.2)
      (OkErr C safe o) := by
  induction fuel generalizing b s v with
  | zero => exact Sat.diverge
  | succ k ih =>
    refine Sat.bind (hP.from hs) fun r hr => ?_
    have hv' := hv.mono fun x hx => Reg.mono hx (.refl _) hr.suffix
    refine Sat.ite (fun hn => Sat.pure ⟨hr.suffix.trans hs, fun hb' => ?_, hv'⟩) fun hn => ?_
    · have hb2 : b = false := by simp at hb'; exact hb'.1
      rw [← hb hb2]
      exact hr.toGood.of_not_hasValue (by simpa using hn)
    · obtain ⟨w, hw⟩ : ∃ w, r.val = some w := Option.isSome_iff_exists.1 (by simpa [R.hasValue, Option.isSome_iff_ne_none] using hn)
      have hwv : Vok (Reg loc o r.rem) t w := (hr.val w hw).mono fun x hx => hx.mono hs (.refl _)
      obtain ⟨v', h1, h2⟩ := builderInsertBack_ok hw hv' hwv
      simp only [M.bind_eq]
      rw [h1, M.pure_bind]
      exact ih _ _ _ (hr.suffix.trans hs) (fun hf => by simp at hn; simp [hn] at hf) h2

theorem zeroOrMoreLoop_ok (hP : ParseOK C loc safe t P) (fuel : Nat) (s : Span) (v : Val)
    (hs : s.SuffixOf o) (hv : Vok (Reg loc o s) (voidOr .vec t) v) :
    Sat (zeroOrMoreLoop (voidOr .vec t) P fuel s v)
      (fun x => x.1.SuffixOf o ∧ Vok (Reg loc o x.1) (voidOr .vec t) x.2) (OkErr C safe o) := by
  induction fuel generalizing s v with
  | zero => exact Sat.diverge
  | succ k ih =>
    refine Sat.bind (hP.from hs) fun r hr => ?_
    have hv' := hv.mono fun x hx => Reg.mono hx (.refl _) hr.suffix
    refine Sat.ite (fun hn => Sat.pure ⟨hr.suffix.trans hs, hv'⟩) fun hn => ?_
    obtain ⟨w, hw⟩ : ∃ w, r.val = some w := Option.isSome_iff_exists.1 (by simpa [R.hasValue, Option.isSome_iff_ne_none] using hn)
    have hwv : Vok (Reg loc o r.rem) t w := (hr.val w hw).mono fun x hx => hx.mono hs (.refl _)
    obtain ⟨v', h1, h2⟩ := builderInsertBack_ok hw hv' hwv
    simp only [M.bind_eq]
    rw [h1, M.pure_bind]
    exact ih _ _ (hr.suffix.trans hs) h2

theorem delimitRecordP_ok {reg : Span → Prop} {r : R} {w v : Val} (hw : r.val = some w)
    (hv : Vok reg (delimitTy t u) v) (hwv : Vok reg t w) :
    ∃ v', delimitRecordP (delimitTy t u) t u v r = M.pure v' ∧ Vok reg (delimitTy t u) v' := by
  unfold delimitRecordP
  by_cases ht : t = .void
  · exact ⟨v, by simp [ht], hv⟩
  · by_cases hu : u = .void
    · have hT : delimitTy t u = voidOr .vec t := by simp [delimitTy, voidOr, ht, hu]
      simp only [ne_eq, ht, not_false_eq_true, hu, if_true]
      rw [← hu]; rw [hT] at hv ⊢
      exact builderInsertBack_ok hw hv hwv
    · have hT : delimitTy t u = .pair (.vec t) (.vec u) := by simp [delimitTy, ht, hu]
      simp only [ne_eq, ht, not_false_eq_true, hu, if_true, if_false]
      rw [hT] at hv ⊢
      exact builderInsertBackFirst_ok hw hv hwv

theorem delimitRecordD_ok {reg : Span → Prop} {r dr : R} {w v : Val} (hw : dr.val = some w)
    (hv : Vok reg (delimitTy t u) v) (hwv : Vok reg u w) :
    ∃ v', delimitRecordD (delimitTy t u) t u v r dr = M.pure v' ∧ Vok reg (delimitTy t u) v' := by
  unfold delimitRecordD
  by_cases hu : u = .void
  · exact ⟨v, by simp [hu], hv⟩
  · by_cases hr : r.hasValue = true
    · by_cases ht : t = .void
      · have hT : delimitTy t u = voidOr .vec u := by simp [delimitTy, voidOr, ht, hu]
        simp only [ne_eq, ht, not_false_eq_true, hu, hr, if_true]
        rw [← ht]; rw [hT] at hv ⊢
        exact builderInsertBack_ok hw hv hwv
      · have hT : delimitTy t u = .pair (.vec t) (.vec u) := by simp [delimitTy, ht, hu]
        simp only [ne_eq, ht, not_false_eq_true, hu, hr, if_true, if_false]
        rw [hT] at hv ⊢
        exact builderInsertBackSecond_ok hw hv hwv
    · exact ⟨v, by simp [hr], hv⟩

theorem delimitLoop_ok (hP : ParseOK C loc safe t P) (hD : ParseOK C loc safe u D) (fuel : Nat) (r : R)
    (s : Span) (v : Val) {s0 : Span} (hs0 : s0.SuffixOf o) (hs : s.SuffixOf o) (hrs : r.rem.SuffixOf s)
    (hr : GoodV loc t s0 r) (hv : Vok (Reg loc o r.rem) (delimitTy t u) v)
    (hvs : r.val = none → Vok (Reg loc o s) (delimitTy t u) v) :
    Sat (delimitLoop (delimitTy t u) t u P D fuel r s v)
      (fun x => x.1.SuffixOf o ∧ Vok (Reg loc o x.1) (delimitTy t u) x.2) (OkErr C safe o) := by
  induction fuel generalizing r s v s0 with
  | zero => exact Sat.diverge
  | succ k ih =>
    refine Sat.ite (fun hn => Sat.pure ⟨hs, hvs (by simpa [R.hasValue] using hn)⟩) fun hn => ?_
    obtain ⟨w, hw⟩ : ∃ w, r.val = some w := Option.isSome_iff_exists.1 (by simpa [R.hasValue, Option.isSome_iff_ne_none] using hn)
    have hwv : Vok (Reg loc o r.rem) t w := (hr.val w hw).mono fun x hx => hx.mono hs0 (.refl _)
    have hro := hr.suffix.trans hs0
    obtain ⟨v1, h1, hv1⟩ := delimitRecordP_ok (u := u) hw hv hwv
    simp only [M.bind_eq]
    rw [h1, M.pure_bind]
    refine Sat.bind (hD.from hro) fun dr hdr => ?_
    refine Sat.ite (fun _ => Sat.pure ⟨hro, hv1⟩) fun hdn => ?_
    obtain ⟨dw, hdw⟩ : ∃ w, dr.val = some w := Option.isSome_iff_exists.1 (by simpa [R.hasValue, Option.isSome_iff_ne_none] using hdn)
    have hdo := hdr.suffix.trans hro
    refine Sat.bind (hP.from hdo) fun r' hr' => ?_
    have hdwv : Vok (Reg loc o r'.rem) u dw := (hdr.val dw hdw).mono fun x hx => hx.mono hro hr'.suffix
    have hv1' : Vok (Reg loc o r'.rem) (delimitTy t u) v1 :=
      hv1.mono fun x hx => Reg.mono hx (.refl _) (hr'.suffix.trans hdr.suffix)
    by_cases hr'v : r'.val = none
    · have : delimitRecordD (delimitTy t u) t u v1 r' dr = M.pure v1 := by
        simp [delimitRecordD, R.hasValue, hr'v]
      rw [this, M.pure_bind]
      exact ih r' r.rem v1 hdo hro (hr'.suffix.trans hdr.suffix) hr' hv1' fun _ => hv1
    · obtain ⟨v2, h2, hv2⟩ := delimitRecordD_ok (t := t) (r := r') hdw hv1' hdwv
      rw [h2, M.pure_bind]
      exact ih r' r.rem v2 hdo hro (hr'.suffix.trans hdr.suffix) hr' hv2 fun h => absurd h hr'v

/-! #### function objects -/

theorem HasTys.replicate {t : Ty} {n : Nat} {vs : List Val} (hl : vs.length = n) (h : ∀ w ∈ vs, HasTy t w) :
    HasTys (List.replicate n t) vs := by
  induction n generalizing vs with
  | zero => simp at hl; subst hl; rfl
  | succ n ih =>
    cases vs with
    | nil => simp at hl
    | cons v vs => exact ⟨v, vs, rfl, h v (by simp), ih (by simpa using hl) fun w hw => h w (by simp [hw])⟩

theorem components_ok {t : Ty} {ts : List Ty} {v : Val} (h : components t = some ts) (hv : HasTy t v) :
    ∃ vs, componentsOf v = some vs ∧ HasTys ts vs := by
  cases t with
  | tup us =>
    simp only [components, Option.some.injEq] at h; subst h
    obtain ⟨vs, rfl, hvs⟩ := hv
    exact ⟨vs, rfl, hvs⟩
  | pair a b =>
    simp only [components, Option.some.injEq] at h; subst h
    obtain ⟨x, y, rfl, hx, hy⟩ := hv
    exact ⟨[x, y], rfl, x, [y], rfl, hx, y, [], rfl, hy, rfl⟩
  | arr t n =>
    simp only [components, Option.some.injEq] at h; subst h
    obtain ⟨vs, rfl, hl, hvs⟩ := hv
    exact ⟨vs, rfl, .replicate hl hvs⟩
  | _ => simp [components] at h

theorem liftCall_sat {r : Except Nat Val} {Q : Val → Prop} (h : ∀ v, r = .ok v → Q v) :
    Sat (liftCall r) Q (fun e => ∃ x, e = .exn x) := by
  cases r with
  | ok v => exact Sat.pure (h v rfl)
  | error e => exact Sat.fail ⟨e, rfl⟩

theorem invoke_ok (hT : C.Typed) (f : Fn) {ts : List Ty} {t : Ty} (hf : fnTy C f ts = some t)
    {args : List Val} (ha : HasTys ts args) :
    Sat (invoke C f args) (HasTy t) (fun e => ∃ x, e = .exn x) := by
  induction f generalizing ts args with
  | user k =>
    refine Sat.bind (Sat.log (Q := fun _ => True) trivial) fun _ _ => liftCall_sat fun v hv => ?_
    exact hT.fn k ts t args v hf ha hv
  | apply f ih =>
    match ts, hf with
    | [u], hf =>
      obtain ⟨v, ws, rfl, hv, rfl⟩ := ha
      simp only [fnTy] at hf
      cases hc : components u with
      | none => simp [hc] at hf
      | some us =>
        simp only [hc] at hf
        obtain ⟨vs, h1, h2⟩ := components_ok hc hv
        simp only [invoke, h1]
        exact ih hf h2
    | [], hf => simp [fnTy] at hf
    | _ :: _ :: _, hf => simp [fnTy] at hf
  | const k =>
    simp only [fnTy, Option.some.injEq] at hf; subst hf
    exact Sat.bind (Sat.log (Q := fun _ => True) trivial) fun _ _ => Sat.pure (hT.const k)
  | construct u =>
    simp only [fnTy, Option.ite_none_right_eq_some, Option.some.injEq] at hf
    obtain ⟨hc, rfl⟩ := hf
    exact Sat.bind (Sat.log (Q := fun _ => True) trivial) fun _ _ =>
      liftCall_sat fun v hv => hT.ctor u ts args v hc ha hv
  | deflt u =>
    simp only [fnTy, Option.ite_none_right_eq_some, Option.some.injEq] at hf
    obtain ⟨hc, rfl⟩ := hf
    obtain ⟨v, hv⟩ := Option.isSome_iff_exists.1 hc
    simp only [invoke, M.bind_eq, hv]
    exact Sat.bind (Sat.log (Q := fun _ => True) trivial) fun _ _ => Sat.pure (defaultVal_hasTy hT u v hv)

theorem argVals_ok {t : Ty} {r : R} {w : Val} (hw : r.val = some w) (hwt : HasTy t w) :
    ∃ args, argVals t r = M.pure args ∧ HasTys (argTys t) args ∧ ∀ a ∈ args, a = w := by
  unfold argVals argTys
  by_cases ht : t = .void
  · exact ⟨[], by simp [ht], by simp [ht, HasTys], nofun⟩
  · refine ⟨[w], by simp [ht, R.deref_eq hw], ?_, by simp⟩
    rw [if_neg ht]; exact ⟨w, [], rfl, hwt, rfl⟩

theorem exn_okErr {safe : Prop} {s : Span} {e : Err} (h : ∃ x, e = .exn x) : OkErr C safe s e := by
  obtain ⟨x, rfl⟩ := h; exact ⟨nofun, nofun⟩

/-! #### join -/

theorem joinExecutor_ok {locQ : Prop} (hlocQ : locQ → C.Local) (hsafe : safe → locQ) (hloc : loc → locQ)
    {t : Ty} (hj : joinable C t = true) {s : Span} {r : R} (hr : GoodV locQ t s r) {w : Val}
    (hw : r.val = some w) :
    Sat (joinExecutor C r) (fun j => ∀ y, j = some y → Reg loc s r.rem y) (OkErr C safe s) := by
  have hwv := hr.val w hw
  simp only [joinExecutor, M.bind_eq, R.deref_eq hw, M.pure_bind]
  rw [tryJoin_eq none t w hj hwv.ty]
  have hleaf : locQ → ∀ x ∈ joinLeaves C w, InRegion s r.rem x := fun hl x hx => by
    rcases joinLeaves_local (hlocQ hl) w x hx with h | h
    · exact .inl h
    · exact hwv.spans x h hl
  refine Sat.bind (Q := fun x : Bool × Option Span => ∀ y, x.2 = some y → loc → Within s r.rem y) ?_ ?_
  · have key : Quiet (tryJoinList C none (joinLeaves C w))
        (fun x => ∀ y, x.2 = some y → loc → Within s r.rem y) (· = .ub) := by
      by_cases hl : loc
      · exact (tryJoinList_region _ (hleaf (hloc hl)) none nofun).post fun x hx y hy _ => hx y hy
      · exact (tryJoinList_ub C none _).post fun x _ y _ h => absurd h hl
    by_cases hv : s.Valid C.mem ∧ safe
    · obtain ⟨b, hi, hhi, hin⟩ := region_inArr hv.1 hr.suffix
      have heq := tryJoinList_eq hhi (joinLeaves C w) (fun x hx h0 => hin x (hleaf (hsafe hv.2) x hx) h0) none nofun
      rw [heq] at key ⊢
      exact Sat.pure key.2
    · exact key.sat.mono (fun _ h => h) fun e he => ⟨by rw [he]; nofun, fun _ => hv⟩
  · rintro ⟨ok, j⟩ hx
    refine Sat.ite (fun _ => Sat.pure ?_) fun _ => Sat.pure fun y hy hl => .inr (hx y hy hl)
    rintro y ⟨⟩ _
    exact .empty_at hr.suffix

theorem joinGeneric_ok {locQ : Prop} (hlocQ : locQ → C.Local) (hsafe : safe → locQ) (hloc : loc → locQ)
    {t : Ty} (hj : joinable C t = true) {P : Sub} (hP : ParseOK C locQ safe t P) :
    ParseOK C loc safe .span (joinGeneric C P) := by
  intro s
  refine Sat.bind (hP s) fun r hr => ?_
  refine Sat.ite (fun hn => ?_) fun _ => Sat.pure (.failure _ _)
  obtain ⟨w, hw⟩ : ∃ w, r.val = some w := Option.isSome_iff_exists.1 (by simpa [R.hasValue, Option.isSome_iff_ne_none] using hn)
  refine Sat.bind (joinExecutor_ok hlocQ hsafe hloc hj hr hw) fun j hjv => ?_
  cases j with
  | none => exact Sat.pure (.failure _ _)
  | some j =>
    refine Sat.pure ⟨.success _ hr.suffix, ?_⟩
    rintro v ⟨⟩
    refine ⟨⟨_, rfl⟩, fun x hx => ?_⟩
    simp only [Val.spans, List.mem_singleton] at hx; subst hx
    exact hjv _ rfl

end

section
variable {C : Ctx α β} {rec : Parser α → Sub}

theorem semJoin_ok (k : Nat) (p : Parser α) (hj : joinable C (resultFor C p) = true)
    (hP : ParseOK C (SpanLocal C p) (JoinSafe C p) (resultFor C p) (rec p)) :
    ParseOK C (SpanLocal C (.join p)) (JoinSafe C (.join p)) .span (semJoin C rec k p) := by
  have gen : ParseOK C (SpanLocal C (.join p)) (JoinSafe C (.join p)) .span (joinGeneric C (rec p)) :=
    joinGeneric_ok (locQ := SpanLocal C p) (fun h => h.ctx) (fun h => h p .refl) (fun h => h.child .join) hj
      (hP.mono (fun h => h) fun h => h.child .join)
  cases p with
  | exactly q n =>
    simp only [semJoin]
    cases asBasic C q with
    | none => exact gen
    | some b => exact fun s => (joinExactlyLoop_quiet b n s 0 (.refl s)).goodSpan_ok
  | maybe q =>
    simp only [semJoin]
    cases asBasic C q with
    | none => exact gen
    | some b =>
      refine fun s => Quiet.goodSpan_ok ?_
      refine Quiet.bind (failureCondition_quiet C b s) fun c hc => ?_
      refine Quiet.ite (fun _ => Quiet.pure (.success (.refl s))) fun hn => ?_
      exact Quiet.bind (advance_quiet C fun hs => hc hs (by simpa using hn)) fun s' h =>
        Quiet.pure (.success h)
  | oneOrMore q =>
    simp only [semJoin]
    cases asBasic C q with
    | none => exact gen
    | some b =>
      refine fun s => Quiet.goodSpan_ok ?_
      refine Quiet.bind (failureCondition_quiet C b s) fun c hc => ?_
      refine Quiet.ite (fun _ => Quiet.pure (.failure s)) fun hn => ?_
      refine Quiet.bind (subspan_quiet C fun hs => hc hs (by simpa using hn)) fun s' h => ?_
      refine Quiet.bind (joinRepeatLoop_quiet b k s' _ h) fun ⟨i, r⟩ hx => ?_
      obtain ⟨k, rfl, hk⟩ := hx
      exact Quiet.pure (.success hk)
  | zeroOrMore q =>
    simp only [semJoin]
    cases asBasic C q with
    | none => exact gen
    | some b =>
      refine fun s => Quiet.goodSpan_ok ?_
      refine Quiet.bind (joinRepeatLoop_quiet b k s 0 (.refl s)) fun ⟨i, r⟩ hx => ?_
      obtain ⟨k, rfl, hk⟩ := hx
      exact Quiet.pure (.success hk)
  | _ => exact gen

/-- the induction statement -/
def TypedSub (C : Ctx α β) (p : Parser α) (P : Sub) : Prop :=
  LookQuiet C P ∧
  (tyOK C p = true → parseOK C p = true →
    ParseOK C (SpanLocal C p) (JoinSafe C p) (resultFor C p) P)

theorem step_typed (hT : C.Typed) (hty : ∀ k, tyOK C (C.custom k).body = true)
    (hpa : ∀ k, parseOK C (C.custom k).body = true) (k : Nat) (h : ∀ q, TypedSub C q (rec q))
    (p : Parser α) : TypedSub C p (step C rec k p) := by
  refine ⟨step_quiet k (fun q => (h q).1) p, fun ht hp => ?_⟩
  have ch : ∀ {q}, ParseChild C p q → tyOK C q = true → parseOK C q = true →
      ParseOK C (SpanLocal C p) (JoinSafe C p) (resultFor C q) (rec q) := fun hc h1 h2 =>
    ((h _).2 h1 h2).mono (fun h => h.child hc) fun h => h.child hc
  have hctx : SpanLocal C p → C.Local := fun h => h.ctx
  cases p with
  | anyOf _ | noneOf _ | allOf _ | anything => exact fun s => (parseBasic_quiet _ s).goodSpan_ok
  | epsilon =>
    exact fun s => Sat.pure ⟨.successVoid (.refl s), by rintro v ⟨⟩; exact Vok.unit⟩
  | choice ps =>
    simp only [parseOK, Bool.and_eq_true] at hp
    obtain ⟨⟨⟨h1, h2⟩, h3⟩, h4⟩ := hp
    have hes := mkElems_ok (C := C) (rec := rec) (fun q => (h q).1) ps _ h1 h3 h4
      fun p hp => ch (.choice hp)
    intro s
    obtain ⟨v, hv, hvok⟩ := builderInit_ok hT hctx h2 s s
    show Sat (parseChoice ..) _ _
    simp only [parseChoice, M.bind_eq]
    rw [hv, M.pure_bind]
    refine Sat.bind (foldOr_ok hT hctx hes ⟨s, v⟩ (.refl s) hvok) fun x hx => ?_
    exact Sat.ite (fun _ => Sat.pure (.failure _ _)) fun _ => Sat.pure (.build hx.1 hx.2)
  | sequence ps =>
    simp only [parseOK, Bool.and_eq_true] at hp
    obtain ⟨⟨⟨h1, h2⟩, h3⟩, h4⟩ := hp
    have hes := mkElems_ok (C := C) (rec := rec) (fun q => (h q).1) ps _ h1 h3 h4
      fun p hp => ch (.sequence hp)
    intro s
    obtain ⟨v, hv, hvok⟩ := builderInit_ok hT hctx h2 s s
    show Sat (parseSequence ..) _ _
    simp only [parseSequence, M.bind_eq]
    rw [hv, M.pure_bind]
    refine Sat.bind (foldAnd_ok hT hctx hes ⟨s, v⟩ (.refl s) hvok) fun x hx => ?_
    exact Sat.ite (fun _ => Sat.pure (.failure _ _)) fun _ => Sat.pure (.build hx.1 hx.2)
  | maybe q =>
    simp only [parseOK, Bool.and_eq_true] at hp
    have hq := ch .maybe hp.1 hp.2
    intro s
    have hd : (defaultVal C (voidOr .opt (resultFor C q))).isSome = true := by
      unfold voidOr; split <;> rfl
    obtain ⟨v, hv, hvok⟩ := builderInit_ok hT hctx hd s s
    show Sat (parseMaybe C (voidOr .opt (resultFor C q)) (rec q) s) (GoodV _ (voidOr .opt (resultFor C q)) s) _
    simp only [parseMaybe, M.bind_eq]
    rw [hv, M.pure_bind]
    refine Sat.bind (hq s) fun r hr => ?_
    have hv' := hvok.mono fun x hx => Reg.mono hx (.refl _) hr.suffix
    by_cases hn : r.hasValue = true
    · rw [if_pos hn]
      obtain ⟨w, hw⟩ : ∃ w, r.val = some w := Option.isSome_iff_exists.1 hn
      obtain ⟨v', e1, e2⟩ := builderEmplace_ok hw hv' (hr.val w hw)
      rw [e1, M.pure_bind]; exact Sat.pure (.build hr.suffix e2)
    · rw [if_neg hn, M.pure_bind]; exact Sat.pure (.build hr.suffix hv')
  | exactly q n =>
    simp only [parseOK, Bool.and_eq_true] at hp
    have hq := ch .exactly hp.1.1 hp.1.2
    intro s
    obtain ⟨v, hv, hvok⟩ := builderInit_ok hT hctx hp.2 s s
    show Sat (parseExactly C (voidOr (.arr · n) (resultFor C q)) n (rec q) s)
      (GoodV _ (voidOr (.arr · n) (resultFor C q)) s) _
    simp only [parseExactly, M.bind_eq]
    rw [hv, M.pure_bind]
    exact exactlyLoop_ok hq n 0 (by omega) s v (.refl s) hvok
  | oneOrMore q =>
    simp only [parseOK, Bool.and_eq_true] at hp
    have hq := ch .oneOrMore hp.1 hp.2
    intro s
    have hd : (defaultVal C (voidOr .vec (resultFor C q))).isSome = true := by
      unfold voidOr; split <;> rfl
    obtain ⟨v, hv, hvok⟩ := builderInit_ok hT hctx hd s s
    show Sat (parseOneOrMore C (voidOr .vec (resultFor C q)) (rec q) k s)
      (GoodV _ (voidOr .vec (resultFor C q)) s) _
    simp only [parseOneOrMore, M.bind_eq]
    rw [hv, M.pure_bind]
    refine Sat.bind (oneOrMoreLoop_ok hq k false s v (.refl s) (fun _ => rfl) hvok) fun ⟨b, s', v'⟩ hx => ?_
    refine Sat.ite (fun _ => Sat.pure (.build hx.1 hx.2.2)) fun hb => ?_
    have : s' = s := hx.2.1 (by simpa using hb)
    subst this; exact Sat.pure (.failure _ _)
  | zeroOrMore q =>
    simp only [parseOK, Bool.and_eq_true] at hp
    have hq := ch .zeroOrMore hp.1 hp.2
    intro s
    have hd : (defaultVal C (voidOr .vec (resultFor C q))).isSome = true := by
      unfold voidOr; split <;> rfl
    obtain ⟨v, hv, hvok⟩ := builderInit_ok hT hctx hd s s
    show Sat (parseZeroOrMore C (voidOr .vec (resultFor C q)) (rec q) k s)
      (GoodV _ (voidOr .vec (resultFor C q)) s) _
    simp only [parseZeroOrMore, M.bind_eq]
    rw [hv, M.pure_bind]
    refine Sat.bind (zeroOrMoreLoop_ok hq k s v (.refl s) hvok) fun ⟨s', v'⟩ hx => ?_
    exact Sat.pure (.build hx.1 hx.2)
  | delimit q d =>
    simp only [parseOK, Bool.and_eq_true] at hp
    have hq := ch .delimit hp.1.1.1 hp.1.2
    have hd := ch .delimiter hp.1.1.2 hp.2
    intro s
    have hdf : (defaultVal C (delimitTy (resultFor C q) (resultFor C d))).isSome = true := by
      unfold delimitTy; split <;> split <;> rfl
    obtain ⟨v, hv, hvok⟩ := builderInit_ok hT hctx hdf s s
    show Sat (parseDelimit C (delimitTy (resultFor C q) (resultFor C d)) (resultFor C q) (resultFor C d)
      (rec q) (rec d) k s) (GoodV _ (delimitTy (resultFor C q) (resultFor C d)) s) _
    simp only [parseDelimit, M.bind_eq]
    rw [hv, M.pure_bind]
    refine Sat.bind (hq s) fun r hr => Sat.ite (fun _ => Sat.pure (.failure _ _)) fun hn => ?_
    refine Sat.bind (delimitLoop_ok hq hd k r s v (.refl s) (.refl s) hr.suffix hr
      (hvok.mono fun x hx => Reg.mono hx (.refl _) hr.suffix) fun _ => hvok) fun ⟨s', v'⟩ hx => ?_
    exact Sat.pure (.build hx.1 hx.2)
  | ignore q =>
    intro s
    refine ((h q).1 s).sat.mono (fun r hr => ⟨hr.toGood, fun v hv => ?_⟩) fun _ => .of_ub
    rw [hr.unit v hv]; exact Vok.unit
  | complete q =>
    simp only [parseOK, Bool.and_eq_true] at hp
    intro s
    refine Sat.bind (ch .complete hp.1 hp.2 s) fun r hr => ?_
    exact Sat.ite (fun _ => Sat.pure (.failure _ _)) fun _ => Sat.pure hr
  | join q =>
    simp only [parseOK, Bool.and_eq_true] at hp
    exact semJoin_ok k q hp.2 ((h q).2 hp.1.1 hp.1.2)
  | map q f =>
    simp only [parseOK, tyOK, Bool.and_eq_true] at hp
    intro s
    refine Sat.bind (ch .map hp.1.1 hp.2 s) fun r hr => Sat.ite (fun _ => Sat.pure (.failure _ _)) fun hn => ?_
    obtain ⟨w, hw⟩ : ∃ w, r.val = some w := Option.isSome_iff_exists.1 (by simpa [R.hasValue, Option.isSome_iff_ne_none] using hn)
    have hwv := hr.val w hw
    obtain ⟨args, ha, hat, haw⟩ := argVals_ok hw hwv.ty
    obtain ⟨t, hft⟩ := Option.isSome_iff_exists.1 hp.1.2
    have hmt : resultFor C (.map q f) = t := by simp [resultFor, mapTy, hft]
    simp only [M.bind_eq]
    rw [ha, M.pure_bind, hmt]
    have hinv := invoke_ok hT f hft hat
    refine Sat.bind (Q := fun v => HasTy t v ∧ ∃ log, invoke C f args = .done log (.ok v)) ?_ fun v hv => ?_
    · refine Sat.intro (fun l a ha => ⟨hinv.ok ha, l, ha⟩) fun l e he => ?_
      exact exn_okErr (hinv.err he)
    · refine Sat.ite (fun htv => Sat.pure ⟨.successVoid hr.suffix, ?_⟩) fun _ =>
        Sat.pure ⟨.success _ hr.suffix, ?_⟩
      · rintro v ⟨⟩; subst htv; exact Vok.unit
      · rintro v ⟨⟩
        obtain ⟨htv, log, hlog⟩ := hv
        refine ⟨htv, fun x hx hl => ?_⟩
        rcases (hl.maps q f .refl) args log _ hlog x hx with rfl | ⟨a, ha, hxa⟩
        · exact .inl rfl
        · rw [haw a ha] at hxa; exact hwv.spans x hxa hl
  | filter q f =>
    simp only [parseOK, tyOK, Bool.and_eq_true] at hp
    intro s
    refine Sat.bind (ch .filter hp.1.1 hp.2 s) fun r hr => Sat.ite (fun _ => Sat.pure (.failure _ _)) fun hn => ?_
    obtain ⟨w, hw⟩ : ∃ w, r.val = some w := Option.isSome_iff_exists.1 (by simpa [R.hasValue, Option.isSome_iff_ne_none] using hn)
    have hwv := hr.val w hw
    obtain ⟨args, ha, hat, haw⟩ := argVals_ok hw hwv.ty
    simp only [M.bind_eq]
    rw [ha, M.pure_bind]
    cases hft : fnTy C f (argTys (resultFor C q)) with
    | none => simp [hft] at hp
    | some t =>
      refine Sat.bind ((invoke_ok hT f hft hat).mono (fun _ h => h) fun e he => exn_okErr he) fun v hv => ?_
      exact Sat.ite (fun _ => Sat.pure hr) fun _ => Sat.pure (.failure _ _)
  | named q n =>
    simp only [parseOK, Bool.and_eq_true] at hp
    exact ch .named hp.1 hp.2
  | custom j =>
    intro s
    simp only [parseOK] at hp
    have hq := ch (q := (C.custom j).body) .custom (hty j) (hpa j)
    refine Sat.bind (hq s) fun r hr => ?_
    show Sat (convertResult C (resultFor C (C.custom j).body) (C.custom j).ty r) (GoodV _ (C.custom j).ty s) _
    unfold convertResult
    by_cases he : resultFor C (C.custom j).body = (C.custom j).ty
    · rw [if_pos he, ← he]; exact Sat.pure hr
    · simp only [he, decide_false, Bool.false_or, Bool.and_eq_true, bne_iff_ne] at hp
      rw [if_neg he, if_neg (by simp [hp.1.1, hp.1.2])]
      cases hg : fromOptional C (resultFor C (C.custom j).body) (C.custom j).ty with
      | some g =>
        exact Sat.pure ⟨⟨hr.suffix, nofun⟩, by rintro v ⟨⟩; exact fromOptional_ok hT hctx hg fun w hw => hr.val w hw⟩
      | none =>
        cases hv : r.val with
        | none => exact Sat.pure ⟨hr.toGood, by rw [hv]; nofun⟩
        | some w =>
          have hwv := hr.val w hv
          obtain ⟨w', h1, h2⟩ := convert_ok hT hctx (src := resultFor C (C.custom j).body)
            (dst := (C.custom j).ty) (by simpa [convOK, hg] using Or.inr (by simpa [hg] using hp.2)) hwv
          simp only [M.bind_eq]
          rw [h1, M.pure_bind]
          exact Sat.pure ⟨⟨hr.suffix, nofun⟩, by rintro v ⟨⟩; exact h2⟩

theorem sem_typed (hT : C.Typed) (hty : ∀ k, tyOK C (C.custom k).body = true)
    (hpa : ∀ k, parseOK C (C.custom k).body = true) (n : Nat) (p : Parser α) : TypedSub C p (sem C n p) :=
  sem_induct (fun p P => TypedSub C p P) (fun _ => ⟨fun _ => Quiet.diverge, fun _ _ _ => Sat.diverge⟩)
    (fun _ k h p => step_typed hT hty hpa k h p) n p

theorem Parse_typed [LinearOrder α] {p : Parser α} (hc : Compiles C p) (hT : C.Typed) (s : Span) :
    Sat (Parse C p s) (GoodV (SpanLocal C p) (resultFor C p) s) (OkErr C (JoinSafe C p) s) :=
  Parse_sat fun n => (sem_typed hT hc.ctx.ty hc.ctx.parse n p).2 hc.ty hc.parse s

end

end Tok3n
