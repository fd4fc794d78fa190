import Verif.Spec.Once
import Verif.Proof.Closed
import Verif.Proof.Quiet
/-
Counting the user's values along a run.
-/

namespace Tok3n

variable {α β A B : Type}

section
variable {C : Ctx α β} {pick : Val → Bool} {takers : Fn → Bool}

theorem made_append (l l' : List Call) : made C pick (l ++ l') = made C pick l + made C pick l' := by
  simp [made]
theorem given_append (l l' : List Call) : given pick takers (l ++ l') = given pick takers l + given pick takers l' := by
  simp [given]

theorem occursAll_append (vs ws : List Val) :
    Val.occursAll pick (vs ++ ws) = Val.occursAll pick vs + Val.occursAll pick ws := by
  induction vs with
  | nil => simp [Val.occursAll]
  | cons v vs ih => simp only [List.cons_append, Val.occursAll, ih]; omega

theorem occursAll_set (vs : List Val) (i : Nat) (v : Val) :
    Val.occursAll pick (vs.set i v) ≤ Val.occursAll pick vs + v.occurs pick := by
  induction vs generalizing i with
  | nil => simp [Val.occursAll]
  | cons w vs ih =>
    cases i with
    | zero => simp only [List.set_cons_zero, Val.occursAll]; omega
    | succ i => have := ih i; simp only [List.set_cons_succ, Val.occursAll]; omega

theorem occursAll_replicate {v : Val} (h : v.occurs pick = 0) (n : Nat) :
    Val.occursAll pick (List.replicate n v) = 0 := by
  induction n with
  | zero => rfl
  | succ n ih => simp [List.replicate_succ, Val.occursAll, ih, h]

mutual
theorem defaultVal_occurs (H : C.MakesNo pick) : ∀ (t : Ty) (v : Val), defaultVal C t = some v → v.occurs pick = 0
  | .void, v, h => by simp only [defaultVal, Option.some.injEq] at h; subst h; simp [Val.occurs]
  | .span, v, h => by simp only [defaultVal, Option.some.injEq] at h; subst h; simp [Val.occurs]
  | .vec _, v, h => by simp only [defaultVal, Option.some.injEq] at h; subst h; simp [Val.occurs, Val.occursAll]
  | .arr t n, v, h => by
    simp only [defaultVal, Option.map_eq_some_iff] at h
    obtain ⟨w, hw, rfl⟩ := h
    exact occursAll_replicate (defaultVal_occurs H t w hw) n
  | .opt _, v, h => by simp only [defaultVal, Option.some.injEq] at h; subst h; simp [Val.occurs]
  | .tup ts, v, h => by
    simp only [defaultVal, Option.map_eq_some_iff] at h
    obtain ⟨w, hw, rfl⟩ := h
    exact defaultVals_occurs H ts w hw
  | .var [], v, h => by simp [defaultVal, defaultHead] at h
  | .var (t :: _), v, h => by
    simp only [defaultVal, defaultHead, Option.map_eq_some_iff] at h
    obtain ⟨w, hw, rfl⟩ := h
    exact defaultVal_occurs H t w hw
  | .pair a b, v, h => by
    simp only [defaultVal] at h
    split at h
    · rename_i x y hx hy
      cases h
      simp [Val.occurs, defaultVal_occurs H a x hx, defaultVal_occurs H b y hy]
    · cases h
  | .user k, v, h => H.dflt k v h
theorem defaultVals_occurs (H : C.MakesNo pick) :
    ∀ (ts : List Ty) (vs : List Val), defaultVals C ts = some vs → Val.occursAll pick vs = 0
  | [], vs, h => by simp only [defaultVals, Option.some.injEq] at h; subst h; rfl
  | t :: ts, vs, h => by
    simp only [defaultVals] at h
    split at h
    · rename_i x y hx hy
      cases h
      simp [Val.occursAll, defaultVal_occurs H t x hx, defaultVals_occurs H ts y hy]
    · cases h
end

variable (C pick takers) in
/-- A run that starts holding `c` of the selected values and ends holding those that `w`
counts; what it gave away is paid for by what it held and what the calls made. -/
def Bal (c : Nat) (m : Run A) (w : A → Nat) : Prop :=
  match m with
  | .diverge => True
  | .done l (.ok a) => w a + given pick takers l ≤ c + made C pick l
  | .done l (.err _) => given pick takers l ≤ c + made C pick l

theorem Bal.diverge {c : Nat} {w : A → Nat} : Bal C pick takers c (M.diverge : Run A) w := trivial
theorem Bal.pure {c : Nat} {a : A} {w : A → Nat} (h : w a ≤ c) : Bal C pick takers c (M.pure a) w := by
  simpa [Bal, M.pure, given, made] using h
theorem Bal.fail {c : Nat} {e : Err} {w : A → Nat} : Bal C pick takers c (M.fail e : Run A) w := by
  simp [Bal, M.fail, given, made]

theorem Bal.bind {c : Nat} {m : Run A} {f : A → Run B} {w : A → Nat} {w' : B → Nat} (h : Bal C pick takers c m w)
    (hf : ∀ a, Bal C pick takers (w a) (f a) w') : Bal C pick takers c (M.bind m f) w' := by
  cases m with
  | diverge => trivial
  | done l r =>
    cases r with
    | err e => exact h
    | ok a =>
      have h2 := hf a
      show Bal C pick takers c ((f a).after l) w'
      cases hfa : f a with
      | diverge => trivial
      | done l' r' =>
        rw [hfa] at h2
        cases r' <;>
          (simp only [Bal] at h
           simp only [Bal, M.after] at h2 ⊢
           rw [made_append, given_append]; omega)

theorem Bal.mono {c c' : Nat} {m : Run A} {w w' : A → Nat} (h : Bal C pick takers c m w) (hc : c ≤ c')
    (hw : ∀ a, w' a ≤ w a) : Bal C pick takers c' m w' := by
  cases m with
  | diverge => trivial
  | done l r =>
    cases r with
    | ok a => have := hw a; simp only [Bal] at h ⊢; omega
    | err e => simp only [Bal] at h ⊢; omega

/-- what is held besides stays held -/
theorem Bal.frame {c : Nat} {m : Run A} {w : A → Nat} (h : Bal C pick takers c m w) (d : Nat) :
    Bal C pick takers (c + d) m (fun a => w a + d) := by
  cases m with
  | diverge => trivial
  | done l r => cases r <;> simp only [Bal] at h ⊢ <;> omega

theorem Bal.lim {m : Nat → Run A} {a : Run A} (h : Lim m a) {c : Nat} {w : A → Nat}
    (hm : ∀ n, Bal C pick takers c (m n) w) : Bal C pick takers c a w := by
  cases ha : a with
  | diverge => trivial
  | done l r =>
    obtain ⟨n, hn⟩ := (h.iff l r).1 ha
    have := hm n
    rw [hn] at this
    exact this

/-- calls no function -/
def Silent (A : Type) (m : Run A) : Prop := ∀ l r, m = .done l r → l = []

theorem silent_closed : Closed Silent where
  diverge := by intro A l r h; cases h
  pure := by intro A a l r h; cases h; rfl
  ub := by intro A l r h; cases h; rfl
  ill := by intro A l r h; cases h; rfl
  bind := by
    intro A B m f hm hf l r h
    cases m with
    | diverge => cases h
    | done l1 r1 =>
      have := hm _ _ rfl
      subst this
      cases r1 with
      | err e => cases h; rfl
      | ok a =>
        change (f a).after [] = _ at h
        cases hfa : f a with
        | diverge => rw [hfa] at h; cases h
        | done l2 r2 =>
          rw [hfa] at h
          have := hf a _ _ hfa
          subst this
          cases h; rfl

theorem Silent.bal {m : Run A} (h : Silent A m) (c : Nat) : Bal C pick takers c m (fun _ => c) := by
  cases m with
  | diverge => trivial
  | done l r =>
    have := h _ _ rfl
    subst this
    cases r <;> simp [Bal, given, made]

theorem bal_silent {m : Run A} {f : A → Run B} (h : Silent A m) {c : Nat} {w : B → Nat}
    (hf : ∀ a, Bal C pick takers c (f a) w) : Bal C pick takers c (M.bind m f) w := (h.bal c).bind hf

/-! ### The builder -/

theorem deref_bal (r : R) (d : Nat) :
    Bal C pick takers (d + r.occurs pick) r.deref (fun v => d + v.occurs pick) := by
  unfold R.deref
  cases h : r.val with
  | none => exact Bal.fail
  | some v => exact Bal.pure (by simp [R.occurs, h])

theorem builderInit_bal (H : C.MakesNo pick) (T : Ty) (c : Nat) :
    Bal C pick takers c (builderInit C T) (fun v => c + v.occurs pick) := by
  unfold builderInit M.ofOption
  cases h : defaultVal C T with
  | none => exact Bal.fail
  | some v => exact Bal.pure (by simp [defaultVal_occurs H T v h])

variable {T : Ty} (v : Val) (r : R)

theorem builderAssign_bal : Bal C pick takers (v.occurs pick + r.occurs pick) (builderAssign T v r)
    (fun v => v.occurs pick) := by
  unfold builderAssign
  split
  · exact Bal.pure (by omega)
  · exact (deref_bal r 0).mono (by omega) (by simp)

theorem builderArrayAssign_bal (i : Nat) : Bal C pick takers (v.occurs pick + r.occurs pick) (builderArrayAssign T v i r)
    (fun v => v.occurs pick) := by
  unfold builderArrayAssign
  split
  · exact Bal.pure (by omega)
  · split
    · rename_i vs
      refine Bal.bind (deref_bal r _) fun w => ?_
      split
      · exact Bal.pure (by simpa [Val.occurs] using occursAll_set vs i w)
      · exact Bal.fail
    · exact Bal.fail

theorem builderGetAssign_bal (i : Nat) : Bal C pick takers (v.occurs pick + r.occurs pick) (builderGetAssign T v i r)
    (fun v => v.occurs pick) := by
  unfold builderGetAssign
  split
  · exact Bal.pure (by omega)
  · split
    · rename_i vs
      refine Bal.bind (deref_bal r _) fun w => ?_
      split
      · exact Bal.pure (by simpa [Val.occurs] using occursAll_set vs i w)
      · exact Bal.fail
    · exact Bal.fail

theorem builderEmplace_bal : Bal C pick takers (v.occurs pick + r.occurs pick) (builderEmplace T v r)
    (fun v => v.occurs pick) := by
  unfold builderEmplace
  split
  · exact Bal.pure (by omega)
  · split
    · refine Bal.bind (deref_bal r _) fun w => ?_
      exact Bal.pure (by simp [Val.occurs])
    · exact Bal.fail

theorem convert_bal (H : C.MakesNo pick) (a b : Ty) (d : Nat) :
    Bal C pick takers (d + v.occurs pick) (convert C a b v) (fun w => d + w.occurs pick) := by
  unfold convert
  split
  · exact Bal.pure (by omega)
  · split
    · rename_i f hf
      exact Bal.pure (by have := H.conv _ _ _ v hf; omega)
    · exact Bal.fail

theorem builderEmplaceAt_bal (H : C.MakesNo pick) (i : Nat) (src : Ty) :
    Bal C pick takers (v.occurs pick + r.occurs pick) (builderEmplaceAt C T i src v r) (fun v => v.occurs pick) := by
  unfold builderEmplaceAt
  split
  · exact Bal.pure (by omega)
  · split
    · refine Bal.bind (deref_bal r _) fun w => Bal.bind (convert_bal w H _ _ _) fun w' => ?_
      exact Bal.pure (by simp [Val.occurs])
    · exact Bal.fail
  · exact Bal.fail

theorem builderInsertBack_bal : Bal C pick takers (v.occurs pick + r.occurs pick) (builderInsertBack T v r)
    (fun v => v.occurs pick) := by
  unfold builderInsertBack
  split
  · exact Bal.pure (by omega)
  · split
    · refine Bal.bind (deref_bal r _) fun w => ?_
      exact Bal.pure (by simp [Val.occurs, Val.occursAll, occursAll_append])
    · exact Bal.fail

theorem builderInsertBackFirst_bal : Bal C pick takers (v.occurs pick + r.occurs pick) (builderInsertBackFirst T v r)
    (fun v => v.occurs pick) := by
  unfold builderInsertBackFirst
  split
  · exact Bal.pure (by omega)
  · split
    · refine Bal.bind (deref_bal r _) fun w => ?_
      exact Bal.pure (by simp [Val.occurs, Val.occursAll, occursAll_append]; omega)
    · exact Bal.fail

theorem builderInsertBackSecond_bal : Bal C pick takers (v.occurs pick + r.occurs pick) (builderInsertBackSecond T v r)
    (fun v => v.occurs pick) := by
  unfold builderInsertBackSecond
  split
  · exact Bal.pure (by omega)
  · split
    · refine Bal.bind (deref_bal r _) fun w => ?_
      exact Bal.pure (by simp [Val.occurs, Val.occursAll, occursAll_append]; omega)
    · exact Bal.fail

theorem build_occurs (s : Span) : (builderBuild T v s).occurs pick ≤ v.occurs pick := by
  unfold builderBuild
  split
  · simp [R.occurs, R.successVoid, Val.occurs]
  · simp [R.occurs, R.success]

@[simp] theorem failure_occurs (s : Span) : (R.failure s).occurs pick = 0 := rfl
@[simp] theorem successVoid_occurs (s : Span) : (R.successVoid s).occurs pick = 0 := rfl
@[simp] theorem successSpan_occurs (t s : Span) : (R.success (.span t) s).occurs pick = 0 := rfl

/-! ### Functions -/

theorem componentsOf_occurs {v : Val} {vs : List Val} (h : componentsOf v = some vs) :
    Val.occursAll pick vs = v.occurs pick := by
  cases v <;> simp only [componentsOf, Option.some.injEq, reduceCtorEq] at h <;> subst h <;>
    simp [Val.occurs, Val.occursAll]

theorem invoke_bal (f : Fn) (args : List Val) :
    Bal C pick takers (Val.occursAll pick args) (invoke C f args) (fun v => v.occurs pick) := by
  induction f generalizing args with
  | user k =>
    simp only [invoke]
    show Bal C pick takers _ (M.after _ _) _
    unfold liftCall
    cases h : C.fnCall k args with
    | ok v =>
      simp only [M.pure, M.after, Bal, made, given, List.append_nil, List.map_cons, List.map_nil, List.sum_cons, List.sum_nil,
        Call.returned, h]
      split <;> omega
    | error e =>
      simp only [M.fail, M.after, Bal, made, given, List.append_nil, List.map_cons, List.map_nil, List.sum_cons, List.sum_nil]
      split <;> omega
  | apply f ih =>
    simp only [invoke]
    split
    · split
      · rename_i vs hv
        exact (ih vs).mono (by rw [componentsOf_occurs hv]; simp [Val.occursAll]) (by simp)
      · exact Bal.fail
    · exact Bal.fail
  | const k =>
    simp only [invoke]
    show Bal C pick takers _ (M.after [⟨.const k, args⟩] (M.pure (C.constVal k))) _
    simp only [M.pure, M.after, Bal, made, given, List.append_nil, List.map_cons, List.map_nil, List.sum_cons, List.sum_nil,
      Call.returned]
    split <;> omega
  | construct t =>
    simp only [invoke]
    show Bal C pick takers _ (M.after _ _) _
    unfold liftCall
    cases h : C.ctor t args with
    | ok v =>
      simp only [M.pure, M.after, Bal, made, given, List.append_nil, List.map_cons, List.map_nil, List.sum_cons, List.sum_nil,
        Call.returned, h]
      split <;> omega
    | error e =>
      simp only [M.fail, M.after, Bal, made, given, List.append_nil, List.map_cons, List.map_nil, List.sum_cons, List.sum_nil]
      split <;> omega
  | deflt t =>
    simp only [invoke]
    show Bal C pick takers _ (M.after _ _) _
    unfold M.ofOption
    cases h : defaultVal C t with
    | some v =>
      simp only [M.pure, M.after, Bal, made, given, List.append_nil, List.map_cons, List.map_nil, List.sum_cons, List.sum_nil,
        Call.returned, h]
      split <;> omega
    | none =>
      simp only [M.fail, M.after, Bal, made, given, List.append_nil, List.map_cons, List.map_nil, List.sum_cons, List.sum_nil]
      split <;> omega

/-- a function that is not among the takers is given nothing -/
theorem invoke_shown {f : Fn} (hf : takers f.logged = false) (args : List Val) (c : Nat) :
    Bal C pick takers c (invoke C f args) (fun _ => c) := by
  induction f generalizing args with
  | apply f ih =>
    simp only [invoke]
    split
    · split
      · exact ih hf _
      · exact Bal.fail
    · exact Bal.fail
  | user k =>
    simp only [invoke]
    show Bal C pick takers _ (M.after _ _) _
    unfold liftCall
    replace hf : takers (.user k) = false := hf
    cases h : C.fnCall k args <;>
      simp [M.pure, M.fail, M.after, Bal, given, hf]
  | const k =>
    simp only [invoke]
    show Bal C pick takers _ (M.after [⟨.const k, args⟩] (M.pure (C.constVal k))) _
    replace hf : takers (.const k) = false := hf
    simp [M.pure, M.after, Bal, given, hf]
  | construct t =>
    simp only [invoke]
    show Bal C pick takers _ (M.after _ _) _
    unfold liftCall
    replace hf : takers (.construct t) = false := hf
    cases h : C.ctor t args <;>
      simp [M.pure, M.fail, M.after, Bal, given, hf]
  | deflt t =>
    simp only [invoke]
    show Bal C pick takers _ (M.after _ _) _
    unfold M.ofOption
    replace hf : takers (.deflt t) = false := hf
    cases h : defaultVal C t <;>
      simp [M.pure, M.fail, M.after, Bal, given, hf]

theorem argVals_bal (t : Ty) (r : R) :
    Bal C pick takers (r.occurs pick) (argVals t r) (fun args => Val.occursAll pick args) := by
  unfold argVals
  split
  · exact Bal.pure (by simp [Val.occursAll])
  · refine Bal.bind ((deref_bal r 0).mono (w' := fun v => v.occurs pick) (by omega) (by simp)) fun w => ?_
    exact Bal.pure (by simp [Val.occursAll])

/-! ### Parsers -/

theorem look_bal {P : Sub} (h : LookQuiet C P) (s : Span) (c : Nat) :
    Bal C pick takers c (P.look s) (fun r => c + r.occurs pick) := by
  have := h s
  revert this
  cases P.look s with
  | diverge => intro _; trivial
  | done l r =>
    intro this
    have hl := this.log rfl
    subst hl
    cases r with
    | err e => simp [Bal, given]
    | ok r =>
      have hu := (this.sat.ok rfl).unit
      have : r.occurs pick = 0 := by
        unfold R.occurs
        cases hv : r.val with
        | none => rfl
        | some v => rw [hu v hv]; rfl
      simp [Bal, given, made, this]

theorem parse_bal {P : Sub} (h : ∀ s, Bal C pick takers 0 (P.parse s) (R.occurs pick)) (s : Span) (c : Nat) :
    Bal C pick takers c (P.parse s) (fun r => c + r.occurs pick) :=
  ((h s).frame c).mono (by omega) (fun a => by omega)

theorem execute_bal (H : C.MakesNo pick) {u c : Bool} (e : Elem) (st : Exec) (hl : LookQuiet C e.sub)
    (h : ∀ s, Bal C pick takers 0 (e.sub.parse s) (R.occurs pick)) :
    Bal C pick takers (st.value.occurs pick) (execute C T u c e st) (fun x => x.2.value.occurs pick) := by
  unfold execute
  split
  · exact Bal.bind (look_bal hl _ _) fun r => Bal.pure (by dsimp only; omega)
  · refine Bal.bind (parse_bal h _ _) fun r => ?_
    split
    · exact Bal.pure (by dsimp only; omega)
    · refine Bal.bind (w := fun v => v.occurs pick) ?_ fun v => Bal.pure (by simp)
      split
      · exact builderAssign_bal _ _
      · split
        · exact builderEmplaceAt_bal _ _ H _ _
        · exact builderGetAssign_bal _ _ _

theorem foldOr_bal {exec : Elem → Exec → Run (Bool × Exec)} (es : List Elem) (st : Exec)
    (h : ∀ e ∈ es, ∀ st, Bal C pick takers (st.value.occurs pick) (exec e st) (fun x => x.2.value.occurs pick)) :
    Bal C pick takers (st.value.occurs pick) (foldOr exec es st) (fun x => x.2.value.occurs pick) := by
  induction es generalizing st with
  | nil => exact Bal.pure (by simp)
  | cons e es ih =>
    unfold foldOr
    refine Bal.bind (h e (by simp) st) fun x => ?_
    obtain ⟨b, st'⟩ := x
    cases b
    · exact ih _ fun e he => h e (by simp [he])
    · exact Bal.pure (by simp)

theorem foldAnd_bal {exec : Elem → Exec → Run (Bool × Exec)} (es : List Elem) (st : Exec)
    (h : ∀ e ∈ es, ∀ st, Bal C pick takers (st.value.occurs pick) (exec e st) (fun x => x.2.value.occurs pick)) :
    Bal C pick takers (st.value.occurs pick) (foldAnd exec es st) (fun x => x.2.value.occurs pick) := by
  induction es generalizing st with
  | nil => exact Bal.pure (by simp)
  | cons e es ih =>
    unfold foldAnd
    refine Bal.bind (h e (by simp) st) fun x => ?_
    obtain ⟨b, st'⟩ := x
    cases b
    · exact Bal.pure (by simp)
    · exact ih _ fun e he => h e (by simp [he])

theorem NotFilters.child {p q : Parser α} (h : NotFilters C takers p) (hc : ParseChild C p q) : NotFilters C takers q :=
  fun r f hr => h r f (.step hc hr)

section
variable {P D : Sub} (h : ∀ s, Bal C pick takers 0 (P.parse s) (R.occurs pick))
  (h' : ∀ s, Bal C pick takers 0 (D.parse s) (R.occurs pick))
include h

theorem exactlyLoop_bal (T : Ty) (o : Span) (n i : Nat) (s : Span) (v : Val) :
    Bal C pick takers (v.occurs pick) (exactlyLoop T P o n i s v) (R.occurs pick) := by
  induction n generalizing i s v with
  | zero => exact Bal.pure (build_occurs _ _)
  | succ n ih =>
    unfold exactlyLoop
    refine Bal.bind (parse_bal h _ _) fun r => ?_
    split
    · exact Bal.pure (by simp)
    · exact Bal.bind (builderArrayAssign_bal _ _ _) fun w => ih _ _ _

theorem oneOrMoreLoop_bal (T : Ty) (k : Nat) (b : Bool) (s : Span) (v : Val) :
    Bal C pick takers (v.occurs pick) (oneOrMoreLoop T P k b s v) (fun x => x.2.2.occurs pick) := by
  induction k generalizing b s v with
  | zero => exact Bal.diverge
  | succ k ih =>
    unfold oneOrMoreLoop
    refine Bal.bind (parse_bal h _ _) fun r => ?_
    dsimp only
    split
    · exact Bal.pure (by dsimp only; omega)
    · exact Bal.bind (builderInsertBack_bal _ _) fun w => ih _ _ _

theorem zeroOrMoreLoop_bal (T : Ty) (k : Nat) (s : Span) (v : Val) :
    Bal C pick takers (v.occurs pick) (zeroOrMoreLoop T P k s v) (fun x => x.2.occurs pick) := by
  induction k generalizing s v with
  | zero => exact Bal.diverge
  | succ k ih =>
    unfold zeroOrMoreLoop
    refine Bal.bind (parse_bal h _ _) fun r => ?_
    dsimp only
    split
    · exact Bal.pure (by dsimp only; omega)
    · exact Bal.bind (builderInsertBack_bal _ _) fun w => ih _ _

omit h in
theorem delimitRecordP_bal (T tp td : Ty) (v : Val) (r : R) :
    Bal C pick takers (v.occurs pick + r.occurs pick) (delimitRecordP T tp td v r) (fun v => v.occurs pick) := by
  unfold delimitRecordP
  split
  · split
    · exact builderInsertBack_bal _ _
    · exact builderInsertBackFirst_bal _ _
  · exact Bal.pure (by omega)

omit h in
theorem delimitRecordD_bal (T tp td : Ty) (v : Val) (r d : R) :
    Bal C pick takers (v.occurs pick + d.occurs pick) (delimitRecordD T tp td v r d) (fun v => v.occurs pick) := by
  unfold delimitRecordD
  split
  · split
    · split
      · exact builderInsertBack_bal _ _
      · exact builderInsertBackSecond_bal _ _
    · exact Bal.pure (by omega)
  · exact Bal.pure (by omega)

include h' in
theorem delimitLoop_bal (T tp td : Ty) (k : Nat) (r : R) (s : Span) (v : Val) :
    Bal C pick takers (v.occurs pick + r.occurs pick) (delimitLoop T tp td P D k r s v) (fun x => x.2.occurs pick) := by
  induction k generalizing r s v with
  | zero => exact Bal.diverge
  | succ k ih =>
    unfold delimitLoop
    split
    · exact Bal.pure (by dsimp only; omega)
    · dsimp only
      refine Bal.bind (delimitRecordP_bal _ _ _ _ _) fun w => Bal.bind (parse_bal h' _ _) fun d => ?_
      split
      · exact Bal.pure (by dsimp only; omega)
      · refine Bal.bind (parse_bal h _ _) fun r' => ?_
        exact Bal.bind (((delimitRecordD_bal T tp td w r' d).frame (r'.occurs pick)).mono (by omega)
          (fun a => Nat.le_refl _)) fun w' => ih _ _ _

end

theorem convertResult_bal (H : C.MakesNo pick) (src dst : Ty) (r : R) :
    Bal C pick takers (r.occurs pick) (convertResult C src dst r) (R.occurs pick) := by
  unfold convertResult
  split
  · exact Bal.pure (Nat.le_refl _)
  · split
    · exact Bal.fail
    · split
      · rename_i g hg
        refine Bal.pure ?_
        have : (g r.val).occurs pick ≤ (Val.opt r.val).occurs pick := by
          unfold fromOptional at hg
          split at hg
          · cases hg; exact Nat.le_refl _
          · exact H.convOpt _ _ _ _ hg
        refine Nat.le_trans this ?_
        unfold R.occurs
        cases r.val <;> simp [Val.occurs]
      · split
        · exact Bal.pure (Nat.le_refl _)
        · rename_i v hv
          refine Bal.bind ((convert_bal v H src dst 0).mono (c' := r.occurs pick) (by simp [R.occurs, hv])
            (w' := fun w => w.occurs pick) (by simp)) fun w => Bal.pure (by simp [R.occurs])

theorem step_bal (H : C.MakesNo pick) {rec : Parser α → Sub} {k : Nat} (hq : ∀ q, LookQuiet C (rec q))
    (h : ∀ q, NotFilters C takers q → ∀ s, Bal C pick takers 0 ((rec q).parse s) (R.occurs pick)) (p : Parser α)
    (hp : NotFilters C takers p) (s : Span) : Bal C pick takers 0 ((step C rec k p).parse s) (R.occurs pick) := by
  have hfc := failureCondition_closed (C := C) silent_closed
  have hadv := advance_closed (C := C) silent_closed
  have hsub := subspan_closed silent_closed (mem := C.mem)
  have hbasic : ∀ b s, Bal C pick takers 0 (parseBasic C b s) (R.occurs pick) := by
    intro b s
    refine bal_silent (hfc b s) fun c => ?_
    split
    · exact Bal.pure (by simp)
    · exact bal_silent (hadv _ _) fun _ => Bal.pure (by simp)
  have hjr : ∀ b k s r, Silent _ (joinRepeatLoop C b k s r) := by
    intro b k
    induction k with
    | zero => intro s r; exact silent_closed.diverge _
    | succ k ih => intro s r; unfold joinRepeatLoop; closed silent_closed
  have hje : ∀ b s0 n s r, Bal C pick takers 0 (joinExactlyLoop C b s0 n s r) (R.occurs pick) := by
    intro b s0 n
    induction n with
    | zero => intro s r; exact Bal.pure (by simp)
    | succ n ih =>
      intro s r
      unfold joinExactlyLoop
      refine bal_silent (hfc b s) fun c => ?_
      split
      · exact Bal.pure (by simp)
      · exact bal_silent (hsub _ _) fun _ => ih _ _
  have hjoin : ∀ q, NotFilters C takers q → ∀ s, Bal C pick takers 0 (parseJoin C (rec q) s) (R.occurs pick) := by
    intro q hnq s
    unfold parseJoin
    refine Bal.bind ((h q hnq s).mono (Nat.le_refl _) (w' := fun _ => 0) (by simp)) fun r => ?_
    split
    · refine bal_silent ((joinPieces_closed silent_closed).2.2 r) fun j => ?_
      split <;> exact Bal.pure (by simp)
    · exact Bal.pure (by simp)
  cases p with
  | anyOf | noneOf | allOf | anything => exact hbasic _ _
  | epsilon => exact Bal.pure (by simp)
  | choice ps =>
    simp only [step, parseChoice]
    refine Bal.bind ((builderInit_bal H _ 0).mono (Nat.le_refl _) (w' := fun v => v.occurs pick) (by simp)) fun v =>
      Bal.bind (foldOr_bal _ ⟨s, v⟩ fun e he st => ?_) fun x => ?_
    · obtain ⟨q, hm, hq'⟩ := mkElems_mem he
      exact execute_bal H e st (by rw [hq']; exact hq q) (by rw [hq']; exact h q (hp.child (.choice hm)))
    · obtain ⟨b, st⟩ := x
      cases b
      · exact Bal.pure (by simp)
      · exact Bal.pure (build_occurs _ _)
  | sequence ps =>
    simp only [step, parseSequence]
    refine Bal.bind ((builderInit_bal H _ 0).mono (Nat.le_refl _) (w' := fun v => v.occurs pick) (by simp)) fun v =>
      Bal.bind (foldAnd_bal _ ⟨s, v⟩ fun e he st => ?_) fun x => ?_
    · obtain ⟨q, hm, hq'⟩ := mkElems_mem he
      exact execute_bal H e st (by rw [hq']; exact hq q) (by rw [hq']; exact h q (hp.child (.sequence hm)))
    · obtain ⟨b, st⟩ := x
      cases b
      · exact Bal.pure (by simp)
      · exact Bal.pure (build_occurs _ _)
  | maybe p =>
    simp only [step, parseMaybe]
    refine Bal.bind ((builderInit_bal H _ 0).mono (Nat.le_refl _) (w' := fun v => v.occurs pick) (by simp)) fun v =>
      Bal.bind (parse_bal (h p (hp.child .maybe)) s _) fun r => Bal.bind (w := fun v => v.occurs pick) ?_ fun w => ?_
    · split
      · exact builderEmplace_bal _ _
      · exact Bal.pure (by omega)
    · exact Bal.pure (build_occurs _ _)
  | exactly p n =>
    simp only [step, parseExactly]
    exact Bal.bind ((builderInit_bal H _ 0).mono (Nat.le_refl _) (w' := fun v => v.occurs pick) (by simp)) fun v =>
      exactlyLoop_bal (h p (hp.child .exactly)) _ _ _ _ _ _
  | oneOrMore p =>
    simp only [step, parseOneOrMore]
    refine Bal.bind ((builderInit_bal H _ 0).mono (Nat.le_refl _) (w' := fun v => v.occurs pick) (by simp)) fun v =>
      Bal.bind (oneOrMoreLoop_bal (h p (hp.child .oneOrMore)) _ _ _ _ _) fun x => ?_
    obtain ⟨b, s', w⟩ := x
    cases b
    · exact Bal.pure (by simp)
    · exact Bal.pure (build_occurs _ _)
  | zeroOrMore p =>
    simp only [step, parseZeroOrMore]
    exact Bal.bind ((builderInit_bal H _ 0).mono (Nat.le_refl _) (w' := fun v => v.occurs pick) (by simp)) fun v =>
      Bal.bind (zeroOrMoreLoop_bal (h p (hp.child .zeroOrMore)) _ _ _ _) fun x => Bal.pure (build_occurs _ _)
  | delimit p d =>
    simp only [step, parseDelimit]
    refine Bal.bind ((builderInit_bal H _ 0).mono (Nat.le_refl _) (w' := fun v => v.occurs pick) (by simp)) fun v =>
      Bal.bind (parse_bal (h p (hp.child .delimit)) _ _) fun r => ?_
    split
    · exact Bal.pure (by simp)
    · exact Bal.bind (delimitLoop_bal (h p (hp.child .delimit)) (h d (hp.child .delimiter)) _ _ _ _ _ _ _) fun x =>
        Bal.pure (build_occurs _ _)
  | ignore p => exact (look_bal (hq p) s 0).mono (Nat.le_refl _) (by simp)
  | complete p =>
    simp only [step, parseComplete]
    refine Bal.bind (h p (hp.child .complete) s) fun r => ?_
    split
    · exact Bal.pure (by simp)
    · exact Bal.pure (Nat.le_refl _)
  | join p =>
    have hn := hp.child .join
    simp only [step]
    unfold semJoin
    split
    all_goals first
      | exact hjoin _ hn s
      | (split
         · first
           | exact hje _ _ _ _ _
           | (simp only [parseJoinMaybeBasic]
              refine bal_silent (hfc _ s) fun c => ?_
              split
              · exact Bal.pure (by simp)
              · exact bal_silent (hadv _ _) fun _ => Bal.pure (by simp))
           | (simp only [parseJoinOneOrMoreBasic]
              refine bal_silent (hfc _ s) fun c => ?_
              split
              · exact Bal.pure (by simp)
              · exact bal_silent (hsub _ _) fun _ => bal_silent (hjr _ _ _ _) fun _ => Bal.pure (by simp))
           | (simp only [parseJoinZeroOrMoreBasic]
              exact bal_silent (hjr _ _ _ _) fun _ => Bal.pure (by simp))
         · exact hjoin _ hn s)
  | map p f =>
    simp only [step, parseMap]
    refine Bal.bind (h p (hp.child .map) s) fun r => ?_
    split
    · exact Bal.pure (by simp)
    · refine Bal.bind (argVals_bal _ _) fun args => Bal.bind (invoke_bal f args) fun v => ?_
      split
      · exact Bal.pure (by simp)
      · exact Bal.pure (by simp [R.occurs, R.success])
  | filter p f =>
    simp only [step, parseFilter]
    refine Bal.bind (h p (hp.child .filter) s) fun r => ?_
    split
    · exact Bal.pure (by simp)
    · refine bal_silent ?_ fun args => Bal.bind (invoke_shown (hp p f .refl) args _) fun v => ?_
      · unfold argVals
        have := deref_closed silent_closed r
        closed silent_closed
      · split
        · exact Bal.pure (Nat.le_refl _)
        · exact Bal.pure (by simp)
  | named p n => exact h p (hp.child .named) s
  | custom k =>
    simp only [step, parseCustom]
    exact Bal.bind (h _ (hp.child .custom) s) fun r => convertResult_bal H _ _ _

theorem sem_bal (H : C.MakesNo pick) (n : Nat) (p : Parser α) (hp : NotFilters C takers p) (s : Span) :
    Bal C pick takers 0 ((sem C n p).parse s) (R.occurs pick) := by
  induction n generalizing p s with
  | zero => exact Bal.diverge
  | succ n ih => exact step_bal H (fun q => sem_quiet n q) (fun q hq s => ih q hq s) p hp s

theorem Parse_bal (H : C.MakesNo pick) (p : Parser α) (hp : NotFilters C takers p) (s : Span) :
    Bal C pick takers 0 (Parse C p s) (R.occurs pick) :=
  Bal.lim ((sem_lim p).parse s) fun n => sem_bal H n p hp s

end

end Tok3n
