import Verif.Spec.Effort
import Verif.Proof.Stack
/-
Proofs for C65: counting calls does not change what happens, and bounds for the count.
-/

namespace Tok3n

variable {α β A B : Type}

/-! ### What the library's own steps log -/

/-- The run logs at most `b` calls, none of them a mark. -/
structure Logs (m : Run A) (b : Nat) : Prop where of ::
  on : ∀ l r, m = .done l r → l.length ≤ b ∧ ∀ c ∈ l, c.isMark = false

theorem Logs.diverge {b : Nat} : Logs (M.diverge : Run A) b := .of fun _ _ h => by cases h
theorem Logs.pure {a : A} {b : Nat} : Logs (M.pure a) b := .of fun l r h => by
  cases h; simp
theorem Logs.fail {e : Err} {b : Nat} : Logs (M.fail e : Run A) b := .of fun l r h => by
  cases h; simp

theorem Logs.mono {m : Run A} {b b' : Nat} (h : Logs m b) (hb : b ≤ b') : Logs m b' := .of fun l r hm =>
  ⟨Nat.le_trans (h.on l r hm).1 hb, (h.on l r hm).2⟩

theorem Logs.bind {m : Run A} {f : A → Run B} {b b' : Nat} (h : Logs m b) (hf : ∀ a, Logs (f a) b') :
    Logs (m.bind f) (b + b') := by
  refine .of fun l r hm => ?_
  rcases hmm : m with _ | ⟨l1, a | e⟩
  · rw [hmm] at hm; cases hm
  · rw [hmm] at hm
    obtain ⟨l2, h2, rfl⟩ := M.after_eq_done.1 hm
    have h1 := h.on _ _ hmm
    have h3 := (hf a).on _ _ h2
    refine ⟨by simp; omega, fun c hc => ?_⟩
    rcases List.mem_append.1 hc with hc | hc
    · exact h1.2 c hc
    · exact h3.2 c hc
  · rw [hmm] at hm
    simp only [M.err_bind, M.done.injEq] at hm
    obtain ⟨rfl, -⟩ := hm
    have h1 := h.on _ _ hmm
    exact ⟨by omega, h1.2⟩

theorem Logs.bind0 {m : Run A} {f : A → Run B} {b : Nat} (h : Logs m 0) (hf : ∀ a, Logs (f a) b) :
    Logs (m.bind f) b := (h.bind hf).mono (by omega)

theorem Logs.ite {c : Prop} [Decidable c] {m m' : Run A} {b : Nat} (h : Logs m b) (h' : Logs m' b) :
    Logs (if c then m else m') b := by split <;> assumption

theorem Logs.ofOption {e : Err} {o : Option A} {b : Nat} : Logs (M.ofOption e o : Run A) b := by
  cases o
  · exact Logs.fail
  · exact Logs.pure

theorem deref_logs (r : R) {b : Nat} : Logs r.deref b := by
  unfold R.deref; split
  · exact .pure
  · exact .fail

theorem builderInit_logs (C : Ctx α β) (T : Ty) : Logs (builderInit C T) 0 := .ofOption
theorem builderAssign_logs (T : Ty) (v : Val) (r : R) : Logs (builderAssign T v r) 0 := .ite .pure (deref_logs r)
theorem builderArrayAssign_logs (T : Ty) (v : Val) (i : Nat) (r : R) : Logs (builderArrayAssign T v i r) 0 := by
  unfold builderArrayAssign
  refine .ite .pure ?_
  split
  · exact .bind0 (deref_logs r) fun _ => .ite .pure .fail
  · exact .fail
theorem builderGetAssign_logs (T : Ty) (v : Val) (i : Nat) (r : R) : Logs (builderGetAssign T v i r) 0 := by
  unfold builderGetAssign
  refine .ite .pure ?_
  split
  · exact .bind0 (deref_logs r) fun _ => .ite .pure .fail
  · exact .fail
theorem builderEmplace_logs (T : Ty) (v : Val) (r : R) : Logs (builderEmplace T v r) 0 := by
  unfold builderEmplace
  refine .ite .pure ?_
  split
  · exact .bind0 (deref_logs r) fun _ => .pure
  · exact .fail
theorem convert_logs (C : Ctx α β) (a b : Ty) (v : Val) : Logs (convert C a b v) 0 := by
  unfold convert
  refine .ite .pure ?_
  split
  · exact .pure
  · exact .fail
theorem builderEmplaceAt_logs (C : Ctx α β) (T : Ty) (i : Nat) (t : Ty) (v : Val) (r : R) :
    Logs (builderEmplaceAt C T i t v r) 0 := by
  unfold builderEmplaceAt
  split
  · exact .pure
  · split
    · exact .bind0 (deref_logs r) fun _ => .bind0 (convert_logs C _ _ _) fun _ => .pure
    · exact .fail
  · exact .fail
theorem builderInsertBack_logs (T : Ty) (v : Val) (r : R) : Logs (builderInsertBack T v r) 0 := by
  unfold builderInsertBack
  refine .ite .pure ?_
  split
  · exact .bind0 (deref_logs r) fun _ => .pure
  · exact .fail
theorem builderInsertBackFirst_logs (T : Ty) (v : Val) (r : R) : Logs (builderInsertBackFirst T v r) 0 := by
  unfold builderInsertBackFirst
  refine .ite .pure ?_
  split
  · exact .bind0 (deref_logs r) fun _ => .pure
  · exact .fail
theorem builderInsertBackSecond_logs (T : Ty) (v : Val) (r : R) : Logs (builderInsertBackSecond T v r) 0 := by
  unfold builderInsertBackSecond
  refine .ite .pure ?_
  split
  · exact .bind0 (deref_logs r) fun _ => .pure
  · exact .fail
theorem delimitRecordP_logs (T tp td : Ty) (v : Val) (r : R) : Logs (delimitRecordP T tp td v r) 0 :=
  .ite (.ite (builderInsertBack_logs T v r) (builderInsertBackFirst_logs T v r)) .pure
theorem delimitRecordD_logs (T tp td : Ty) (v : Val) (r d : R) : Logs (delimitRecordD T tp td v r d) 0 :=
  .ite (.ite (.ite (builderInsertBack_logs T v d) (builderInsertBackSecond_logs T v d)) .pure) .pure

theorem Quiet.logs {m : Run A} {Q : A → Prop} {E : Err → Prop} (h : Quiet m Q E) : Logs m 0 := .of fun l r hm => by
  have := h.log hm; subst this; simp

theorem failureCondition_logs (C : Ctx α β) (b : BasicP α) (s : Span) : Logs (failureCondition C b s) 0 :=
  (failureCondition_quiet_ub C b s).logs
theorem advance_logs (C : Ctx α β) (s : Span) (n : Nat) : Logs (advance C s n) 0 := (advance_quiet_ub C s n).logs
theorem subspan_logs (C : Ctx α β) (s : Span) (n : Nat) : Logs (s.subspan C.mem n) 0 := (subspan_quiet_ub C s n).logs

theorem parseBasic_logs (C : Ctx α β) (b : BasicP α) (s : Span) : Logs (parseBasic C b s) 0 :=
  .bind0 (failureCondition_logs C b s) fun _ => .ite .pure (.bind0 (advance_logs C s _) fun _ => .pure)
theorem lookBasic_logs (C : Ctx α β) (b : BasicP α) (s : Span) : Logs (lookBasic C b s) 0 :=
  .bind0 (failureCondition_logs C b s) fun _ => .ite .pure (.bind0 (advance_logs C s _) fun _ => .pure)

theorem liftCall_logs (r : Except Nat Val) {b : Nat} : Logs (liftCall r) b := by
  cases r
  · exact .fail
  · exact .pure
theorem log_logs {c : Call} (h : c.isMark = false) : Logs (M.log c : Run Unit) 1 := .of fun l r hm => by
  cases hm; simpa using h
theorem argVals_logs (t : Ty) (r : R) : Logs (argVals t r) 0 :=
  .ite .pure (.bind0 (deref_logs r) fun _ => .pure)

theorem invoke_logs (C : Ctx α β) (f : Fn) (args : List Val) : Logs (invoke C f args) 1 := by
  induction f generalizing args with
  | user k => rw [invoke]; exact Logs.bind (b' := 0) (log_logs rfl) fun _ => liftCall_logs _
  | const k => rw [invoke]; exact Logs.bind (b' := 0) (log_logs rfl) fun _ => .pure
  | construct t => rw [invoke]; exact Logs.bind (b' := 0) (log_logs rfl) fun _ => liftCall_logs _
  | deflt t => rw [invoke]; exact Logs.bind (b' := 0) (log_logs rfl) fun _ => .ofOption
  | apply f ih =>
    unfold invoke
    split
    · split
      · exact ih _
      · exact .fail
    · exact .fail

theorem ptrAdd_logs (mem : Mem β) (p : Ptr) (n : Nat) : Logs (p.add mem n : Run Ptr) 0 := (ptrAdd_quiet mem p n).logs

theorem adjacent_logs (C : Ctx α β) (a b : Span) : Logs (adjacent C a b) 0 := by
  unfold adjacent
  split
  · refine .bind0 (ptrAdd_logs _ _ _) fun _ => ?_
    split
    · exact .ite .pure .pure
    · exact .pure
    · exact .pure
  · split
    · exact .ite .pure .fail
    · exact .pure
    · exact .fail
  · split
    · exact .ite .pure .pure
    · exact .pure
    · exact .pure

theorem tryJoinSpan_logs (C : Ctx α β) (j : Option Span) (o : Span) : Logs (tryJoinSpan C j o) 0 := by
  unfold tryJoinSpan
  refine .ite .pure ?_
  split
  · exact .pure
  · exact .bind0 (adjacent_logs C _ _) fun _ => .ite .pure .pure

mutual
theorem tryJoin_logs (C : Ctx α β) (j : Option Span) : ∀ v : Val, Logs (tryJoin C j v) 0
  | .span s => by rw [tryJoin]; exact tryJoinSpan_logs C j s
  | .vec vs => by rw [tryJoin]; exact tryJoins_logs C j vs
  | .arr vs => by rw [tryJoin]; exact tryJoins_logs C j vs
  | .opt none => by rw [tryJoin]; exact .pure
  | .opt (some v) => by rw [tryJoin]; exact tryJoin_logs C j v
  | .tup vs => by rw [tryJoin]; exact tryJoins_logs C j vs
  | .user k t vs => by
    rw [tryJoin]
    split
    · exact tryJoinSpan_logs C j _
    · exact .fail
  | .unit => by rw [tryJoin]; exact .fail
  | .var .. => by rw [tryJoin]; exact .fail
  | .pair .. => by rw [tryJoin]; exact .fail
theorem tryJoins_logs (C : Ctx α β) (j : Option Span) : ∀ vs : List Val, Logs (tryJoins C j vs) 0
  | [] => by rw [tryJoins]; exact .pure
  | v :: vs => by
    rw [tryJoins]
    exact .bind0 (tryJoin_logs C j v) fun x => .ite (tryJoins_logs C x.2 vs) .pure
end

theorem joinExecutor_logs (C : Ctx α β) (r : R) : Logs (joinExecutor C r) 0 :=
  .bind0 (deref_logs r) fun _ => .bind0 (tryJoin_logs C _ _) fun _ => .ite .pure .pure

theorem convertResult_logs (C : Ctx α β) (a b : Ty) (r : R) : Logs (convertResult C a b r) 0 := by
  unfold convertResult
  refine .ite .pure (.ite .fail ?_)
  split
  · exact .pure
  · split
    · exact .pure
    · exact .bind0 (convert_logs C _ _ _) fun _ => .pure

theorem joinExactlyLoop_logs (C : Ctx α β) (b : BasicP α) (o : Span) (n : Nat) (s r : Span) :
    Logs (joinExactlyLoop C b o n s r) 0 := by
  induction n generalizing s r with
  | zero => exact .pure
  | succ n ih =>
    exact .bind0 (failureCondition_logs C b s) fun _ => .ite .pure (.bind0 (subspan_logs C s _) fun _ => ih _ _)

theorem lookJoinExactlyLoop_logs (C : Ctx α β) (b : BasicP α) (o : Span) (n : Nat) (s : Span) :
    Logs (lookJoinExactlyLoop C b o n s) 0 := by
  induction n generalizing s with
  | zero => exact .pure
  | succ n ih =>
    exact .bind0 (failureCondition_logs C b s) fun _ => .ite .pure (.bind0 (subspan_logs C s _) fun _ => ih _)

theorem joinRepeatLoop_logs (C : Ctx α β) (b : BasicP α) (k : Nat) (s r : Span) :
    Logs (joinRepeatLoop C b k s r) 0 := by
  induction k generalizing s r with
  | zero => exact .diverge
  | succ k ih =>
    exact .bind0 (failureCondition_logs C b s) fun _ => .ite .pure (.bind0 (subspan_logs C s _) fun _ => ih _ _)

theorem lookJoinRepeatLoop_logs (C : Ctx α β) (b : BasicP α) (k : Nat) (s : Span) :
    Logs (lookJoinRepeatLoop C b k s) 0 := by
  induction k generalizing s with
  | zero => exact .diverge
  | succ k ih =>
    exact .bind0 (failureCondition_logs C b s) fun _ => .ite .pure (.bind0 (subspan_logs C s _) fun _ => ih _)

/-! ### Taking the marks away -/

/-- a run without the marks in its log -/
def erase : Run A → Run A
  | .diverge => .diverge
  | .done l r => .done (unmarked l) r

@[simp] theorem unmarked_append (l l' : List Call) : unmarked (l ++ l') = unmarked l ++ unmarked l' := List.filter_append ..

theorem Logs.erase {m : Run A} {b : Nat} (h : Logs m b) : erase m = m := by
  rcases hm : m with _ | ⟨l, r⟩
  · rfl
  · show M.done (unmarked l) r = M.done l r
    congr 1
    refine List.filter_eq_self.2 fun c hc => ?_
    simp [(h.on _ _ hm).2 c hc]

theorem erase_after (l : List Call) (m : Run A) : erase (m.after l) = (erase m).after (unmarked l) := by
  cases m <;> simp [erase]

theorem erase_bind (m : Run A) (f : A → Run B) : erase (m.bind f) = (erase m).bind fun a => erase (f a) := by
  rcases m with _ | ⟨l, a | e⟩
  · rfl
  · rw [M.ok_bind, erase_after]; rfl
  · rfl

/-- `m'` is `m` without the marks -/
def Erases (m m' : Run A) : Prop := erase m = m'

theorem Erases.native {m : Run A} {b : Nat} (h : Logs m b) : Erases m m := h.erase
theorem Erases.bind {m m' : Run A} {f f' : A → Run B} (h : Erases m m') (hf : ∀ a, Erases (f a) (f' a)) :
    Erases (m.bind f) (m'.bind f') := by
  unfold Erases at *
  rw [erase_bind, h]
  exact M.bind_congr hf
theorem Erases.ite {c : Prop} [Decidable c] {m m' n n' : Run A} (h : Erases m m') (h' : Erases n n') :
    Erases (if c then m else n) (if c then m' else n') := by split <;> assumption

theorem Erases.pure (a : A) : Erases (M.pure a) (M.pure a) := .native (b := 0) .pure
theorem Erases.diverge : Erases (M.diverge : Run A) M.diverge := rfl

/-- the functions of a parser without the marks -/
structure ErasesSub (P P' : Sub) : Prop where
  parse : ∀ s, Erases (P.parse s) (P'.parse s)
  look : ∀ s, Erases (P.look s) (P'.look s)

section
variable {C : Ctx α β} {P P' D D' : Sub}

theorem exactlyLoop_erases (h : ErasesSub P P') (T : Ty) (o : Span) (n i : Nat) (s : Span) (v : Val) :
    Erases (exactlyLoop T P o n i s v) (exactlyLoop T P' o n i s v) := by
  induction n generalizing i s v with
  | zero => exact .pure _
  | succ n ih =>
    exact .bind (h.parse s) fun r => .ite (.pure _) (.bind (.native (builderArrayAssign_logs T v i r)) fun w => ih _ _ _)

theorem lookExactlyLoop_erases (h : ErasesSub P P') (o : Span) (n : Nat) (s : Span) :
    Erases (lookExactlyLoop P o n s) (lookExactlyLoop P' o n s) := by
  induction n generalizing s with
  | zero => exact .pure _
  | succ n ih => exact .bind (h.look s) fun r => .ite (.pure _) (ih _)

theorem oneOrMoreLoop_erases (h : ErasesSub P P') (T : Ty) (k : Nat) (b : Bool) (s : Span) (v : Val) :
    Erases (oneOrMoreLoop T P k b s v) (oneOrMoreLoop T P' k b s v) := by
  induction k generalizing b s v with
  | zero => exact .diverge
  | succ k ih =>
    exact .bind (h.parse s) fun r => .ite (.pure _) (.bind (.native (builderInsertBack_logs T v r)) fun w => ih _ _ _)

theorem lookOneOrMoreLoop_erases (h : ErasesSub P P') (k : Nat) (b : Bool) (s : Span) :
    Erases (lookOneOrMoreLoop P k b s) (lookOneOrMoreLoop P' k b s) := by
  induction k generalizing b s with
  | zero => exact .diverge
  | succ k ih => exact .bind (h.look s) fun r => .ite (.pure _) (ih _ _)

theorem zeroOrMoreLoop_erases (h : ErasesSub P P') (T : Ty) (k : Nat) (s : Span) (v : Val) :
    Erases (zeroOrMoreLoop T P k s v) (zeroOrMoreLoop T P' k s v) := by
  induction k generalizing s v with
  | zero => exact .diverge
  | succ k ih =>
    exact .bind (h.parse s) fun r => .ite (.pure _) (.bind (.native (builderInsertBack_logs T v r)) fun w => ih _ _)

theorem lookZeroOrMoreLoop_erases (h : ErasesSub P P') (k : Nat) (s : Span) :
    Erases (lookZeroOrMoreLoop P k s) (lookZeroOrMoreLoop P' k s) := by
  induction k generalizing s with
  | zero => exact .diverge
  | succ k ih => exact .bind (h.look s) fun r => .ite (.pure _) (ih _)

theorem delimitLoop_erases (h : ErasesSub P P') (hd : ErasesSub D D') (T tp td : Ty) (k : Nat) (r : R) (s : Span)
    (v : Val) : Erases (delimitLoop T tp td P D k r s v) (delimitLoop T tp td P' D' k r s v) := by
  induction k generalizing r s v with
  | zero => exact .diverge
  | succ k ih =>
    refine .ite (.pure _) (.bind (.native (delimitRecordP_logs T tp td v r)) fun v => .bind (hd.parse _) fun d => ?_)
    refine .ite (.pure _) (.bind (h.parse _) fun r => ?_)
    exact .bind (.native (delimitRecordD_logs T tp td v r d)) fun v => ih _ _ _

theorem lookDelimitLoop_erases (h : ErasesSub P P') (hd : ErasesSub D D') (k : Nat) (r : R) (s : Span) :
    Erases (lookDelimitLoop P D k r s) (lookDelimitLoop P' D' k r s) := by
  induction k generalizing r s with
  | zero => exact .diverge
  | succ k ih =>
    exact .ite (.pure _) (.bind (hd.look _) fun d => .ite (.pure _) (.bind (h.look _) fun r => ih _ _))

theorem execute_erases (h : ErasesSub P P') (T : Ty) (u c : Bool) (t : Ty) (i : Option Nat) (st : Exec) :
    Erases (execute C T u c ⟨P, t, i⟩ st) (execute C T u c ⟨P', t, i⟩ st) := by
  cases i with
  | none => exact .bind (h.look _) fun r => .pure _
  | some i =>
    refine .bind (h.parse _) fun r => .ite (.pure _) (.bind (.native (b := 0) ?_) fun w => .pure _)
    exact .ite (builderAssign_logs ..) (.ite (builderEmplaceAt_logs ..) (builderGetAssign_logs ..))

/-- elements that differ in their functions only -/
inductive ErasesElems : List Elem → List Elem → Prop where
  | nil : ErasesElems [] []
  | cons {P P' t i es es'} : ErasesSub P P' → ErasesElems es es' → ErasesElems (⟨P, t, i⟩ :: es) (⟨P', t, i⟩ :: es')

theorem foldOr_erases {es es' : List Elem} (h : ErasesElems es es') (T : Ty) (u c : Bool) (st : Exec) :
    Erases (foldOr (execute C T u c) es st) (foldOr (execute C T u c) es' st) := by
  induction h generalizing st with
  | nil => exact .pure _
  | cons h _ ih => exact .bind (execute_erases h T u c _ _ st) fun x => .ite (.pure _) (ih _)

theorem foldAnd_erases {es es' : List Elem} (h : ErasesElems es es') (T : Ty) (u c : Bool) (st : Exec) :
    Erases (foldAnd (execute C T u c) es st) (foldAnd (execute C T u c) es' st) := by
  induction h generalizing st with
  | nil => exact .pure _
  | cons h _ ih => exact .bind (execute_erases h T u c _ _ st) fun x => .ite (ih _) (.pure _)

variable {rec rec' : Parser α → Sub}

theorem mkElems_erases (h : ∀ q, ErasesSub (rec q) (rec' q)) (ps : List (Parser α)) (is : List (Option Nat)) :
    ErasesElems (mkElems rec C ps is) (mkElems rec' C ps is) := by
  induction ps generalizing is with
  | nil => exact .nil
  | cons p ps ih =>
    cases is with
    | nil => exact .nil
    | cons i is => exact .cons (h p) (ih is)

theorem mkLookElems_erases (h : ∀ q, ErasesSub (rec q) (rec' q)) (ps : List (Parser α)) :
    ErasesElems (mkLookElems rec C ps) (mkLookElems rec' C ps) := by
  induction ps with
  | nil => exact .nil
  | cons p ps ih => exact .cons (h p) ih

theorem joinGeneric_erases (h : ErasesSub P P') : ErasesSub (joinGeneric C P) (joinGeneric C P') := by
  refine ⟨fun s => ?_, h.look⟩
  refine .bind (h.parse s) fun r => .ite (.native (b := 0) ?_) (.pure _)
  refine .bind0 (joinExecutor_logs C r) fun j => ?_
  cases j <;> exact .pure

theorem semJoin_erases (h : ∀ q, ErasesSub (rec q) (rec' q)) (k : Nat) (p : Parser α) :
    ErasesSub (semJoin C rec k p) (semJoin C rec' k p) := by
  cases p with
  | exactly q n =>
    simp only [semJoin]
    cases asBasic C q with
    | none => exact joinGeneric_erases (h _)
    | some b => exact ⟨fun s => .native (joinExactlyLoop_logs ..), fun s => .native (lookJoinExactlyLoop_logs ..)⟩
  | maybe q =>
    simp only [semJoin]
    cases asBasic C q with
    | none => exact joinGeneric_erases (h _)
    | some b =>
      refine ⟨fun s => .native (b := 0) ?_, fun s => .native (b := 0) ?_⟩ <;>
      exact .bind0 (failureCondition_logs ..) fun _ => .ite .pure (.bind0 (advance_logs ..) fun _ => .pure)
  | oneOrMore q =>
    simp only [semJoin]
    cases asBasic C q with
    | none => exact joinGeneric_erases (h _)
    | some b =>
      refine ⟨fun s => .native (b := 0) ?_, fun s => .native (b := 0) ?_⟩
      · exact .bind0 (failureCondition_logs ..) fun _ => .ite .pure
          (.bind0 (subspan_logs ..) fun _ => .bind0 (joinRepeatLoop_logs ..) fun _ => .pure)
      · exact .bind0 (failureCondition_logs ..) fun _ => .ite .pure
          (.bind0 (subspan_logs ..) fun _ => .bind0 (lookJoinRepeatLoop_logs ..) fun _ => .pure)
  | zeroOrMore q =>
    simp only [semJoin]
    cases asBasic C q with
    | none => exact joinGeneric_erases (h _)
    | some b =>
      refine ⟨fun s => .native (b := 0) ?_, fun s => .native (b := 0) ?_⟩
      · exact .bind0 (joinRepeatLoop_logs ..) fun _ => .pure
      · exact .bind0 (lookJoinRepeatLoop_logs ..) fun _ => .pure
  | _ => exact joinGeneric_erases (h _)

theorem step_erases (h : ∀ q, ErasesSub (rec q) (rec' q)) (k : Nat) (p : Parser α) :
    ErasesSub (step C rec k p) (step C rec' k p) := by
  cases p with
  | anyOf _ | noneOf _ | allOf _ | anything =>
    exact ⟨fun s => .native (parseBasic_logs ..), fun s => .native (lookBasic_logs ..)⟩
  | epsilon => exact ⟨fun s => .pure _, fun s => .pure _⟩
  | choice ps =>
    refine ⟨fun s => ?_, fun s => ?_⟩
    · exact .bind (.native (builderInit_logs ..)) fun v => .bind (foldOr_erases (mkElems_erases h _ _) ..) fun x =>
        .ite (.pure _) (.pure _)
    · exact .bind (foldOr_erases (mkLookElems_erases h _) ..) fun x => .ite (.pure _) (.pure _)
  | sequence ps =>
    refine ⟨fun s => ?_, fun s => ?_⟩
    · exact .bind (.native (builderInit_logs ..)) fun v => .bind (foldAnd_erases (mkElems_erases h _ _) ..) fun x =>
        .ite (.pure _) (.pure _)
    · exact .bind (foldAnd_erases (mkLookElems_erases h _) ..) fun x => .ite (.pure _) (.pure _)
  | maybe p =>
    refine ⟨fun s => ?_, fun s => ?_⟩
    · refine .bind (.native (builderInit_logs ..)) fun v => .bind ((h p).parse s) fun r => ?_
      exact .bind (.ite (.native (builderEmplace_logs ..)) (.pure _)) fun w => .pure _
    · exact .bind ((h p).look s) fun r => .ite (.pure _) (.pure _)
  | exactly p n =>
    refine ⟨fun s => ?_, fun s => lookExactlyLoop_erases (h p) ..⟩
    exact .bind (.native (builderInit_logs ..)) fun v => exactlyLoop_erases (h p) ..
  | oneOrMore p =>
    refine ⟨fun s => ?_, fun s => ?_⟩
    · exact .bind (.native (builderInit_logs ..)) fun v => .bind (oneOrMoreLoop_erases (h p) ..) fun x =>
        .ite (.pure _) (.pure _)
    · exact .bind (lookOneOrMoreLoop_erases (h p) ..) fun x => .ite (.pure _) (.pure _)
  | zeroOrMore p =>
    refine ⟨fun s => ?_, fun s => ?_⟩
    · exact .bind (.native (builderInit_logs ..)) fun v => .bind (zeroOrMoreLoop_erases (h p) ..) fun x => .pure _
    · exact .bind (lookZeroOrMoreLoop_erases (h p) ..) fun x => .pure _
  | delimit p d =>
    refine ⟨fun s => ?_, fun s => ?_⟩
    · exact .bind (.native (builderInit_logs ..)) fun v => .bind ((h p).parse s) fun r =>
        .ite (.pure _) (.bind (delimitLoop_erases (h p) (h d) ..) fun x => .pure _)
    · exact .bind ((h p).look s) fun r => .ite (.pure _) (.bind (lookDelimitLoop_erases (h p) (h d) ..) fun x => .pure _)
  | ignore p => exact ⟨(h p).look, (h p).look⟩
  | complete p =>
    exact ⟨fun s => .bind ((h p).parse s) fun _ => .ite (.pure _) (.pure _),
      fun s => .bind ((h p).look s) fun _ => .ite (.pure _) (.pure _)⟩
  | join p => exact semJoin_erases h k p
  | map p f =>
    refine ⟨fun s => ?_, (h p).look⟩
    refine .bind ((h p).parse s) fun r => .ite (.pure _) (.native (b := 1) ?_)
    exact .bind0 (argVals_logs ..) fun _ => Logs.bind (b' := 0) (invoke_logs ..) fun _ => .ite .pure .pure
  | filter p f =>
    refine ⟨fun s => ?_, (h p).look⟩
    refine .bind ((h p).parse s) fun r => .ite (.pure _) (.native (b := 1) ?_)
    exact .bind0 (argVals_logs ..) fun _ => Logs.bind (b' := 0) (invoke_logs ..) fun _ => .ite .pure .pure
  | named p _ => exact h p
  | custom j =>
    refine ⟨fun s => ?_, (h _).look⟩
    exact .bind ((h _).parse s) fun r => .native (convertResult_logs ..)

theorem marked_erases (h : ErasesSub P P') : ErasesSub (marked P) P' := by
  have e : ∀ m : Run R, erase ((M.log callMark : Run Unit).bind fun _ => m) = erase m := by
    intro m
    rw [erase_bind]
    show M.bind (.done (unmarked [callMark]) (.ok ())) _ = _
    simp [unmarked, callMark, Call.isMark]
  exact ⟨fun s => (e _).trans (h.parse s), fun s => (e _).trans (h.look s)⟩

theorem counted_erases (n : Nat) (p : Parser α) : ErasesSub (counted C n p) (sem C n p) := by
  induction n generalizing p with
  | zero => exact ⟨fun _ => .diverge, fun _ => .diverge⟩
  | succ n ih => exact marked_erases (step_erases ih n p)

end

end Tok3n
