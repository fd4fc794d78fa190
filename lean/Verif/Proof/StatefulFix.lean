import Verif.Proof.StatefulTyping
/-
Runs with stateful callbacks are monotone in the fuel, and their limits satisfy the
equations of the C++ code without fuel: the counterpart of `Proof/Fix.lean`.
-/

namespace Tok3n.Stateful

variable {σ α β A B : Type}

/-- `m` is `m'` with possibly less fuel, in every state -/
def SRun.le (m m' : SRun σ A) : Prop := ∀ st, (m st).le (m' st)

theorem SRun.le_refl (m : SRun σ A) : m.le m := fun _ => M.le_refl _
theorem SRun.le_trans {a b c : SRun σ A} (h : a.le b) (h' : b.le c) : a.le c :=
  fun st => M.le_trans (h st) (h' st)
theorem SRun.diverge_le (m : SRun σ A) : (SRun.diverge : SRun σ A).le m := fun _ => M.diverge_le _
theorem SRun.bind_le {m m' : SRun σ A} {f f' : A → SRun σ B} (h : m.le m') (hf : ∀ a, (f a).le (f' a)) :
    (m >>= f).le (m' >>= f') := fun st => M.bind_le (h st) fun x => hf x.1 x.2
theorem SRun.ite_le {c : Prop} [Decidable c] {a a' b b' : SRun σ A} (h : c → a.le a') (h' : ¬c → b.le b') :
    (if c then a else b).le (if c then a' else b') := by
  by_cases hc : c
  · simpa only [if_pos hc] using h hc
  · simpa only [if_neg hc] using h' hc
theorem SRun.lift_le {m m' : Run A} (h : m.le m') : (SRun.lift m : SRun σ A).le (SRun.lift m') :=
  fun _ => M.bind_le h fun _ => M.le_refl _

/-- a chain of runs for increasing fuel -/
def Mono (m : Nat → SRun σ A) : Prop := ∀ n, (m n).le (m (n + 1))

/-- `a` is the limit of the chain `m`, in every state -/
def Lim (m : Nat → SRun σ A) (a : SRun σ A) : Prop := ∀ st, Tok3n.Lim (fun n => m n st) (a st)

theorem Lim.const (a : SRun σ A) : Lim (fun _ => a) a := fun _ => Tok3n.Lim.const _
theorem Lim.bind {m : Nat → SRun σ A} {a : SRun σ A} {f : Nat → A → SRun σ B} {g : A → SRun σ B}
    (h : Lim m a) (hf : ∀ x, Lim (fun n => f n x) (g x)) : Lim (fun n => m n >>= f n) (a >>= g) :=
  fun st => Tok3n.Lim.bind (h st) fun x => hf x.1 x.2
theorem Lim.ite {c : Prop} [Decidable c] {m m' : Nat → SRun σ A} {a a' : SRun σ A}
    (h : c → Lim m a) (h' : ¬c → Lim m' a') :
    Lim (fun n => if c then m n else m' n) (if c then a else a') := by
  by_cases hc : c
  · simpa only [if_pos hc] using h hc
  · simpa only [if_neg hc] using h' hc
theorem Lim.le {m : Nat → SRun σ A} {a : SRun σ A} (h : Lim m a) (n : Nat) : (m n).le a :=
  fun st => (h st).le n
theorem Lim.shift {m : Nat → SRun σ A} {a : SRun σ A} (h : Lim (fun n => m (n + 1)) a)
    (h0 : (m 0).le (m 1)) : Lim m a := fun st => (h st).shift (h0 st)
theorem Lim.tail {m : Nat → SRun σ A} {a : SRun σ A} (h : Lim m a) : Lim (fun n => m (n + 1)) a :=
  fun st => (h st).tail
theorem Lim.unique {m : Nat → SRun σ A} {a b : SRun σ A} (h : Lim m a) (h' : Lim m b) : a = b :=
  funext fun st => (h st).unique (h' st)

/-- the limit, in every state -/
noncomputable def lim (m : Nat → SRun σ A) : SRun σ A := fun st => Tok3n.lim fun n => m n st

theorem Mono.lim {m : Nat → SRun σ A} (h : Mono m) : Lim m (lim m) :=
  fun st => Tok3n.Mono.lim fun n => h n st
theorem Lim.diag {a : Nat → Nat → SRun σ A} {b : Nat → SRun σ A} (h : ∀ k, Lim (fun n => a n k) (b k))
    (hm : ∀ n, Mono (a n)) : Lim (fun n => a n n) (lim b) :=
  fun st => Tok3n.Lim.diag (fun k => h k st) fun n k => hm n k st

def Sub.le (P Q : Sub σ) : Prop := ∀ s, (P.parse s).le (Q.parse s) ∧ (P.look s).le (Q.look s)

structure SubLim (P : Nat → Sub σ) (Q : Sub σ) : Prop where
  parse : ∀ s, Lim (fun n => (P n).parse s) (Q.parse s)
  look : ∀ s, Lim (fun n => (P n).look s) (Q.look s)

/-! ### Fixed fuel: limits in the sub-parsers -/

section
variable {C : Ctx α β} {U : Callbacks σ} {P D : Nat → Sub σ} {P' D' : Sub σ}

theorem parseMaybe_lim (hP : SubLim P P') (T : Ty) (s : Span) :
    Lim (fun n => parseMaybe C T (P n) s) (parseMaybe C T P' s) := by
  refine Lim.bind (Lim.const _) fun v => Lim.bind (hP.parse s) fun r => Lim.const _

theorem lookMaybe_lim (hP : SubLim P P') (s : Span) :
    Lim (fun n => lookMaybe (P n) s) (lookMaybe P' s) :=
  Lim.bind (hP.look s) fun _ => Lim.const _

theorem exactlyLoop_lim (hP : SubLim P P') (T : Ty) (o : Span) (todo i : Nat) (s : Span) (v : Val) :
    Lim (fun n => exactlyLoop T (P n) o todo i s v) (exactlyLoop T P' o todo i s v) := by
  induction todo generalizing i s v with
  | zero => exact Lim.const _
  | succ todo ih =>
    refine Lim.bind (hP.parse s) fun r => Lim.ite (fun _ => Lim.const _) fun _ => ?_
    exact Lim.bind (Lim.const _) fun v => ih _ _ _

theorem lookExactlyLoop_lim (hP : SubLim P P') (o : Span) (todo : Nat) (s : Span) :
    Lim (fun n => lookExactlyLoop (P n) o todo s) (lookExactlyLoop P' o todo s) := by
  induction todo generalizing s with
  | zero => exact Lim.const _
  | succ todo ih =>
    exact Lim.bind (hP.look s) fun r => Lim.ite (fun _ => Lim.const _) fun _ => ih _

theorem oneOrMoreLoop_lim (hP : SubLim P P') (T : Ty) (k : Nat) (b : Bool) (s : Span) (v : Val) :
    Lim (fun n => oneOrMoreLoop T (P n) k b s v) (oneOrMoreLoop T P' k b s v) := by
  induction k generalizing b s v with
  | zero => exact Lim.const _
  | succ k ih =>
    refine Lim.bind (hP.parse s) fun r => Lim.ite (fun _ => Lim.const _) fun _ => ?_
    exact Lim.bind (Lim.const _) fun v => ih _ _ _

theorem lookOneOrMoreLoop_lim (hP : SubLim P P') (k : Nat) (b : Bool) (s : Span) :
    Lim (fun n => lookOneOrMoreLoop (P n) k b s) (lookOneOrMoreLoop P' k b s) := by
  induction k generalizing b s with
  | zero => exact Lim.const _
  | succ k ih =>
    exact Lim.bind (hP.look s) fun r => Lim.ite (fun _ => Lim.const _) fun _ => ih _ _

theorem zeroOrMoreLoop_lim (hP : SubLim P P') (T : Ty) (k : Nat) (s : Span) (v : Val) :
    Lim (fun n => zeroOrMoreLoop T (P n) k s v) (zeroOrMoreLoop T P' k s v) := by
  induction k generalizing s v with
  | zero => exact Lim.const _
  | succ k ih =>
    refine Lim.bind (hP.parse s) fun r => Lim.ite (fun _ => Lim.const _) fun _ => ?_
    exact Lim.bind (Lim.const _) fun v => ih _ _

theorem lookZeroOrMoreLoop_lim (hP : SubLim P P') (k : Nat) (s : Span) :
    Lim (fun n => lookZeroOrMoreLoop (P n) k s) (lookZeroOrMoreLoop P' k s) := by
  induction k generalizing s with
  | zero => exact Lim.const _
  | succ k ih =>
    exact Lim.bind (hP.look s) fun r => Lim.ite (fun _ => Lim.const _) fun _ => ih _

theorem delimitLoop_lim (hP : SubLim P P') (hD : SubLim D D') (T tp td : Ty) (k : Nat) (r : R)
    (s : Span) (v : Val) :
    Lim (fun n => delimitLoop T tp td (P n) (D n) k r s v) (delimitLoop T tp td P' D' k r s v) := by
  induction k generalizing r s v with
  | zero => exact Lim.const _
  | succ k ih =>
    refine Lim.ite (fun _ => Lim.const _) fun _ => Lim.bind (Lim.const _) fun v => ?_
    refine Lim.bind (hD.parse _) fun dr => Lim.ite (fun _ => Lim.const _) fun _ => ?_
    exact Lim.bind (hP.parse _) fun r => Lim.bind (Lim.const _) fun v => ih _ _ _

theorem lookDelimitLoop_lim (hP : SubLim P P') (hD : SubLim D D') (k : Nat) (r : R) (s : Span) :
    Lim (fun n => lookDelimitLoop (P n) (D n) k r s) (lookDelimitLoop P' D' k r s) := by
  induction k generalizing r s with
  | zero => exact Lim.const _
  | succ k ih =>
    refine Lim.ite (fun _ => Lim.const _) fun _ => ?_
    refine Lim.bind (hD.look _) fun dr => Lim.ite (fun _ => Lim.const _) fun _ => ?_
    exact Lim.bind (hP.look _) fun r => ih _ _

/-- element lists that agree up to the fuel of the sub-parsers -/
inductive ElemsLim : (Nat → List (Elem σ)) → List (Elem σ) → Prop where
  | nil : ElemsLim (fun _ => []) []
  | cons {P P' t i es es'} : SubLim P P' → ElemsLim es es' →
      ElemsLim (fun n => ⟨P n, t, i⟩ :: es n) (⟨P', t, i⟩ :: es')

theorem execute_lim (hP : SubLim P P') (T : Ty) (u c : Bool) (t : Ty) (i : Option Nat) (st : Exec) :
    Lim (fun n => execute C T u c ⟨P n, t, i⟩ st) (execute C T u c ⟨P', t, i⟩ st) := by
  cases i with
  | none => exact Lim.bind (hP.look _) fun r => Lim.const _
  | some i =>
    refine Lim.bind (hP.parse _) fun r => Lim.ite (fun _ => Lim.const _) fun _ => ?_
    dsimp only
    exact Lim.const _

theorem foldOr_lim {es : Nat → List (Elem σ)} {es' : List (Elem σ)} (h : ElemsLim es es')
    (T : Ty) (u c : Bool) (st : Exec) :
    Lim (fun n => foldOr (execute C T u c) (es n) st) (foldOr (execute C T u c) es' st) := by
  induction h generalizing st with
  | nil => exact Lim.const _
  | cons hP _ ih =>
    refine Lim.bind (execute_lim hP T u c _ _ st) fun ⟨ok, st⟩ => ?_
    exact Lim.ite (fun _ => Lim.const _) fun _ => ih _

theorem foldAnd_lim {es : Nat → List (Elem σ)} {es' : List (Elem σ)} (h : ElemsLim es es')
    (T : Ty) (u c : Bool) (st : Exec) :
    Lim (fun n => foldAnd (execute C T u c) (es n) st) (foldAnd (execute C T u c) es' st) := by
  induction h generalizing st with
  | nil => exact Lim.const _
  | cons hP _ ih =>
    refine Lim.bind (execute_lim hP T u c _ _ st) fun ⟨ok, st⟩ => ?_
    exact Lim.ite (fun _ => ih _) fun _ => Lim.const _

end

section
variable {C : Ctx α β} {U : Callbacks σ} {rec : Nat → Parser α → Sub σ} {rec' : Parser α → Sub σ}

theorem mkElems_lim (h : ∀ p, SubLim (fun n => rec n p) (rec' p)) (ps : List (Parser α))
    (is : List (Option Nat)) : ElemsLim (fun n => mkElems (rec n) C ps is) (mkElems rec' C ps is) := by
  induction ps generalizing is with
  | nil => cases is <;> exact .nil
  | cons p ps ih =>
    cases is with
    | nil => exact .nil
    | cons i is => exact .cons (h p) (ih is)

theorem mkLookElems_lim (h : ∀ p, SubLim (fun n => rec n p) (rec' p)) (ps : List (Parser α)) :
    ElemsLim (fun n => mkLookElems (rec n) C ps) (mkLookElems rec' C ps) := by
  induction ps with
  | nil => exact .nil
  | cons p ps ih => exact .cons (h p) ih

theorem joinGeneric_lim {P : Nat → Sub σ} {P' : Sub σ} (hP : SubLim P P') :
    SubLim (fun n => joinGeneric C (P n)) (joinGeneric C P') := by
  refine ⟨fun s => ?_, hP.look⟩
  exact Lim.bind (hP.parse _) fun r => Lim.const _

theorem SubLim.const (P : Sub σ) : SubLim (fun _ => P) P :=
  ⟨fun _ => Lim.const _, fun _ => Lim.const _⟩

theorem semJoin_lim (h : ∀ p, SubLim (fun n => rec n p) (rec' p)) (k : Nat) (p : Parser α) :
    SubLim (fun n => semJoin C (rec n) k p) (semJoin C rec' k p) := by
  cases p with
  | exactly q n =>
    simp only [semJoin]
    cases asBasic C q with
    | none => exact joinGeneric_lim (h _)
    | some b => exact SubLim.const _
  | maybe q =>
    simp only [semJoin]
    cases asBasic C q with
    | none => exact joinGeneric_lim (h _)
    | some b => exact SubLim.const _
  | oneOrMore q =>
    simp only [semJoin]
    cases asBasic C q with
    | none => exact joinGeneric_lim (h _)
    | some b => exact SubLim.const _
  | zeroOrMore q =>
    simp only [semJoin]
    cases asBasic C q with
    | none => exact joinGeneric_lim (h _)
    | some b => exact SubLim.const _
  | _ => exact joinGeneric_lim (h _)

/-- Each body is continuous in its sub-parsers. -/
theorem step_lim (h : ∀ p, SubLim (fun n => rec n p) (rec' p)) (k : Nat) (p : Parser α) :
    SubLim (fun n => step C U (rec n) k p) (step C U rec' k p) := by
  cases p with
  | anyOf _ | noneOf _ | allOf _ | anything | epsilon => exact SubLim.const _
  | choice ps =>
    refine ⟨fun s => ?_, fun s => ?_⟩
    · exact Lim.bind (Lim.const _) fun v =>
        Lim.bind (foldOr_lim (mkElems_lim h _ _) _ _ _ _) fun ⟨ok, st⟩ => Lim.const _
    · exact Lim.bind (foldOr_lim (mkLookElems_lim h _) _ _ _ _) fun ⟨ok, st⟩ => Lim.const _
  | sequence ps =>
    refine ⟨fun s => ?_, fun s => ?_⟩
    · exact Lim.bind (Lim.const _) fun v =>
        Lim.bind (foldAnd_lim (mkElems_lim h _ _) _ _ _ _) fun ⟨ok, st⟩ => Lim.const _
    · exact Lim.bind (foldAnd_lim (mkLookElems_lim h _) _ _ _ _) fun ⟨ok, st⟩ => Lim.const _
  | maybe p => exact ⟨fun s => parseMaybe_lim (h p) _ s, fun s => lookMaybe_lim (h p) s⟩
  | exactly p n =>
    refine ⟨fun s => ?_, fun s => ?_⟩
    · exact Lim.bind (Lim.const _) fun v => exactlyLoop_lim (h p) _ _ _ _ _ _
    · exact lookExactlyLoop_lim (h p) _ _ _
  | oneOrMore p =>
    refine ⟨fun s => ?_, fun s => ?_⟩
    · exact Lim.bind (Lim.const _) fun v =>
        Lim.bind (oneOrMoreLoop_lim (h p) _ _ _ _ _) fun ⟨_, _, _⟩ => Lim.const _
    · exact Lim.bind (lookOneOrMoreLoop_lim (h p) _ _ _) fun ⟨_, _⟩ => Lim.const _
  | zeroOrMore p =>
    refine ⟨fun s => ?_, fun s => ?_⟩
    · exact Lim.bind (Lim.const _) fun v =>
        Lim.bind (zeroOrMoreLoop_lim (h p) _ _ _ _) fun ⟨_, _⟩ => Lim.const _
    · exact Lim.bind (lookZeroOrMoreLoop_lim (h p) _ _) fun _ => Lim.const _
  | delimit p d =>
    refine ⟨fun s => ?_, fun s => ?_⟩
    · refine Lim.bind (Lim.const _) fun v => Lim.bind ((h p).parse s) fun r => ?_
      exact Lim.ite (fun _ => Lim.const _) fun _ =>
        Lim.bind (delimitLoop_lim (h p) (h d) _ _ _ _ _ _ _) fun ⟨_, _⟩ => Lim.const _
    · refine Lim.bind ((h p).look s) fun r => ?_
      exact Lim.ite (fun _ => Lim.const _) fun _ =>
        Lim.bind (lookDelimitLoop_lim (h p) (h d) _ _ _) fun _ => Lim.const _
  | ignore p => exact ⟨fun s => (h p).look s, fun s => (h p).look s⟩
  | complete p =>
    exact ⟨fun s => Lim.bind ((h p).parse s) fun _ => Lim.const _,
      fun s => Lim.bind ((h p).look s) fun _ => Lim.const _⟩
  | join p => exact semJoin_lim h k p
  | map p f =>
    refine ⟨fun s => ?_, fun s => (h p).look s⟩
    exact Lim.bind ((h p).parse s) fun _ => Lim.const _
  | filter p f =>
    refine ⟨fun s => ?_, fun s => (h p).look s⟩
    exact Lim.bind ((h p).parse s) fun _ => Lim.const _
  | named p _ => exact h p
  | custom j =>
    refine ⟨fun s => ?_, fun s => (h _).look s⟩
    exact Lim.bind ((h _).parse s) fun _ => Lim.const _

end

/-! ### Monotonicity in the loop fuel -/

section
variable {C : Ctx α β} {U : Callbacks σ} {P D : Sub σ}

theorem oneOrMoreLoop_mono (T : Ty) (b : Bool) (s : Span) (v : Val) :
    Mono (fun k => oneOrMoreLoop T P k b s v) := by
  intro k
  induction k generalizing b s v with
  | zero => exact SRun.diverge_le _
  | succ k ih =>
    exact SRun.bind_le (SRun.le_refl _) fun r => SRun.ite_le (fun _ => SRun.le_refl _) fun _ =>
      SRun.bind_le (SRun.le_refl _) fun v => ih _ _ _

theorem lookOneOrMoreLoop_mono (b : Bool) (s : Span) :
    Mono (fun k => lookOneOrMoreLoop P k b s) := by
  intro k
  induction k generalizing b s with
  | zero => exact SRun.diverge_le _
  | succ k ih =>
    exact SRun.bind_le (SRun.le_refl _) fun r => SRun.ite_le (fun _ => SRun.le_refl _) fun _ => ih _ _

theorem zeroOrMoreLoop_mono (T : Ty) (s : Span) (v : Val) :
    Mono (fun k => zeroOrMoreLoop T P k s v) := by
  intro k
  induction k generalizing s v with
  | zero => exact SRun.diverge_le _
  | succ k ih =>
    exact SRun.bind_le (SRun.le_refl _) fun r => SRun.ite_le (fun _ => SRun.le_refl _) fun _ =>
      SRun.bind_le (SRun.le_refl _) fun v => ih _ _

theorem lookZeroOrMoreLoop_mono (s : Span) : Mono (fun k => lookZeroOrMoreLoop P k s) := by
  intro k
  induction k generalizing s with
  | zero => exact SRun.diverge_le _
  | succ k ih =>
    exact SRun.bind_le (SRun.le_refl _) fun r => SRun.ite_le (fun _ => SRun.le_refl _) fun _ => ih _

theorem delimitLoop_mono (T tp td : Ty) (r : R) (s : Span) (v : Val) :
    Mono (fun k => delimitLoop T tp td P D k r s v) := by
  intro k
  induction k generalizing r s v with
  | zero => exact SRun.diverge_le _
  | succ k ih =>
    refine SRun.ite_le (fun _ => SRun.le_refl _) fun _ => SRun.bind_le (SRun.le_refl _) fun v => ?_
    refine SRun.bind_le (SRun.le_refl _) fun r => SRun.ite_le (fun _ => SRun.le_refl _) fun _ => ?_
    exact SRun.bind_le (SRun.le_refl _) fun r => SRun.bind_le (SRun.le_refl _) fun v => ih _ _ _

theorem lookDelimitLoop_mono (r : R) (s : Span) : Mono (fun k => lookDelimitLoop P D k r s) := by
  intro k
  induction k generalizing r s with
  | zero => exact SRun.diverge_le _
  | succ k ih =>
    refine SRun.ite_le (fun _ => SRun.le_refl _) fun _ => ?_
    refine SRun.bind_le (SRun.le_refl _) fun r => SRun.ite_le (fun _ => SRun.le_refl _) fun _ => ?_
    exact SRun.bind_le (SRun.le_refl _) fun r => ih _ _

theorem Sub.le_refl (P : Sub σ) : P.le P := fun _ => ⟨SRun.le_refl _, SRun.le_refl _⟩
theorem Sub.le_trans {P Q S : Sub σ} (h : P.le Q) (h' : Q.le S) : P.le S :=
  fun s => ⟨SRun.le_trans (h s).1 (h' s).1, SRun.le_trans (h s).2 (h' s).2⟩

theorem Sub.lift_le {P Q : Tok3n.Sub} (h : P.le Q) : (Sub.lift P : Sub σ).le (Sub.lift Q) :=
  fun s => ⟨SRun.lift_le (h s).1, SRun.lift_le (h s).2⟩

theorem semJoin_fuel_le (rec : Parser α → Sub σ) (k : Nat) (p : Parser α) :
    (semJoin C rec k p).le (semJoin C rec (k + 1) p) := by
  have hj := Tok3n.semJoin_fuel_le (C := C) (fun _ => ⟨fun _ => M.diverge, fun _ => M.diverge⟩) k p
  cases p
  case oneOrMore q =>
    simp only [semJoin, Tok3n.semJoin] at hj ⊢
    cases hb : asBasic C q <;> rw [hb] at hj
    exacts [Sub.le_refl _, Sub.lift_le hj]
  case zeroOrMore q =>
    simp only [semJoin, Tok3n.semJoin] at hj ⊢
    cases hb : asBasic C q <;> rw [hb] at hj
    exacts [Sub.le_refl _, Sub.lift_le hj]
  all_goals exact Sub.le_refl _

/-- Each body is monotone in its loop fuel. -/
theorem step_fuel_le (rec : Parser α → Sub σ) (k : Nat) (p : Parser α) :
    (step C U rec k p).le (step C U rec (k + 1) p) := by
  cases p with
  | oneOrMore p =>
    refine fun s => ⟨?_, ?_⟩
    · refine SRun.bind_le (SRun.le_refl _) fun v => SRun.bind_le (oneOrMoreLoop_mono _ _ _ _ k) fun ⟨_, _, _⟩ => ?_
      exact SRun.le_refl _
    · refine SRun.bind_le (lookOneOrMoreLoop_mono _ _ k) fun ⟨_, _⟩ => ?_
      exact SRun.le_refl _
  | zeroOrMore p =>
    refine fun s => ⟨?_, ?_⟩
    · refine SRun.bind_le (SRun.le_refl _) fun v => SRun.bind_le (zeroOrMoreLoop_mono _ _ _ k) fun ⟨_, _⟩ => ?_
      exact SRun.le_refl _
    · refine SRun.bind_le (lookZeroOrMoreLoop_mono _ k) fun _ => ?_
      exact SRun.le_refl _
  | delimit p d =>
    refine fun s => ⟨?_, ?_⟩
    · refine SRun.bind_le (SRun.le_refl _) fun v => SRun.bind_le (SRun.le_refl _) fun r => ?_
      refine SRun.ite_le (fun _ => SRun.le_refl _) fun _ => ?_
      refine SRun.bind_le (delimitLoop_mono _ _ _ _ _ _ k) fun ⟨_, _⟩ => ?_
      exact SRun.le_refl _
    · refine SRun.bind_le (SRun.le_refl _) fun r => ?_
      refine SRun.ite_le (fun _ => SRun.le_refl _) fun _ => ?_
      refine SRun.bind_le (lookDelimitLoop_mono _ _ k) fun _ => ?_
      exact SRun.le_refl _
  | join p => exact semJoin_fuel_le rec k p
  | _ => exact Sub.le_refl _

end

/-! ### The fixed point -/

section
variable {C : Ctx α β} {U : Callbacks σ}

/-- Each body is monotone in its sub-parsers. -/
theorem step_rec_le {rec rec' : Parser α → Sub σ} (h : ∀ p, (rec p).le (rec' p)) (k : Nat) (p : Parser α) :
    (step C U rec k p).le (step C U rec' k p) := by
  let r : Nat → Parser α → Sub σ := fun n => if n = 0 then rec else rec'
  have hr : ∀ p, SubLim (fun n => r n p) (rec' p) := by
    intro p
    refine ⟨fun s => ?_, fun s => ?_⟩
    · exact Lim.shift (m := fun n => (r n p).parse s) (by simpa [r] using Lim.const _) (h p s).1
    · exact Lim.shift (m := fun n => (r n p).look s) (by simpa [r] using Lim.const _) (h p s).2
  have := step_lim (C := C) (U := U) hr k p
  exact fun s => ⟨(this.parse s).le 0, (this.look s).le 0⟩

/-- More fuel does not change an outcome. -/
theorem sem_le_succ (n : Nat) (p : Parser α) : (sem C U n p).le (sem C U (n + 1) p) := by
  induction n generalizing p with
  | zero => exact fun s => ⟨SRun.diverge_le _, SRun.diverge_le _⟩
  | succ n ih =>
    exact Sub.le_trans (step_rec_le ih n p) (step_fuel_le _ n p)

theorem sem_mono_parse (p : Parser α) (s : Span) : Mono (fun n => (sem C U n p).parse s) :=
  fun n => (sem_le_succ n p s).1

theorem sem_mono_look (p : Parser α) (s : Span) : Mono (fun n => (sem C U n p).look s) :=
  fun n => (sem_le_succ n p s).2

variable (C U) in
/-- `parse` and `lookahead` without fuel. -/
noncomputable def den (p : Parser α) : Sub σ := ⟨Parse C U p, Look C U p⟩

theorem sem_lim (p : Parser α) : SubLim (fun n => sem C U n p) (den C U p) :=
  ⟨fun s => (sem_mono_parse p s).lim, fun s => (sem_mono_look p s).lim⟩

theorem Parse_eq_done {p : Parser α} {s : Span} {st : σ} {l r} :
    Parse C U p s st = .done l r ↔ ∃ n, (sem C U n p).parse s st = .done l r :=
  ((sem_lim p).parse s st).iff l r

theorem Look_eq_done {p : Parser α} {s : Span} {st : σ} {l r} :
    Look C U p s st = .done l r ↔ ∃ n, (sem C U n p).look s st = .done l r :=
  ((sem_lim p).look s st).iff l r

theorem Parse_eq_diverge {p : Parser α} {s : Span} {st : σ} :
    Parse C U p s st = .diverge ↔ ∀ n, (sem C U n p).parse s st = .diverge := by
  constructor
  · intro h n
    cases hn : (sem C U n p).parse s st with
    | diverge => rfl
    | done l r => rw [Parse_eq_done.2 ⟨n, hn⟩] at h; cases h
  · intro h
    cases hp : Parse C U p s st with
    | diverge => rfl
    | done l r => obtain ⟨n, hn⟩ := Parse_eq_done.1 hp; rw [h n] at hn; cases hn

theorem Look_eq_diverge {p : Parser α} {s : Span} {st : σ} :
    Look C U p s st = .diverge ↔ ∀ n, (sem C U n p).look s st = .diverge := by
  constructor
  · intro h n
    cases hn : (sem C U n p).look s st with
    | diverge => rfl
    | done l r => rw [Look_eq_done.2 ⟨n, hn⟩] at h; cases h
  · intro h
    cases hp : Look C U p s st with
    | diverge => rfl
    | done l r => obtain ⟨n, hn⟩ := Look_eq_done.1 hp; rw [h n] at hn; cases hn

theorem step_den_lim (p : Parser α) :
    SubLim (fun n => step C U (sem C U n) n p)
      ⟨fun s => lim fun k => (step C U (den C U) k p).parse s,
       fun s => lim fun k => (step C U (den C U) k p).look s⟩ := by
  refine ⟨fun s => ?_, fun s => ?_⟩
  · refine Lim.diag (a := fun n k => (step C U (sem C U n) k p).parse s) (fun k => ?_) (fun n k => ?_)
    · exact (step_lim sem_lim k p).parse s
    · exact (step_fuel_le _ k p s).1
  · refine Lim.diag (a := fun n k => (step C U (sem C U n) k p).look s) (fun k => ?_) (fun n k => ?_)
    · exact (step_lim sem_lim k p).look s
    · exact (step_fuel_le _ k p s).2

/-- The fixed-point equation, `parse`. -/
theorem Parse_eq (p : Parser α) (s : Span) :
    Parse C U p s = lim fun k => (step C U (den C U) k p).parse s :=
  (((sem_lim p).parse s).tail).unique ((step_den_lim p).parse s)

/-- The fixed-point equation, `lookahead`. -/
theorem Look_eq (p : Parser α) (s : Span) :
    Look C U p s = lim fun k => (step C U (den C U) k p).look s :=
  (((sem_lim p).look s).tail).unique ((step_den_lim p).look s)

end

end Tok3n.Stateful
