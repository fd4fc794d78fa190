import Verif.Proof.Lim
/-
Every parser body is continuous in its sub-parsers and monotone in its loop fuel,
so `sem` is monotone in the fuel and `Parse`/`Look` satisfy the equations of the C++
code without fuel.
-/

namespace Tok3n

variable {α β L A B : Type}

theorem Lim.ite {c : Prop} [Decidable c] {m m' : Nat → M L A} {a a' : M L A}
    (h : c → Lim m a) (h' : ¬c → Lim m' a') :
    Lim (fun n => if c then m n else m' n) (if c then a else a') := by
  by_cases hc : c
  · simpa only [if_pos hc] using h hc
  · simpa only [if_neg hc] using h' hc

/-! ### Fixed fuel: limits in the sub-parsers -/

section
variable {C : Ctx α β} {P D : Nat → Sub} {P' D' : Sub}

theorem parseMaybe_lim (hP : SubLim P P') (T : Ty) (s : Span) :
    Lim (fun n => parseMaybe C T (P n) s) (parseMaybe C T P' s) := by
  refine Lim.bind (Lim.const _) fun v => Lim.bind (hP.parse s) fun r => Lim.const _

theorem lookMaybe_lim (hP : SubLim P P') (s : Span) :
    Lim (fun n => lookMaybe (P n) s) (lookMaybe P' s) :=
  Lim.bind (hP.look s) fun _ => Lim.const _

theorem exactlyLoop_lim (hP : SubLim P P') (T : Ty) (o : Span) (todo i : Nat) (s : Span) (v : Val) :
    Lim (fun n => exactlyLoop T (P n) o todo i s v) (exactlyLoop T P' o todo i s v) := by
  induction todo generalizing i s v with
  | zero => exact Lim.const _
  | succ todo ih =>
    refine Lim.bind (hP.parse s) fun r => Lim.ite (fun _ => Lim.const _) fun _ => ?_
    exact Lim.bind (Lim.const _) fun v => ih _ _ _

theorem lookExactlyLoop_lim (hP : SubLim P P') (o : Span) (todo : Nat) (s : Span) :
    Lim (fun n => lookExactlyLoop (P n) o todo s) (lookExactlyLoop P' o todo s) := by
  induction todo generalizing s with
  | zero => exact Lim.const _
  | succ todo ih =>
    exact Lim.bind (hP.look s) fun r => Lim.ite (fun _ => Lim.const _) fun _ => ih _

theorem oneOrMoreLoop_lim (hP : SubLim P P') (T : Ty) (k : Nat) (b : Bool) (s : Span) (v : Val) :
    Lim (fun n => oneOrMoreLoop T (P n) k b s v) (oneOrMoreLoop T P' k b s v) := by
  induction k generalizing b s v with
  | zero => exact Lim.const _
  | succ k ih =>
    refine Lim.bind (hP.parse s) fun r => Lim.ite (fun _ => Lim.const _) fun _ => ?_
    exact Lim.bind (Lim.const _) fun v => ih _ _ _

theorem lookOneOrMoreLoop_lim (hP : SubLim P P') (k : Nat) (b : Bool) (s : Span) :
    Lim (fun n => lookOneOrMoreLoop (P n) k b s) (lookOneOrMoreLoop P' k b s) := by
  induction k generalizing b s with
  | zero => exact Lim.const _
  | succ k ih =>
    exact Lim.bind (hP.look s) fun r => Lim.ite (fun _ => Lim.const _) fun _ => ih _ _

theorem zeroOrMoreLoop_lim (hP : SubLim P P') (T : Ty) (k : Nat) (s : Span) (v : Val) :
    Lim (fun n => zeroOrMoreLoop T (P n) k s v) (zeroOrMoreLoop T P' k s v) := by
  induction k generalizing s v with
  | zero => exact Lim.const _
  | succ k ih =>
    refine Lim.bind (hP.parse s) fun r => Lim.ite (fun _ => Lim.const _) fun _ => ?_
    exact Lim.bind (Lim.const _) fun v => ih _ _

theorem lookZeroOrMoreLoop_lim (hP : SubLim P P') (k : Nat) (s : Span) :
    Lim (fun n => lookZeroOrMoreLoop (P n) k s) (lookZeroOrMoreLoop P' k s) := by
  induction k generalizing s with
  | zero => exact Lim.const _
  | succ k ih =>
    exact Lim.bind (hP.look s) fun r => Lim.ite (fun _ => Lim.const _) fun _ => ih _

theorem delimitLoop_lim (hP : SubLim P P') (hD : SubLim D D') (T tp td : Ty) (k : Nat) (r : R)
    (s : Span) (v : Val) :
    Lim (fun n => delimitLoop T tp td (P n) (D n) k r s v) (delimitLoop T tp td P' D' k r s v) := by
  induction k generalizing r s v with
  | zero => exact Lim.const _
  | succ k ih =>
    refine Lim.ite (fun _ => Lim.const _) fun _ => Lim.bind (Lim.const _) fun v => ?_
    refine Lim.bind (hD.parse _) fun dr => Lim.ite (fun _ => Lim.const _) fun _ => ?_
    exact Lim.bind (hP.parse _) fun r => Lim.bind (Lim.const _) fun v => ih _ _ _

theorem lookDelimitLoop_lim (hP : SubLim P P') (hD : SubLim D D') (k : Nat) (r : R) (s : Span) :
    Lim (fun n => lookDelimitLoop (P n) (D n) k r s) (lookDelimitLoop P' D' k r s) := by
  induction k generalizing r s with
  | zero => exact Lim.const _
  | succ k ih =>
    refine Lim.ite (fun _ => Lim.const _) fun _ => ?_
    refine Lim.bind (hD.look _) fun dr => Lim.ite (fun _ => Lim.const _) fun _ => ?_
    exact Lim.bind (hP.look _) fun r => ih _ _

/-- element lists that agree up to the fuel of the sub-parsers -/
inductive ElemsLim : (Nat → List Elem) → List Elem → Prop where
  | nil : ElemsLim (fun _ => []) []
  | cons {P P' t i es es'} : SubLim P P' → ElemsLim es es' →
      ElemsLim (fun n => ⟨P n, t, i⟩ :: es n) (⟨P', t, i⟩ :: es')

theorem execute_lim (hP : SubLim P P') (T : Ty) (u c : Bool) (t : Ty) (i : Option Nat) (st : Exec) :
    Lim (fun n => execute C T u c ⟨P n, t, i⟩ st) (execute C T u c ⟨P', t, i⟩ st) := by
  cases i with
  | none => exact Lim.bind (hP.look _) fun r => Lim.const _
  | some i =>
    refine Lim.bind (hP.parse _) fun r => Lim.ite (fun _ => Lim.const _) fun _ => ?_
    dsimp only
    exact Lim.const _

theorem foldOr_lim {es : Nat → List Elem} {es' : List Elem} (h : ElemsLim es es')
    (T : Ty) (u c : Bool) (st : Exec) :
    Lim (fun n => foldOr (execute C T u c) (es n) st) (foldOr (execute C T u c) es' st) := by
  induction h generalizing st with
  | nil => exact Lim.const _
  | cons hP _ ih =>
    refine Lim.bind (execute_lim hP T u c _ _ st) fun ⟨ok, st⟩ => ?_
    exact Lim.ite (fun _ => Lim.const _) fun _ => ih _

theorem foldAnd_lim {es : Nat → List Elem} {es' : List Elem} (h : ElemsLim es es')
    (T : Ty) (u c : Bool) (st : Exec) :
    Lim (fun n => foldAnd (execute C T u c) (es n) st) (foldAnd (execute C T u c) es' st) := by
  induction h generalizing st with
  | nil => exact Lim.const _
  | cons hP _ ih =>
    refine Lim.bind (execute_lim hP T u c _ _ st) fun ⟨ok, st⟩ => ?_
    exact Lim.ite (fun _ => ih _) fun _ => Lim.const _

end

section
variable {C : Ctx α β} {rec : Nat → Parser α → Sub} {rec' : Parser α → Sub}

theorem mkElems_lim (h : ∀ p, SubLim (fun n => rec n p) (rec' p)) (ps : List (Parser α))
    (is : List (Option Nat)) : ElemsLim (fun n => mkElems (rec n) C ps is) (mkElems rec' C ps is) := by
  induction ps generalizing is with
  | nil => cases is <;> exact .nil
  | cons p ps ih =>
    cases is with
    | nil => exact .nil
    | cons i is => exact .cons (h p) (ih is)

theorem mkLookElems_lim (h : ∀ p, SubLim (fun n => rec n p) (rec' p)) (ps : List (Parser α)) :
    ElemsLim (fun n => mkLookElems (rec n) C ps) (mkLookElems rec' C ps) := by
  induction ps with
  | nil => exact .nil
  | cons p ps ih => exact .cons (h p) ih

theorem joinGeneric_lim {P : Nat → Sub} {P' : Sub} (hP : SubLim P P') :
    SubLim (fun n => joinGeneric C (P n)) (joinGeneric C P') := by
  refine ⟨fun s => ?_, hP.look⟩
  exact Lim.bind (hP.parse _) fun r => Lim.const _

theorem SubLim.const (P : Sub) : SubLim (fun _ => P) P :=
  ⟨fun _ => Lim.const _, fun _ => Lim.const _⟩

theorem semJoin_lim (h : ∀ p, SubLim (fun n => rec n p) (rec' p)) (k : Nat) (p : Parser α) :
    SubLim (fun n => semJoin C (rec n) k p) (semJoin C rec' k p) := by
  cases p with
  | exactly q n =>
    simp only [semJoin]
    cases asBasic C q with
    | none => exact joinGeneric_lim (h _)
    | some b => exact SubLim.const _
  | maybe q =>
    simp only [semJoin]
    cases asBasic C q with
    | none => exact joinGeneric_lim (h _)
    | some b => exact SubLim.const _
  | oneOrMore q =>
    simp only [semJoin]
    cases asBasic C q with
    | none => exact joinGeneric_lim (h _)
    | some b => exact SubLim.const _
  | zeroOrMore q =>
    simp only [semJoin]
    cases asBasic C q with
    | none => exact joinGeneric_lim (h _)
    | some b => exact SubLim.const _
  | _ => exact joinGeneric_lim (h _)

/-- Each body is continuous in its sub-parsers. -/
theorem step_lim (h : ∀ p, SubLim (fun n => rec n p) (rec' p)) (k : Nat) (p : Parser α) :
    SubLim (fun n => step C (rec n) k p) (step C rec' k p) := by
  cases p with
  | anyOf _ | noneOf _ | allOf _ | anything | epsilon => exact SubLim.const _
  | choice ps =>
    refine ⟨fun s => ?_, fun s => ?_⟩
    · exact Lim.bind (Lim.const _) fun v =>
        Lim.bind (foldOr_lim (mkElems_lim h _ _) _ _ _ _) fun ⟨ok, st⟩ => Lim.const _
    · exact Lim.bind (foldOr_lim (mkLookElems_lim h _) _ _ _ _) fun ⟨ok, st⟩ => Lim.const _
  | sequence ps =>
    refine ⟨fun s => ?_, fun s => ?_⟩
    · exact Lim.bind (Lim.const _) fun v =>
        Lim.bind (foldAnd_lim (mkElems_lim h _ _) _ _ _ _) fun ⟨ok, st⟩ => Lim.const _
    · exact Lim.bind (foldAnd_lim (mkLookElems_lim h _) _ _ _ _) fun ⟨ok, st⟩ => Lim.const _
  | maybe p => exact ⟨fun s => parseMaybe_lim (h p) _ s, fun s => lookMaybe_lim (h p) s⟩
  | exactly p n =>
    refine ⟨fun s => ?_, fun s => ?_⟩
    · exact Lim.bind (Lim.const _) fun v => exactlyLoop_lim (h p) _ _ _ _ _ _
    · exact lookExactlyLoop_lim (h p) _ _ _
  | oneOrMore p =>
    refine ⟨fun s => ?_, fun s => ?_⟩
    · exact Lim.bind (Lim.const _) fun v =>
        Lim.bind (oneOrMoreLoop_lim (h p) _ _ _ _ _) fun ⟨_, _, _⟩ => Lim.const _
    · exact Lim.bind (lookOneOrMoreLoop_lim (h p) _ _ _) fun ⟨_, _⟩ => Lim.const _
  | zeroOrMore p =>
    refine ⟨fun s => ?_, fun s => ?_⟩
    · exact Lim.bind (Lim.const _) fun v =>
        Lim.bind (zeroOrMoreLoop_lim (h p) _ _ _ _) fun ⟨_, _⟩ => Lim.const _
    · exact Lim.bind (lookZeroOrMoreLoop_lim (h p) _ _) fun _ => Lim.const _
  | delimit p d =>
    refine ⟨fun s => ?_, fun s => ?_⟩
    · refine Lim.bind (Lim.const _) fun v => Lim.bind ((h p).parse s) fun r => ?_
      exact Lim.ite (fun _ => Lim.const _) fun _ =>
        Lim.bind (delimitLoop_lim (h p) (h d) _ _ _ _ _ _ _) fun ⟨_, _⟩ => Lim.const _
    · refine Lim.bind ((h p).look s) fun r => ?_
      exact Lim.ite (fun _ => Lim.const _) fun _ =>
        Lim.bind (lookDelimitLoop_lim (h p) (h d) _ _ _) fun _ => Lim.const _
  | ignore p => exact ⟨fun s => (h p).look s, fun s => (h p).look s⟩
  | complete p =>
    exact ⟨fun s => Lim.bind ((h p).parse s) fun _ => Lim.const _,
      fun s => Lim.bind ((h p).look s) fun _ => Lim.const _⟩
  | join p => exact semJoin_lim h k p
  | map p f =>
    refine ⟨fun s => ?_, fun s => (h p).look s⟩
    exact Lim.bind ((h p).parse s) fun _ => Lim.const _
  | filter p f =>
    refine ⟨fun s => ?_, fun s => (h p).look s⟩
    exact Lim.bind ((h p).parse s) fun _ => Lim.const _
  | named p _ => exact h p
  | custom j =>
    refine ⟨fun s => ?_, fun s => (h _).look s⟩
    exact Lim.bind ((h _).parse s) fun _ => Lim.const _

end

/-! ### Monotonicity in the loop fuel -/

section
variable {C : Ctx α β} {P D : Sub}

theorem M.ite_le {c : Prop} [Decidable c] {a a' b b' : M L A} (h : c → a.le a') (h' : ¬c → b.le b') :
    (if c then a else b).le (if c then a' else b') := by
  by_cases hc : c
  · simpa only [if_pos hc] using h hc
  · simpa only [if_neg hc] using h' hc

theorem oneOrMoreLoop_mono (T : Ty) (b : Bool) (s : Span) (v : Val) :
    Mono (fun k => oneOrMoreLoop T P k b s v) := by
  intro k
  induction k generalizing b s v with
  | zero => exact M.diverge_le _
  | succ k ih =>
    exact M.bind_le (M.le_refl _) fun r => M.ite_le (fun _ => M.le_refl _) fun _ =>
      M.bind_le (M.le_refl _) fun v => ih _ _ _

theorem lookOneOrMoreLoop_mono (b : Bool) (s : Span) :
    Mono (fun k => lookOneOrMoreLoop P k b s) := by
  intro k
  induction k generalizing b s with
  | zero => exact M.diverge_le _
  | succ k ih =>
    exact M.bind_le (M.le_refl _) fun r => M.ite_le (fun _ => M.le_refl _) fun _ => ih _ _

theorem zeroOrMoreLoop_mono (T : Ty) (s : Span) (v : Val) :
    Mono (fun k => zeroOrMoreLoop T P k s v) := by
  intro k
  induction k generalizing s v with
  | zero => exact M.diverge_le _
  | succ k ih =>
    exact M.bind_le (M.le_refl _) fun r => M.ite_le (fun _ => M.le_refl _) fun _ =>
      M.bind_le (M.le_refl _) fun v => ih _ _

theorem lookZeroOrMoreLoop_mono (s : Span) : Mono (fun k => lookZeroOrMoreLoop P k s) := by
  intro k
  induction k generalizing s with
  | zero => exact M.diverge_le _
  | succ k ih =>
    exact M.bind_le (M.le_refl _) fun r => M.ite_le (fun _ => M.le_refl _) fun _ => ih _

theorem delimitLoop_mono (T tp td : Ty) (r : R) (s : Span) (v : Val) :
    Mono (fun k => delimitLoop T tp td P D k r s v) := by
  intro k
  induction k generalizing r s v with
  | zero => exact M.diverge_le _
  | succ k ih =>
    refine M.ite_le (fun _ => M.le_refl _) fun _ => M.bind_le (M.le_refl _) fun v => ?_
    refine M.bind_le (M.le_refl _) fun r => M.ite_le (fun _ => M.le_refl _) fun _ => ?_
    exact M.bind_le (M.le_refl _) fun r => M.bind_le (M.le_refl _) fun v => ih _ _ _

theorem lookDelimitLoop_mono (r : R) (s : Span) : Mono (fun k => lookDelimitLoop P D k r s) := by
  intro k
  induction k generalizing r s with
  | zero => exact M.diverge_le _
  | succ k ih =>
    refine M.ite_le (fun _ => M.le_refl _) fun _ => ?_
    refine M.bind_le (M.le_refl _) fun r => M.ite_le (fun _ => M.le_refl _) fun _ => ?_
    exact M.bind_le (M.le_refl _) fun r => ih _ _

theorem joinRepeatLoop_mono (b : BasicP α) (s r : Span) : Mono (fun k => joinRepeatLoop C b k s r) := by
  intro k
  induction k generalizing s r with
  | zero => exact M.diverge_le _
  | succ k ih =>
    refine M.bind_le (M.le_refl _) fun c => M.ite_le (fun _ => M.le_refl _) fun _ => ?_
    exact M.bind_le (M.le_refl _) fun s => ih _ _

theorem lookJoinRepeatLoop_mono (b : BasicP α) (s : Span) :
    Mono (fun k => lookJoinRepeatLoop C b k s) := by
  intro k
  induction k generalizing s with
  | zero => exact M.diverge_le _
  | succ k ih =>
    refine M.bind_le (M.le_refl _) fun c => M.ite_le (fun _ => M.le_refl _) fun _ => ?_
    exact M.bind_le (M.le_refl _) fun s => ih _

theorem Sub.le_refl (P : Sub) : P.le P := fun _ => ⟨M.le_refl _, M.le_refl _⟩
theorem Sub.le_trans {P Q S : Sub} (h : P.le Q) (h' : Q.le S) : P.le S :=
  fun s => ⟨M.le_trans (h s).1 (h' s).1, M.le_trans (h s).2 (h' s).2⟩

theorem semJoin_fuel_le (rec : Parser α → Sub) (k : Nat) (p : Parser α) :
    (semJoin C rec k p).le (semJoin C rec (k + 1) p) := by
  cases p with
  | oneOrMore q =>
    simp only [semJoin]
    cases asBasic C q with
    | none => exact Sub.le_refl _
    | some b =>
      refine fun s => ⟨?_, ?_⟩
      · refine M.bind_le (M.le_refl _) fun c => M.ite_le (fun _ => M.le_refl _) fun _ => ?_
        refine M.bind_le (M.le_refl _) fun s => M.bind_le (joinRepeatLoop_mono b _ _ k) fun ⟨_, _⟩ => ?_
        exact M.le_refl _
      · refine M.bind_le (M.le_refl _) fun c => M.ite_le (fun _ => M.le_refl _) fun _ => ?_
        refine M.bind_le (M.le_refl _) fun s => M.bind_le (lookJoinRepeatLoop_mono b _ k) fun _ => ?_
        exact M.le_refl _
  | zeroOrMore q =>
    simp only [semJoin]
    cases asBasic C q with
    | none => exact Sub.le_refl _
    | some b =>
      refine fun s => ⟨?_, ?_⟩
      · refine M.bind_le (joinRepeatLoop_mono b _ _ k) fun ⟨_, _⟩ => ?_
        exact M.le_refl _
      · refine M.bind_le (lookJoinRepeatLoop_mono b _ k) fun _ => ?_
        exact M.le_refl _
  | _ => exact Sub.le_refl _

/-- Each body is monotone in its loop fuel. -/
theorem step_fuel_le (rec : Parser α → Sub) (k : Nat) (p : Parser α) :
    (step C rec k p).le (step C rec (k + 1) p) := by
  cases p with
  | oneOrMore p =>
    refine fun s => ⟨?_, ?_⟩
    · refine M.bind_le (M.le_refl _) fun v => M.bind_le (oneOrMoreLoop_mono _ _ _ _ k) fun ⟨_, _, _⟩ => ?_
      exact M.le_refl _
    · refine M.bind_le (lookOneOrMoreLoop_mono _ _ k) fun ⟨_, _⟩ => ?_
      exact M.le_refl _
  | zeroOrMore p =>
    refine fun s => ⟨?_, ?_⟩
    · refine M.bind_le (M.le_refl _) fun v => M.bind_le (zeroOrMoreLoop_mono _ _ _ k) fun ⟨_, _⟩ => ?_
      exact M.le_refl _
    · refine M.bind_le (lookZeroOrMoreLoop_mono _ k) fun _ => ?_
      exact M.le_refl _
  | delimit p d =>
    refine fun s => ⟨?_, ?_⟩
    · refine M.bind_le (M.le_refl _) fun v => M.bind_le (M.le_refl _) fun r => ?_
      refine M.ite_le (fun _ => M.le_refl _) fun _ => ?_
      refine M.bind_le (delimitLoop_mono _ _ _ _ _ _ k) fun ⟨_, _⟩ => ?_
      exact M.le_refl _
    · refine M.bind_le (M.le_refl _) fun r => ?_
      refine M.ite_le (fun _ => M.le_refl _) fun _ => ?_
      refine M.bind_le (lookDelimitLoop_mono _ _ k) fun _ => ?_
      exact M.le_refl _
  | join p => exact semJoin_fuel_le rec k p
  | _ => exact Sub.le_refl _

end

/-! ### The fixed point -/

section
variable {C : Ctx α β}

/-- Each body is monotone in its sub-parsers. -/
theorem step_rec_le {rec rec' : Parser α → Sub} (h : ∀ p, (rec p).le (rec' p)) (k : Nat) (p : Parser α) :
    (step C rec k p).le (step C rec' k p) := by
  let r : Nat → Parser α → Sub := fun n => if n = 0 then rec else rec'
  have hr : ∀ p, SubLim (fun n => r n p) (rec' p) := by
    intro p
    refine ⟨fun s => ?_, fun s => ?_⟩
    · exact Lim.shift (m := fun n => (r n p).parse s) (by simpa [r] using Lim.const _) (h p s).1
    · exact Lim.shift (m := fun n => (r n p).look s) (by simpa [r] using Lim.const _) (h p s).2
  have := step_lim (C := C) hr k p
  exact fun s => ⟨(this.parse s).le 0, (this.look s).le 0⟩

/-- More fuel does not change an outcome. -/
theorem sem_le_succ (n : Nat) (p : Parser α) : (sem C n p).le (sem C (n + 1) p) := by
  induction n generalizing p with
  | zero => exact fun s => ⟨M.diverge_le _, M.diverge_le _⟩
  | succ n ih =>
    exact Sub.le_trans (step_rec_le ih n p) (step_fuel_le _ n p)

theorem sem_mono_parse (p : Parser α) (s : Span) : Mono (fun n => (sem C n p).parse s) :=
  fun n => (sem_le_succ n p s).1

theorem sem_mono_look (p : Parser α) (s : Span) : Mono (fun n => (sem C n p).look s) :=
  fun n => (sem_le_succ n p s).2

variable (C) in
/-- `parse` and `lookahead` without fuel. -/
noncomputable def den (p : Parser α) : Sub := ⟨Parse C p, Look C p⟩

theorem sem_lim (p : Parser α) : SubLim (fun n => sem C n p) (den C p) :=
  ⟨fun s => (sem_mono_parse p s).lim, fun s => (sem_mono_look p s).lim⟩

theorem Parse_eq_done {p : Parser α} {s : Span} {l r} :
    Parse C p s = .done l r ↔ ∃ n, (sem C n p).parse s = .done l r :=
  ((sem_lim p).parse s).iff l r

theorem Look_eq_done {p : Parser α} {s : Span} {l r} :
    Look C p s = .done l r ↔ ∃ n, (sem C n p).look s = .done l r :=
  ((sem_lim p).look s).iff l r

theorem Parse_eq_diverge {p : Parser α} {s : Span} :
    Parse C p s = .diverge ↔ ∀ n, (sem C n p).parse s = .diverge := by
  constructor
  · intro h n
    cases hn : (sem C n p).parse s with
    | diverge => rfl
    | done l r => rw [Parse_eq_done.2 ⟨n, hn⟩] at h; cases h
  · intro h
    cases hp : Parse C p s with
    | diverge => rfl
    | done l r => obtain ⟨n, hn⟩ := Parse_eq_done.1 hp; rw [h n] at hn; cases hn

theorem Look_eq_diverge {p : Parser α} {s : Span} :
    Look C p s = .diverge ↔ ∀ n, (sem C n p).look s = .diverge := by
  constructor
  · intro h n
    cases hn : (sem C n p).look s with
    | diverge => rfl
    | done l r => rw [Look_eq_done.2 ⟨n, hn⟩] at h; cases h
  · intro h
    cases hp : Look C p s with
    | diverge => rfl
    | done l r => obtain ⟨n, hn⟩ := Look_eq_done.1 hp; rw [h n] at hn; cases hn

theorem step_den_lim (p : Parser α) :
    SubLim (fun n => step C (sem C n) n p)
      ⟨fun s => lim fun k => (step C (den C) k p).parse s,
       fun s => lim fun k => (step C (den C) k p).look s⟩ := by
  refine ⟨fun s => ?_, fun s => ?_⟩
  · refine Lim.diag (a := fun n k => (step C (sem C n) k p).parse s) (fun k => ?_) (fun n k => ?_)
    · exact (step_lim sem_lim k p).parse s
    · exact (step_fuel_le _ k p s).1
  · refine Lim.diag (a := fun n k => (step C (sem C n) k p).look s) (fun k => ?_) (fun n k => ?_)
    · exact (step_lim sem_lim k p).look s
    · exact (step_fuel_le _ k p s).2

/-- The fixed-point equation, `parse`. -/
theorem Parse_eq (p : Parser α) (s : Span) :
    Parse C p s = lim fun k => (step C (den C) k p).parse s :=
  (((sem_lim p).parse s).tail).unique ((step_den_lim p).parse s)

/-- The fixed-point equation, `lookahead`. -/
theorem Look_eq (p : Parser α) (s : Span) :
    Look C p s = lim fun k => (step C (den C) k p).look s :=
  (((sem_lim p).look s).tail).unique ((step_den_lim p).look s)

theorem lim_const (m : M L A) : lim (fun _ => m) = m :=
  (Mono.lim (fun _ => M.le_refl _)).unique (Lim.const m)

theorem lim_bind_const {B : Type} (m : M L A) {f : Nat → A → M L B} (h : ∀ a, Mono (fun n => f n a)) :
    lim (fun n => M.bind m (f n)) = M.bind m (fun a => lim (fun n => f n a)) := by
  have : Lim (fun n => M.bind m (f n)) (M.bind m (fun a => lim (fun n => f n a))) :=
    Lim.bind (Lim.const m) fun a => (h a).lim
  exact this.mono.lim.unique this

theorem Lim.eq {m : Nat → M L A} {a : M L A} (h : Lim m a) : lim m = a :=
  h.mono.lim.unique h

end

end Tok3n
