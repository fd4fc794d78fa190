import Verif.Proof.StatefulLift
import Verif.Proof.Prefix
/-
Partial correctness of runs with stateful callbacks, and the counterpart of
`Proof/Prefix.lean`.
-/

namespace Tok3n.Stateful

variable {σ α β A B : Type}

/-- If the run ended, from whatever state, its value satisfies `Q`, its error `E`. -/
def Sat (m : SRun σ A) (Q : A → Prop) (E : Err → Prop) : Prop :=
  ∀ st, Tok3n.Sat (m st) (fun x => Q x.1) E

section
variable {Q Q' : A → Prop} {E E' : Err → Prop}

theorem Sat.diverge : Sat (SRun.diverge : SRun σ A) Q E := fun _ => trivial
theorem Sat.pure {a : A} (h : Q a) : Sat (SRun.pure a : SRun σ A) Q E := fun _ => h

theorem Sat.bind {m : SRun σ A} {f : A → SRun σ B} {Q' : B → Prop} (h : Sat m Q E)
    (hf : ∀ a, Q a → Sat (f a) Q' E) : Sat (m >>= f) Q' E :=
  fun st => Tok3n.Sat.bind (h st) fun x hx => hf x.1 hx x.2

theorem Sat.mono {m : SRun σ A} (h : Sat m Q E) (hQ : ∀ a, Q a → Q' a) (hE : ∀ e, E e → E' e) :
    Sat m Q' E' := fun st => (h st).mono (fun x => hQ x.1) hE

theorem Sat.post {m : SRun σ A} (h : Sat m Q E) (hQ : ∀ a, Q a → Q' a) : Sat m Q' E :=
  h.mono hQ fun _ h => h

theorem Sat.and {m : SRun σ A} (h : Sat m Q E) (h' : Sat m Q' E') :
    Sat m (fun a => Q a ∧ Q' a) (fun e => E e ∧ E' e) := fun st => (h st).and (h' st)

theorem Sat.ite {c : Prop} [Decidable c] {m m' : SRun σ A} (h : c → Sat m Q E)
    (h' : ¬c → Sat m' Q E) : Sat (if c then m else m') Q E := by
  by_cases hc : c
  · rw [if_pos hc]; exact h hc
  · rw [if_neg hc]; exact h' hc

theorem Sat.lift {m : Run A} (h : Tok3n.Sat m Q E) : Sat (SRun.lift m : SRun σ A) Q E :=
  fun _ => Tok3n.Sat.bind h fun _ ha => ha

theorem Sat.triv (m : SRun σ A) : Sat m (fun _ => True) anyErr := fun st => Tok3n.Sat.triv (m st)

end

/-- Induction over the fuel. -/
theorem sem_induct {C : Ctx α β} {U : Callbacks σ} (Φ : Parser α → Sub σ → Prop)
    (bot : ∀ p, Φ p ⟨fun _ => SRun.diverge, fun _ => SRun.diverge⟩)
    (hstep : ∀ rec k, (∀ q, Φ q (rec q)) → ∀ p, Φ p (step C U rec k p)) (n : Nat) (p : Parser α) :
    Φ p (sem C U n p) := by
  induction n generalizing p with
  | zero => exact bot p
  | succ n ih => exact hstep _ _ ih p

/-- both member functions hand back an end of the input, and all of it on failure -/
structure SubGood (P : Sub σ) : Prop where
  parse : ∀ s, Sat (P.parse s) (Good s) anyErr
  look : ∀ s, Sat (P.look s) (Good s) anyErr

theorem SubGood.lift {P : Tok3n.Sub} (h : Tok3n.SubGood P) : SubGood (Sub.lift P : Sub σ) :=
  ⟨fun s => .lift (h.parse s), fun s => .lift (h.look s)⟩

section
variable (C : Ctx α β)

/-- all sub-parsers of a list of elements are good -/
def ElemsGood (es : List (Elem σ)) : Prop := ∀ e ∈ es, SubGood e.sub

variable {C}

theorem execute_good {e : Elem σ} (he : SubGood e.sub) (T : Ty) (u c : Bool) (st : Exec) :
    Sat (execute C T u c e st)
      (fun x => x.2.input.SuffixOf st.input ∧ (x.1 = false → x.2.input = st.input)) anyErr := by
  obtain ⟨P, t, i⟩ := e
  cases i with
  | none =>
    refine Sat.bind (he.look _) fun r hr => Sat.pure ⟨hr.suffix, fun h => hr.fail ?_⟩
    simpa [R.hasValue] using h
  | some i =>
    refine Sat.bind (he.parse _) fun r hr => Sat.ite (fun _ => Sat.pure ⟨.refl _, fun _ => rfl⟩) fun _ => ?_
    exact Sat.bind (Sat.triv _) fun v _ => Sat.pure ⟨hr.suffix, nofun⟩

theorem foldOr_good {es : List (Elem σ)} (h : ElemsGood es) (T : Ty) (u c : Bool) (st : Exec) :
    Sat (foldOr (execute C T u c) es st) (fun x => x.2.input.SuffixOf st.input) anyErr := by
  induction es generalizing st with
  | nil => exact Sat.pure (.refl _)
  | cons e es ih =>
    refine Sat.bind (execute_good (h e (by simp)) T u c st) fun ⟨ok, st'⟩ hx => ?_
    refine Sat.ite (fun _ => Sat.pure hx.1) fun hn => ?_
    have : st'.input = st.input := hx.2 (by simpa using hn)
    exact (ih (fun e he => h e (by simp [he])) st').post fun a ha => by rw [← this]; exact ha

theorem foldAnd_good {es : List (Elem σ)} (h : ElemsGood es) (T : Ty) (u c : Bool) (st : Exec) :
    Sat (foldAnd (execute C T u c) es st) (fun x => x.2.input.SuffixOf st.input) anyErr := by
  induction es generalizing st with
  | nil => exact Sat.pure (.refl _)
  | cons e es ih =>
    refine Sat.bind (execute_good (h e (by simp)) T u c st) fun ⟨ok, st'⟩ hx => ?_
    refine Sat.ite (fun hn => ?_) fun _ => Sat.pure hx.1
    exact (ih (fun e he => h e (by simp [he])) st').post fun a ha => ha.trans hx.1

theorem mkElems_good {rec : Parser α → Sub σ} (h : ∀ q, SubGood (rec q)) (ps : List (Parser α))
    (is : List (Option Nat)) : ElemsGood (mkElems rec C ps is) := by
  induction ps generalizing is with
  | nil => cases is <;> intro e he <;> simp [mkElems] at he
  | cons p ps ih =>
    cases is with
    | nil => intro e he; simp [mkElems] at he
    | cons i is =>
      intro e he
      rcases List.mem_cons.1 he with rfl | he
      · exact h p
      · exact ih is e he

theorem mkLookElems_good {rec : Parser α → Sub σ} (h : ∀ q, SubGood (rec q)) (ps : List (Parser α)) :
    ElemsGood (mkLookElems rec C ps) := by
  induction ps with
  | nil => intro e he; simp [mkLookElems] at he
  | cons p ps ih =>
    intro e he
    rcases List.mem_cons.1 he with rfl | he
    · exact h p
    · exact ih e he

variable {P D : Sub σ} (hP : SubGood P) (hD : SubGood D)
include hP

theorem exactlyLoop_good (T : Ty) {o : Span} (todo i : Nat) (s : Span) (v : Val) (hs : s.SuffixOf o) :
    Sat (exactlyLoop T P o todo i s v) (Good o) anyErr := by
  induction todo generalizing i s v with
  | zero => exact Sat.pure (.build T v hs)
  | succ n ih =>
    refine Sat.bind (hP.parse s) fun r hr => Sat.ite (fun _ => Sat.pure (.failure o)) fun _ => ?_
    exact Sat.bind (Sat.triv _) fun v _ => ih _ _ _ (hr.suffix.trans hs)

theorem lookExactlyLoop_good {o : Span} (todo : Nat) (s : Span) (hs : s.SuffixOf o) :
    Sat (lookExactlyLoop P o todo s) (Good o) anyErr := by
  induction todo generalizing s with
  | zero => exact Sat.pure (.successVoid hs)
  | succ n ih =>
    refine Sat.bind (hP.look s) fun r hr => Sat.ite (fun _ => Sat.pure (.failure o)) fun _ => ?_
    exact ih _ (hr.suffix.trans hs)

theorem oneOrMoreLoop_good (T : Ty) (k : Nat) (b : Bool) (s : Span) (v : Val) :
    Sat (oneOrMoreLoop T P k b s v)
      (fun x => x.2.1.SuffixOf s ∧ (x.1 = false → x.2.1 = s) ∧ (b = true → x.1 = true)) anyErr := by
  induction k generalizing b s v with
  | zero => exact Sat.diverge
  | succ k ih =>
    refine Sat.bind (hP.parse s) fun r hr => Sat.ite (fun hv => ?_) fun hv => ?_
    · exact Sat.pure ⟨hr.suffix, fun _ => hr.of_not_hasValue (by simpa using hv), fun hb => by simp [hb]⟩
    · refine Sat.bind (Sat.triv _) fun v _ => ?_
      have hv' : r.hasValue = true := by simpa using hv
      refine (ih (b || r.hasValue) r.rem v).post fun a ⟨h1, _, h3⟩ => ?_
      have := h3 (by simp [hv'])
      exact ⟨h1.trans hr.suffix, fun hf => absurd (this.symm.trans hf) (by decide), fun _ => this⟩

theorem lookOneOrMoreLoop_good (k : Nat) (b : Bool) (s : Span) :
    Sat (lookOneOrMoreLoop P k b s)
      (fun x => x.2.SuffixOf s ∧ (x.1 = false → x.2 = s) ∧ (b = true → x.1 = true)) anyErr := by
  induction k generalizing b s with
  | zero => exact Sat.diverge
  | succ k ih =>
    refine Sat.bind (hP.look s) fun r hr => Sat.ite (fun hv => ?_) fun hv => ?_
    · exact Sat.pure ⟨hr.suffix, fun _ => hr.of_not_hasValue (by simpa using hv), fun hb => by simp [hb]⟩
    · have hv' : r.hasValue = true := by simpa using hv
      refine (ih (b || r.hasValue) r.rem).post fun a ⟨h1, _, h3⟩ => ?_
      have := h3 (by simp [hv'])
      exact ⟨h1.trans hr.suffix, fun hf => absurd (this.symm.trans hf) (by decide), fun _ => this⟩

theorem zeroOrMoreLoop_good (T : Ty) (k : Nat) (s : Span) (v : Val) :
    Sat (zeroOrMoreLoop T P k s v) (fun x => x.1.SuffixOf s) anyErr := by
  induction k generalizing s v with
  | zero => exact Sat.diverge
  | succ k ih =>
    refine Sat.bind (hP.parse s) fun r hr => Sat.ite (fun hv => Sat.pure hr.suffix) fun hv => ?_
    refine Sat.bind (Sat.triv _) fun v _ => (ih _ _).post fun a ha => ha.trans hr.suffix

theorem lookZeroOrMoreLoop_good (k : Nat) (s : Span) :
    Sat (lookZeroOrMoreLoop P k s) (fun x => x.SuffixOf s) anyErr := by
  induction k generalizing s with
  | zero => exact Sat.diverge
  | succ k ih =>
    refine Sat.bind (hP.look s) fun r hr => Sat.ite (fun hv => Sat.pure hr.suffix) fun hv => ?_
    exact (ih _).post fun a ha => ha.trans hr.suffix

include hD

theorem delimitLoop_good (T tp td : Ty) (k : Nat) {o : Span} (r : R) (s : Span) (v : Val)
    (hr : r.rem.SuffixOf o) (hs : s.SuffixOf o) :
    Sat (delimitLoop T tp td P D k r s v) (fun x => x.1.SuffixOf o) anyErr := by
  induction k generalizing r s v with
  | zero => exact Sat.diverge
  | succ k ih =>
    refine Sat.ite (fun _ => Sat.pure hs) fun _ => ?_
    refine Sat.bind (Sat.triv _) fun v _ => Sat.bind (hD.parse _) fun dr hdr => ?_
    refine Sat.ite (fun _ => Sat.pure hr) fun _ => ?_
    refine Sat.bind (hP.parse _) fun r' hr' => Sat.bind (Sat.triv _) fun v _ => ?_
    exact ih _ _ _ (hr'.suffix.trans (hdr.suffix.trans hr)) hr

theorem lookDelimitLoop_good (k : Nat) {o : Span} (r : R) (s : Span)
    (hr : r.rem.SuffixOf o) (hs : s.SuffixOf o) :
    Sat (lookDelimitLoop P D k r s) (fun x => x.SuffixOf o) anyErr := by
  induction k generalizing r s with
  | zero => exact Sat.diverge
  | succ k ih =>
    refine Sat.ite (fun _ => Sat.pure hs) fun _ => ?_
    refine Sat.bind (hD.look _) fun dr hdr => ?_
    refine Sat.ite (fun _ => Sat.pure hr) fun _ => ?_
    refine Sat.bind (hP.look _) fun r' hr' => ?_
    exact ih _ _ (hr'.suffix.trans (hdr.suffix.trans hr)) hr

end

section
variable {C : Ctx α β}

theorem joinGeneric_good {P : Sub σ} (hP : SubGood P) : SubGood (joinGeneric C P) := by
  refine ⟨fun s => ?_, hP.look⟩
  refine Sat.bind (hP.parse s) fun r hr => Sat.ite (fun _ => ?_) fun _ => Sat.pure (.failure s)
  refine Sat.bind (Sat.triv _) fun j _ => ?_
  cases j with
  | none => exact Sat.pure (.failure s)
  | some j => exact Sat.pure (.success _ hr.suffix)

theorem semJoin_good {rec : Parser α → Sub σ} (h : ∀ q, SubGood (rec q)) (k : Nat) (p : Parser α) :
    SubGood (semJoin C rec k p) := by
  have h0 : ∀ q : Parser α, Tok3n.SubGood (⟨fun _ => M.diverge, fun _ => M.diverge⟩ : Tok3n.Sub) :=
    fun _ => ⟨fun _ => Tok3n.Sat.diverge, fun _ => Tok3n.Sat.diverge⟩
  have hj := Tok3n.semJoin_good (C := C) h0 k p
  cases p
  case exactly q n =>
    simp only [semJoin, Tok3n.semJoin] at hj ⊢
    cases hb : asBasic C q <;> rw [hb] at hj
    exacts [joinGeneric_good (h _), .lift hj]
  case maybe q =>
    simp only [semJoin, Tok3n.semJoin] at hj ⊢
    cases hb : asBasic C q <;> rw [hb] at hj
    exacts [joinGeneric_good (h _), .lift hj]
  case oneOrMore q =>
    simp only [semJoin, Tok3n.semJoin] at hj ⊢
    cases hb : asBasic C q <;> rw [hb] at hj
    exacts [joinGeneric_good (h _), .lift hj]
  case zeroOrMore q =>
    simp only [semJoin, Tok3n.semJoin] at hj ⊢
    cases hb : asBasic C q <;> rw [hb] at hj
    exacts [joinGeneric_good (h _), .lift hj]
  all_goals exact joinGeneric_good (h _)

theorem step_good (U : Callbacks σ) {rec : Parser α → Sub σ} (k : Nat) (h : ∀ q, SubGood (rec q)) (p : Parser α) :
    SubGood (step C U rec k p) := by
  cases p with
  | anyOf _ | noneOf _ | allOf _ | anything =>
    exact .lift ⟨fun s => parseBasic_good C _ s, fun s => lookBasic_good C _ s⟩
  | epsilon => exact ⟨fun s => Sat.pure (.successVoid (.refl s)), fun s => Sat.pure (.successVoid (.refl s))⟩
  | choice ps =>
    refine ⟨fun s => ?_, fun s => ?_⟩
    · refine Sat.bind (Sat.triv _) fun v _ => ?_
      refine Sat.bind (foldOr_good (mkElems_good h _ _) _ _ _ _) fun x hx => ?_
      exact Sat.ite (fun _ => Sat.pure (.failure s)) fun _ => Sat.pure (.build _ _ hx)
    · refine Sat.bind (foldOr_good (mkLookElems_good h _) _ _ _ _) fun x hx => ?_
      exact Sat.ite (fun _ => Sat.pure (.successVoid hx)) fun _ => Sat.pure (.failure s)
  | sequence ps =>
    refine ⟨fun s => ?_, fun s => ?_⟩
    · refine Sat.bind (Sat.triv _) fun v _ => ?_
      refine Sat.bind (foldAnd_good (mkElems_good h _ _) _ _ _ _) fun x hx => ?_
      exact Sat.ite (fun _ => Sat.pure (.failure s)) fun _ => Sat.pure (.build _ _ hx)
    · refine Sat.bind (foldAnd_good (mkLookElems_good h _) _ _ _ _) fun x hx => ?_
      exact Sat.ite (fun _ => Sat.pure (.successVoid hx)) fun _ => Sat.pure (.failure s)
  | maybe p =>
    refine ⟨fun s => ?_, fun s => ?_⟩
    · refine Sat.bind (Sat.triv _) fun v _ => Sat.bind ((h p).parse s) fun r hr => ?_
      exact Sat.bind (Sat.triv _) fun v _ => Sat.pure (.build _ _ hr.suffix)
    · refine Sat.bind ((h p).look s) fun r hr => ?_
      exact Sat.ite (fun _ => Sat.pure (.successVoid hr.suffix)) fun _ => Sat.pure (.successVoid (.refl s))
  | exactly p n =>
    refine ⟨fun s => ?_, fun s => lookExactlyLoop_good (h p) n s (.refl s)⟩
    exact Sat.bind (Sat.triv _) fun v _ => exactlyLoop_good (h p) _ n 0 s v (.refl s)
  | oneOrMore p =>
    refine ⟨fun s => ?_, fun s => ?_⟩
    · refine Sat.bind (Sat.triv _) fun v _ => Sat.bind (oneOrMoreLoop_good (h p) _ k _ _ _) fun x hx => ?_
      obtain ⟨b, s', v⟩ := x
      refine Sat.ite (fun _ => Sat.pure (.build _ _ hx.1)) fun hb => ?_
      have : s' = s := hx.2.1 (by simpa using hb)
      subst this; exact Sat.pure (.failure _)
    · refine Sat.bind (lookOneOrMoreLoop_good (h p) k _ _) fun x hx => ?_
      obtain ⟨b, s'⟩ := x
      refine Sat.ite (fun _ => Sat.pure (.successVoid hx.1)) fun hb => ?_
      have : s' = s := hx.2.1 (by simpa using hb)
      subst this; exact Sat.pure (.failure _)
  | zeroOrMore p =>
    refine ⟨fun s => ?_, fun s => ?_⟩
    · refine Sat.bind (Sat.triv _) fun v _ => Sat.bind (zeroOrMoreLoop_good (h p) _ k _ _) fun x hx => ?_
      exact Sat.pure (.build _ _ hx)
    · exact Sat.bind (lookZeroOrMoreLoop_good (h p) k _) fun x hx => Sat.pure (.successVoid hx)
  | delimit p d =>
    refine ⟨fun s => ?_, fun s => ?_⟩
    · refine Sat.bind (Sat.triv _) fun v _ => Sat.bind ((h p).parse s) fun r hr => ?_
      refine Sat.ite (fun _ => Sat.pure (.failure s)) fun _ => ?_
      refine Sat.bind (delimitLoop_good (h p) (h d) _ _ _ k r s v hr.suffix (.refl s)) fun x hx => ?_
      exact Sat.pure (.build _ _ hx)
    · refine Sat.bind ((h p).look s) fun r hr => ?_
      refine Sat.ite (fun _ => Sat.pure (.failure s)) fun _ => ?_
      refine Sat.bind (lookDelimitLoop_good (h p) (h d) k r s hr.suffix (.refl s)) fun x hx => ?_
      exact Sat.pure (.successVoid hx)
  | ignore p => exact ⟨fun s => (h p).look s, fun s => (h p).look s⟩
  | complete p =>
    refine ⟨fun s => ?_, fun s => ?_⟩
    · refine Sat.bind ((h p).parse s) fun r hr => ?_
      exact Sat.ite (fun _ => Sat.pure (.failure s)) fun _ => Sat.pure hr
    · refine Sat.bind ((h p).look s) fun r hr => ?_
      exact Sat.ite (fun _ => Sat.pure (.failure s)) fun _ => Sat.pure hr
  | join p => exact semJoin_good h k p
  | map p f =>
    refine ⟨fun s => ?_, fun s => (h p).look s⟩
    refine Sat.bind ((h p).parse s) fun r hr => Sat.ite (fun _ => Sat.pure (.failure s)) fun _ => ?_
    refine Sat.bind (Sat.triv _) fun _ _ => Sat.bind (Sat.triv _) fun _ _ => ?_
    exact Sat.ite (fun _ => Sat.pure (.successVoid hr.suffix)) fun _ => Sat.pure (.success _ hr.suffix)
  | filter p f =>
    refine ⟨fun s => ?_, fun s => (h p).look s⟩
    refine Sat.bind ((h p).parse s) fun r hr => Sat.ite (fun _ => Sat.pure (.failure s)) fun _ => ?_
    refine Sat.bind (Sat.triv _) fun _ _ => Sat.bind (Sat.triv _) fun _ _ => ?_
    exact Sat.ite (fun _ => Sat.pure hr) fun _ => Sat.pure (.failure s)
  | named p _ => exact h p
  | custom j =>
    refine ⟨fun s => ?_, fun s => (h _).look s⟩
    refine Sat.bind ((h _).parse s) fun r hr => ?_
    refine Sat.lift ?_
    refine Tok3n.Sat.ite (fun _ => Tok3n.Sat.pure hr) fun _ =>
      Tok3n.Sat.ite (fun _ => Tok3n.Sat.fail trivial) fun _ => ?_
    cases fromOptional C (resultFor C (C.custom j).body) (C.custom j).ty with
    | some g => exact Tok3n.Sat.pure ⟨hr.suffix, nofun⟩
    | none =>
      cases hv : r.val with
      | none => exact Tok3n.Sat.pure hr
      | some v => exact Tok3n.Sat.bind (Tok3n.Sat.triv _) fun _ _ => Tok3n.Sat.pure ⟨hr.suffix, nofun⟩

theorem sem_good (U : Callbacks σ) (n : Nat) (p : Parser α) : SubGood (sem C U n p) :=
  sem_induct (fun _ P => SubGood P) (fun _ => ⟨fun _ => Sat.diverge, fun _ => Sat.diverge⟩)
    (fun _ k h p => step_good U k h p) n p

end

end Tok3n.Stateful
