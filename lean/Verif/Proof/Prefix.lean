import Verif.Proof.Hoare
import Verif.Spec.Outcome
/-
Induction I: a failing parser gives its input back, a successful one leaves a suffix.
No assumption on the parser, the input or the context.
-/

namespace Tok3n

variable {α β : Type}

theorem Span.Advanced.refl (s : Span) : s.Advanced 0 s := ⟨by omega, .inl ⟨rfl, rfl⟩⟩

theorem Span.Advanced.trans {s s' s'' : Span} {j k : Nat} (h : s.Advanced j s') (h' : s'.Advanced k s'') :
    s.Advanced (j + k) s'' := by
  refine ⟨by have := h.size; have := h'.size; omega, ?_⟩
  rcases h.start with ⟨rfl, e⟩ | ⟨b, o, e, e'⟩
  · rcases h'.start with ⟨rfl, e2⟩ | ⟨b, o, e2, e2'⟩
    · exact .inl ⟨rfl, e2.trans e⟩
    · exact .inr ⟨b, o, by rw [← e, e2], by rw [e2']; simp⟩
  · rcases h'.start with ⟨rfl, e2⟩ | ⟨b', o', e2, e2'⟩
    · exact .inr ⟨b, o, e, by rw [e2, e']; simp⟩
    · rw [e'] at e2; cases e2
      exact .inr ⟨b, o, e, by rw [e2']; simp [Nat.add_assoc]⟩

theorem Span.SuffixOf.refl (s : Span) : s.SuffixOf s := ⟨0, .refl s⟩

theorem Span.SuffixOf.trans {s s' s'' : Span} (h : s''.SuffixOf s') (h' : s'.SuffixOf s) :
    s''.SuffixOf s := by
  obtain ⟨k, h⟩ := h; obtain ⟨j, h'⟩ := h'; exact ⟨_, h'.trans h⟩

/-- The invariant of a result. -/
structure Good (s : Span) (r : R) : Prop where
  suffix : r.rem.SuffixOf s
  fail : r.val = none → r.rem = s

theorem Good.trans {s s' : Span} {r : R} (h : Good s' r) (hs : s'.SuffixOf s) : r.rem.SuffixOf s :=
  h.suffix.trans hs

theorem Good.failure (s : Span) : Good s (R.failure s) := ⟨.refl s, fun _ => rfl⟩
theorem Good.success {s s' : Span} (v : Val) (h : s'.SuffixOf s) : Good s (R.success v s') :=
  ⟨h, nofun⟩
theorem Good.successVoid {s s' : Span} (h : s'.SuffixOf s) : Good s (R.successVoid s') :=
  ⟨h, nofun⟩
theorem Good.build {s s' : Span} (T : Ty) (v : Val) (h : s'.SuffixOf s) :
    Good s (builderBuild T v s') := by
  unfold builderBuild; split
  · exact .successVoid h
  · exact .success v h

theorem Good.of_not_hasValue {s : Span} {r : R} (h : Good s r) (hv : ¬ r.hasValue = true) : r.rem = s :=
  h.fail (by simpa [R.hasValue] using hv)

structure SubGood (P : Sub) : Prop where
  parse : ∀ s, Sat (P.parse s) (Good s) anyErr
  look : ∀ s, Sat (P.look s) (Good s) anyErr

section
variable {L A : Type}
theorem Sat.triv (m : M L A) : Sat m (fun _ => True) anyErr := by
  cases m with
  | diverge => trivial
  | done l r => cases r <;> trivial
end

theorem ptrAdd_good {L : Type} (mem : Mem β) (p : Ptr) (n : Nat) :
    Sat (p.add mem n : M L Ptr)
      (fun q => (n = 0 ∧ q = p) ∨ ∃ b o, p = .at b o ∧ q = .at b (o + n)) anyErr := by
  cases p with
  | null =>
    refine Sat.ite (fun h => Sat.pure (.inl ⟨h, rfl⟩)) fun _ => Sat.fail trivial
  | «at» b o =>
    exact Sat.ite (fun h => Sat.pure (.inr ⟨b, o, rfl, rfl⟩)) fun _ => Sat.fail trivial

theorem advance_good (C : Ctx α β) (s : Span) (n : Nat) :
    Sat (advance C s n) (fun s' => s.Advanced n s') anyErr := by
  refine Sat.bind (ptrAdd_good _ _ _) fun p hp => ?_
  refine Sat.bind (Q := fun k => n + k = s.len) ?_ fun k hk => Sat.pure ⟨hk, hp⟩
  exact Sat.ite (fun h => Sat.pure (by omega)) fun _ => Sat.fail trivial

theorem subspan_good (C : Ctx α β) (s : Span) (n : Nat) :
    Sat (s.subspan C.mem n : Run Span) (fun s' => s.Advanced n s') anyErr := by
  refine Sat.ite (fun h => ?_) fun _ => Sat.fail trivial
  exact Sat.bind (ptrAdd_good _ _ _) fun p hp => Sat.pure ⟨by show n + (s.len - n) = s.len; omega, hp⟩

section
variable (C : Ctx α β)

theorem parseBasic_good (b : BasicP α) (s : Span) : Sat (parseBasic C b s) (Good s) anyErr := by
  refine Sat.bind (Sat.triv _) fun c _ => Sat.ite (fun _ => Sat.pure (.failure s)) fun _ => ?_
  exact Sat.bind (advance_good C s _) fun s' h => Sat.pure (.success _ ⟨_, h⟩)

theorem lookBasic_good (b : BasicP α) (s : Span) : Sat (lookBasic C b s) (Good s) anyErr := by
  refine Sat.bind (Sat.triv _) fun c _ => Sat.ite (fun _ => Sat.pure (.failure s)) fun _ => ?_
  exact Sat.bind (advance_good C s _) fun s' h => Sat.pure (.successVoid ⟨_, h⟩)

/-- all sub-parsers of a list of elements are good -/
def ElemsGood (es : List Elem) : Prop := ∀ e ∈ es, SubGood e.sub

variable {C}

theorem execute_good {e : Elem} (he : SubGood e.sub) (T : Ty) (u c : Bool) (st : Exec) :
    Sat (execute C T u c e st)
      (fun x => x.2.input.SuffixOf st.input ∧ (x.1 = false → x.2.input = st.input)) anyErr := by
  obtain ⟨P, t, i⟩ := e
  cases i with
  | none =>
    refine Sat.bind (he.look _) fun r hr => Sat.pure ⟨hr.suffix, fun h => hr.fail ?_⟩
    simpa [R.hasValue] using h
  | some i =>
    refine Sat.bind (he.parse _) fun r hr => Sat.ite (fun _ => Sat.pure ⟨.refl _, fun _ => rfl⟩) fun _ => ?_
    exact Sat.bind (Sat.triv _) fun v _ => Sat.pure ⟨hr.suffix, nofun⟩

theorem foldOr_good {es : List Elem} (h : ElemsGood es) (T : Ty) (u c : Bool) (st : Exec) :
    Sat (foldOr (execute C T u c) es st) (fun x => x.2.input.SuffixOf st.input) anyErr := by
  induction es generalizing st with
  | nil => exact Sat.pure (.refl _)
  | cons e es ih =>
    refine Sat.bind (execute_good (h e (by simp)) T u c st) fun ⟨ok, st'⟩ hx => ?_
    refine Sat.ite (fun _ => Sat.pure hx.1) fun hn => ?_
    have : st'.input = st.input := hx.2 (by simpa using hn)
    exact (ih (fun e he => h e (by simp [he])) st').post fun a ha => by rw [← this]; exact ha

theorem foldAnd_good {es : List Elem} (h : ElemsGood es) (T : Ty) (u c : Bool) (st : Exec) :
    Sat (foldAnd (execute C T u c) es st) (fun x => x.2.input.SuffixOf st.input) anyErr := by
  induction es generalizing st with
  | nil => exact Sat.pure (.refl _)
  | cons e es ih =>
    refine Sat.bind (execute_good (h e (by simp)) T u c st) fun ⟨ok, st'⟩ hx => ?_
    refine Sat.ite (fun hn => ?_) fun _ => Sat.pure hx.1
    exact (ih (fun e he => h e (by simp [he])) st').post fun a ha => ha.trans hx.1

theorem mkElems_good {rec : Parser α → Sub} (h : ∀ q, SubGood (rec q)) (ps : List (Parser α))
    (is : List (Option Nat)) : ElemsGood (mkElems rec C ps is) := by
  induction ps generalizing is with
  | nil => cases is <;> intro e he <;> simp [mkElems] at he
  | cons p ps ih =>
    cases is with
    | nil => intro e he; simp [mkElems] at he
    | cons i is =>
      intro e he
      rcases List.mem_cons.1 he with rfl | he
      · exact h p
      · exact ih is e he

theorem mkLookElems_good {rec : Parser α → Sub} (h : ∀ q, SubGood (rec q)) (ps : List (Parser α)) :
    ElemsGood (mkLookElems rec C ps) := by
  induction ps with
  | nil => intro e he; simp [mkLookElems] at he
  | cons p ps ih =>
    intro e he
    rcases List.mem_cons.1 he with rfl | he
    · exact h p
    · exact ih e he

variable {P D : Sub} (hP : SubGood P) (hD : SubGood D)
include hP

theorem exactlyLoop_good (T : Ty) {o : Span} (todo i : Nat) (s : Span) (v : Val) (hs : s.SuffixOf o) :
    Sat (exactlyLoop T P o todo i s v) (Good o) anyErr := by
  induction todo generalizing i s v with
  | zero => exact Sat.pure (.build T v hs)
  | succ n ih =>
    refine Sat.bind (hP.parse s) fun r hr => Sat.ite (fun _ => Sat.pure (.failure o)) fun _ => ?_
    exact Sat.bind (Sat.triv _) fun v _ => ih _ _ _ (hr.suffix.trans hs)

theorem lookExactlyLoop_good {o : Span} (todo : Nat) (s : Span) (hs : s.SuffixOf o) :
    Sat (lookExactlyLoop P o todo s) (Good o) anyErr := by
  induction todo generalizing s with
  | zero => exact Sat.pure (.successVoid hs)
  | succ n ih =>
    refine Sat.bind (hP.look s) fun r hr => Sat.ite (fun _ => Sat.pure (.failure o)) fun _ => ?_
    exact ih _ (hr.suffix.trans hs)

theorem oneOrMoreLoop_good (T : Ty) (k : Nat) (b : Bool) (s : Span) (v : Val) :
    Sat (oneOrMoreLoop T P k b s v)
      (fun x => x.2.1.SuffixOf s ∧ (x.1 = false → x.2.1 = s)) anyErr := by
  induction k generalizing b s v with
  | zero => exact Sat.diverge
  | succ k ih =>
    refine Sat.bind (hP.parse s) fun r hr => Sat.ite (fun hv => ?_) fun hv => ?_
    · exact Sat.pure ⟨hr.suffix, fun _ => hr.of_not_hasValue (by simpa using hv)⟩
    · refine Sat.bind (Sat.triv _) fun v _ => ?_
      have hv' : r.hasValue = true := by simpa using hv
      refine Sat.intro (fun l a ha => ?_) fun _ _ _ => trivial
      have hl := (ih (b || r.hasValue) r.rem v).ok ha
      refine ⟨hl.1.trans hr.suffix, fun hf => ?_⟩
      exfalso
      have hb : b || r.hasValue := by simp [hv']
      exact oneOrMoreLoop_true hb ha hf
where
  oneOrMoreLoop_true {T : Ty} {P : Sub} {k : Nat} {b : Bool} {s : Span} {v : Val} {l a}
      (hb : b = true) (h : oneOrMoreLoop T P k b s v = .done l (.ok a)) (hf : a.1 = false) : False := by
    induction k generalizing b s v l with
    | zero => cases h
    | succ k ih =>
      subst hb
      simp only [oneOrMoreLoop, M.bind_eq, M.bind_eq_ok] at h
      obtain ⟨l1, r, l2, -, h, -⟩ := h
      split at h
      · have := (M.pure_eq_ok _).1 h
        rw [this.2] at hf; simp at hf
      · rw [M.bind_eq_ok] at h
        obtain ⟨l3, v', l4, -, h, -⟩ := h
        exact ih (by simp) h

theorem lookOneOrMoreLoop_good (k : Nat) (b : Bool) (s : Span) :
    Sat (lookOneOrMoreLoop P k b s)
      (fun x => x.2.SuffixOf s ∧ (x.1 = false → x.2 = s)) anyErr := by
  induction k generalizing b s with
  | zero => exact Sat.diverge
  | succ k ih =>
    refine Sat.bind (hP.look s) fun r hr => Sat.ite (fun hv => ?_) fun hv => ?_
    · exact Sat.pure ⟨hr.suffix, fun _ => hr.of_not_hasValue (by simpa using hv)⟩
    · have hv' : r.hasValue = true := by simpa using hv
      refine Sat.intro (fun l a ha => ?_) fun _ _ _ => trivial
      have hl := (ih (b || r.hasValue) r.rem).ok ha
      refine ⟨hl.1.trans hr.suffix, fun hf => ?_⟩
      exfalso
      have hb : b || r.hasValue := by simp [hv']
      exact look_true hb ha hf
where
  look_true {P : Sub} {k : Nat} {b : Bool} {s : Span} {l a}
      (hb : b = true) (h : lookOneOrMoreLoop P k b s = .done l (.ok a)) (hf : a.1 = false) : False := by
    induction k generalizing b s l with
    | zero => cases h
    | succ k ih =>
      subst hb
      simp only [lookOneOrMoreLoop, M.bind_eq, M.bind_eq_ok] at h
      obtain ⟨l1, r, l2, -, h, -⟩ := h
      split at h
      · have := (M.pure_eq_ok _).1 h
        rw [this.2] at hf; simp at hf
      · exact ih (by simp) h

theorem zeroOrMoreLoop_good (T : Ty) (k : Nat) (s : Span) (v : Val) :
    Sat (zeroOrMoreLoop T P k s v) (fun x => x.1.SuffixOf s) anyErr := by
  induction k generalizing s v with
  | zero => exact Sat.diverge
  | succ k ih =>
    refine Sat.bind (hP.parse s) fun r hr => Sat.ite (fun hv => Sat.pure hr.suffix) fun hv => ?_
    refine Sat.bind (Sat.triv _) fun v _ => (ih _ _).post fun a ha => ha.trans hr.suffix

theorem lookZeroOrMoreLoop_good (k : Nat) (s : Span) :
    Sat (lookZeroOrMoreLoop P k s) (fun x => x.SuffixOf s) anyErr := by
  induction k generalizing s with
  | zero => exact Sat.diverge
  | succ k ih =>
    refine Sat.bind (hP.look s) fun r hr => Sat.ite (fun hv => Sat.pure hr.suffix) fun hv => ?_
    exact (ih _).post fun a ha => ha.trans hr.suffix

include hD

theorem delimitLoop_good (T tp td : Ty) (k : Nat) {o : Span} (r : R) (s : Span) (v : Val)
    (hr : r.rem.SuffixOf o) (hs : s.SuffixOf o) :
    Sat (delimitLoop T tp td P D k r s v) (fun x => x.1.SuffixOf o) anyErr := by
  induction k generalizing r s v with
  | zero => exact Sat.diverge
  | succ k ih =>
    refine Sat.ite (fun _ => Sat.pure hs) fun _ => ?_
    refine Sat.bind (Sat.triv _) fun v _ => Sat.bind (hD.parse _) fun dr hdr => ?_
    refine Sat.ite (fun _ => Sat.pure hr) fun _ => ?_
    refine Sat.bind (hP.parse _) fun r' hr' => Sat.bind (Sat.triv _) fun v _ => ?_
    exact ih _ _ _ (hr'.suffix.trans (hdr.suffix.trans hr)) hr

theorem lookDelimitLoop_good (k : Nat) {o : Span} (r : R) (s : Span)
    (hr : r.rem.SuffixOf o) (hs : s.SuffixOf o) :
    Sat (lookDelimitLoop P D k r s) (fun x => x.SuffixOf o) anyErr := by
  induction k generalizing r s with
  | zero => exact Sat.diverge
  | succ k ih =>
    refine Sat.ite (fun _ => Sat.pure hs) fun _ => ?_
    refine Sat.bind (hD.look _) fun dr hdr => ?_
    refine Sat.ite (fun _ => Sat.pure hr) fun _ => ?_
    refine Sat.bind (hP.look _) fun r' hr' => ?_
    exact ih _ _ (hr'.suffix.trans (hdr.suffix.trans hr)) hr

end

section
variable {C : Ctx α β}

theorem joinExactlyLoop_good (b : BasicP α) {o : Span} (todo : Nat) (s res : Span) (hs : s.SuffixOf o) :
    Sat (joinExactlyLoop C b o todo s res) (Good o) anyErr := by
  induction todo generalizing s res with
  | zero => exact Sat.pure (.success _ hs)
  | succ n ih =>
    refine Sat.bind (Sat.triv _) fun c _ => Sat.ite (fun _ => Sat.pure (.failure o)) fun _ => ?_
    exact Sat.bind (subspan_good C s _) fun s' h => ih _ _ (Span.SuffixOf.trans ⟨_, h⟩ hs)

theorem lookJoinExactlyLoop_good (b : BasicP α) {o : Span} (todo : Nat) (s : Span) (hs : s.SuffixOf o) :
    Sat (lookJoinExactlyLoop C b o todo s) (Good o) anyErr := by
  induction todo generalizing s with
  | zero => exact Sat.pure (.successVoid hs)
  | succ n ih =>
    refine Sat.bind (Sat.triv _) fun c _ => Sat.ite (fun _ => Sat.pure (.failure o)) fun _ => ?_
    exact Sat.bind (subspan_good C s _) fun s' h => ih _ (Span.SuffixOf.trans ⟨_, h⟩ hs)

theorem joinRepeatLoop_good (b : BasicP α) (k : Nat) (s res : Span) :
    Sat (joinRepeatLoop C b k s res) (fun x => x.1.SuffixOf s) anyErr := by
  induction k generalizing s res with
  | zero => exact Sat.diverge
  | succ n ih =>
    refine Sat.bind (Sat.triv _) fun c _ => Sat.ite (fun _ => Sat.pure (.refl _)) fun _ => ?_
    exact Sat.bind (subspan_good C s _) fun s' h => (ih _ _).post fun a ha => ha.trans ⟨_, h⟩

theorem lookJoinRepeatLoop_good (b : BasicP α) (k : Nat) (s : Span) :
    Sat (lookJoinRepeatLoop C b k s) (fun x => x.SuffixOf s) anyErr := by
  induction k generalizing s with
  | zero => exact Sat.diverge
  | succ n ih =>
    refine Sat.bind (Sat.triv _) fun c _ => Sat.ite (fun _ => Sat.pure (.refl _)) fun _ => ?_
    exact Sat.bind (subspan_good C s _) fun s' h => (ih _).post fun a ha => ha.trans ⟨_, h⟩

theorem joinGeneric_good {P : Sub} (hP : SubGood P) : SubGood (joinGeneric C P) := by
  refine ⟨fun s => ?_, hP.look⟩
  refine Sat.bind (hP.parse s) fun r hr => Sat.ite (fun _ => ?_) fun _ => Sat.pure (.failure s)
  refine Sat.bind (Sat.triv _) fun j _ => ?_
  cases j with
  | none => exact Sat.pure (.failure s)
  | some j => exact Sat.pure (.success _ hr.suffix)

theorem semJoin_good {rec : Parser α → Sub} (h : ∀ q, SubGood (rec q)) (k : Nat) (p : Parser α) :
    SubGood (semJoin C rec k p) := by
  cases p with
  | exactly q n =>
    simp only [semJoin]
    cases asBasic C q with
    | none => exact joinGeneric_good (h _)
    | some b =>
      exact ⟨fun s => joinExactlyLoop_good b n s _ (.refl s), fun s => lookJoinExactlyLoop_good b n s (.refl s)⟩
  | maybe q =>
    simp only [semJoin]
    cases asBasic C q with
    | none => exact joinGeneric_good (h _)
    | some b =>
      refine ⟨fun s => ?_, fun s => ?_⟩
      · refine Sat.bind (Sat.triv _) fun c _ => Sat.ite (fun _ => Sat.pure (.success _ (.refl s))) fun _ => ?_
        exact Sat.bind (advance_good C s _) fun s' h => Sat.pure (.success _ ⟨_, h⟩)
      · refine Sat.bind (Sat.triv _) fun c _ => Sat.ite (fun _ => Sat.pure (.successVoid (.refl s))) fun _ => ?_
        exact Sat.bind (advance_good C s _) fun s' h => Sat.pure (.successVoid ⟨_, h⟩)
  | oneOrMore q =>
    simp only [semJoin]
    cases asBasic C q with
    | none => exact joinGeneric_good (h _)
    | some b =>
      refine ⟨fun s => ?_, fun s => ?_⟩
      · refine Sat.bind (Sat.triv _) fun c _ => Sat.ite (fun _ => Sat.pure (.failure s)) fun _ => ?_
        refine Sat.bind (subspan_good C s _) fun s' h => ?_
        exact Sat.bind (joinRepeatLoop_good b k _ _) fun x hx => Sat.pure (.success _ (hx.trans ⟨_, h⟩))
      · refine Sat.bind (Sat.triv _) fun c _ => Sat.ite (fun _ => Sat.pure (.failure s)) fun _ => ?_
        refine Sat.bind (subspan_good C s _) fun s' h => ?_
        exact Sat.bind (lookJoinRepeatLoop_good b k _) fun x hx => Sat.pure (.successVoid (hx.trans ⟨_, h⟩))
  | zeroOrMore q =>
    simp only [semJoin]
    cases asBasic C q with
    | none => exact joinGeneric_good (h _)
    | some b =>
      refine ⟨fun s => ?_, fun s => ?_⟩
      · exact Sat.bind (joinRepeatLoop_good b k _ _) fun x hx => Sat.pure (.success _ hx)
      · exact Sat.bind (lookJoinRepeatLoop_good b k _) fun x hx => Sat.pure (.successVoid hx)
  | _ => exact joinGeneric_good (h _)

theorem step_good {rec : Parser α → Sub} (k : Nat) (h : ∀ q, SubGood (rec q)) (p : Parser α) :
    SubGood (step C rec k p) := by
  cases p with
  | anyOf _ | noneOf _ | allOf _ | anything =>
    exact ⟨fun s => parseBasic_good C _ s, fun s => lookBasic_good C _ s⟩
  | epsilon => exact ⟨fun s => Sat.pure (.successVoid (.refl s)), fun s => Sat.pure (.successVoid (.refl s))⟩
  | choice ps =>
    refine ⟨fun s => ?_, fun s => ?_⟩
    · refine Sat.bind (Sat.triv _) fun v _ => ?_
      refine Sat.bind (foldOr_good (mkElems_good h _ _) _ _ _ _) fun x hx => ?_
      exact Sat.ite (fun _ => Sat.pure (.failure s)) fun _ => Sat.pure (.build _ _ hx)
    · refine Sat.bind (foldOr_good (mkLookElems_good h _) _ _ _ _) fun x hx => ?_
      exact Sat.ite (fun _ => Sat.pure (.successVoid hx)) fun _ => Sat.pure (.failure s)
  | sequence ps =>
    refine ⟨fun s => ?_, fun s => ?_⟩
    · refine Sat.bind (Sat.triv _) fun v _ => ?_
      refine Sat.bind (foldAnd_good (mkElems_good h _ _) _ _ _ _) fun x hx => ?_
      exact Sat.ite (fun _ => Sat.pure (.failure s)) fun _ => Sat.pure (.build _ _ hx)
    · refine Sat.bind (foldAnd_good (mkLookElems_good h _) _ _ _ _) fun x hx => ?_
      exact Sat.ite (fun _ => Sat.pure (.successVoid hx)) fun _ => Sat.pure (.failure s)
  | maybe p =>
    refine ⟨fun s => ?_, fun s => ?_⟩
    · refine Sat.bind (Sat.triv _) fun v _ => Sat.bind ((h p).parse s) fun r hr => ?_
      exact Sat.bind (Sat.triv _) fun v _ => Sat.pure (.build _ _ hr.suffix)
    · refine Sat.bind ((h p).look s) fun r hr => ?_
      exact Sat.ite (fun _ => Sat.pure (.successVoid hr.suffix)) fun _ => Sat.pure (.successVoid (.refl s))
  | exactly p n =>
    refine ⟨fun s => ?_, fun s => lookExactlyLoop_good (h p) n s (.refl s)⟩
    exact Sat.bind (Sat.triv _) fun v _ => exactlyLoop_good (h p) _ n 0 s v (.refl s)
  | oneOrMore p =>
    refine ⟨fun s => ?_, fun s => ?_⟩
    · refine Sat.bind (Sat.triv _) fun v _ => Sat.bind (oneOrMoreLoop_good (h p) _ k _ _ _) fun x hx => ?_
      obtain ⟨b, s', v⟩ := x
      refine Sat.ite (fun _ => Sat.pure (.build _ _ hx.1)) fun hb => ?_
      have : s' = s := hx.2 (by simpa using hb)
      subst this; exact Sat.pure (.failure _)
    · refine Sat.bind (lookOneOrMoreLoop_good (h p) k _ _) fun x hx => ?_
      obtain ⟨b, s'⟩ := x
      refine Sat.ite (fun _ => Sat.pure (.successVoid hx.1)) fun hb => ?_
      have : s' = s := hx.2 (by simpa using hb)
      subst this; exact Sat.pure (.failure _)
  | zeroOrMore p =>
    refine ⟨fun s => ?_, fun s => ?_⟩
    · refine Sat.bind (Sat.triv _) fun v _ => Sat.bind (zeroOrMoreLoop_good (h p) _ k _ _) fun x hx => ?_
      exact Sat.pure (.build _ _ hx)
    · exact Sat.bind (lookZeroOrMoreLoop_good (h p) k _) fun x hx => Sat.pure (.successVoid hx)
  | delimit p d =>
    refine ⟨fun s => ?_, fun s => ?_⟩
    · refine Sat.bind (Sat.triv _) fun v _ => Sat.bind ((h p).parse s) fun r hr => ?_
      refine Sat.ite (fun _ => Sat.pure (.failure s)) fun _ => ?_
      refine Sat.bind (delimitLoop_good (h p) (h d) _ _ _ k r s v hr.suffix (.refl s)) fun x hx => ?_
      exact Sat.pure (.build _ _ hx)
    · refine Sat.bind ((h p).look s) fun r hr => ?_
      refine Sat.ite (fun _ => Sat.pure (.failure s)) fun _ => ?_
      refine Sat.bind (lookDelimitLoop_good (h p) (h d) k r s hr.suffix (.refl s)) fun x hx => ?_
      exact Sat.pure (.successVoid hx)
  | ignore p => exact ⟨fun s => (h p).look s, fun s => (h p).look s⟩
  | complete p =>
    refine ⟨fun s => ?_, fun s => ?_⟩
    · refine Sat.bind ((h p).parse s) fun r hr => ?_
      exact Sat.ite (fun _ => Sat.pure (.failure s)) fun _ => Sat.pure hr
    · refine Sat.bind ((h p).look s) fun r hr => ?_
      exact Sat.ite (fun _ => Sat.pure (.failure s)) fun _ => Sat.pure hr
  | join p => exact semJoin_good h k p
  | map p f =>
    refine ⟨fun s => ?_, fun s => (h p).look s⟩
    refine Sat.bind ((h p).parse s) fun r hr => Sat.ite (fun _ => Sat.pure (.failure s)) fun _ => ?_
    refine Sat.bind (Sat.triv _) fun _ _ => Sat.bind (Sat.triv _) fun _ _ => ?_
    exact Sat.ite (fun _ => Sat.pure (.successVoid hr.suffix)) fun _ => Sat.pure (.success _ hr.suffix)
  | filter p f =>
    refine ⟨fun s => ?_, fun s => (h p).look s⟩
    refine Sat.bind ((h p).parse s) fun r hr => Sat.ite (fun _ => Sat.pure (.failure s)) fun _ => ?_
    refine Sat.bind (Sat.triv _) fun _ _ => Sat.bind (Sat.triv _) fun _ _ => ?_
    exact Sat.ite (fun _ => Sat.pure hr) fun _ => Sat.pure (.failure s)
  | named p _ => exact h p
  | custom j =>
    refine ⟨fun s => ?_, fun s => (h _).look s⟩
    refine Sat.bind ((h _).parse s) fun r hr => ?_
    refine Sat.ite (fun _ => Sat.pure hr) fun _ => Sat.ite (fun _ => Sat.fail trivial) fun _ => ?_
    cases fromOptional C (resultFor C (C.custom j).body) (C.custom j).ty with
    | some g => exact Sat.pure ⟨hr.suffix, nofun⟩
    | none =>
      cases hv : r.val with
      | none => exact Sat.pure hr
      | some v => exact Sat.bind (Sat.triv _) fun _ _ => Sat.pure ⟨hr.suffix, nofun⟩

theorem sem_good (n : Nat) (p : Parser α) : SubGood (sem C n p) :=
  sem_induct (fun _ P => SubGood P) (fun _ => ⟨fun _ => Sat.diverge, fun _ => Sat.diverge⟩)
    (fun _ k h p => step_good k h p) n p

theorem Parse_good (p : Parser α) (s : Span) : Sat (Parse C p s) (Good s) anyErr :=
  Parse_sat fun n => (sem_good n p).parse s

theorem Look_good (p : Parser α) (s : Span) : Sat (Look C p s) (Good s) anyErr :=
  Look_sat fun n => (sem_good n p).look s

theorem den_good (p : Parser α) : SubGood (den C p) := ⟨Parse_good p, Look_good p⟩

end

end Tok3n
