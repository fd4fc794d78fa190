import Verif.Proof.Basic
/-
Induction V: `lookahead` runs no callback, throws nothing, and on a readable input
commits no memory error.
-/

namespace Tok3n

variable {α β L A B : Type}

/-- If the run ended: no callback ran, its value satisfies `Q`, its error `E`. -/
def Quiet (m : M L A) (Q : A → Prop) (E : Err → Prop) : Prop :=
  match m with
  | .diverge => True
  | .done l (.ok a) => l = [] ∧ Q a
  | .done l (.err e) => l = [] ∧ E e

section
variable {Q Q' : A → Prop} {E E' : Err → Prop}

theorem Quiet.diverge : Quiet (M.diverge : M L A) Q E := trivial
theorem Quiet.pure {a : A} (h : Q a) : Quiet (M.pure a : M L A) Q E := ⟨rfl, h⟩
theorem Quiet.fail {e : Err} (h : E e) : Quiet (M.fail e : M L A) Q E := ⟨rfl, h⟩

theorem Quiet.bind {m : M L A} {f : A → M L B} {Q' : B → Prop} (h : Quiet m Q E)
    (hf : ∀ a, Q a → Quiet (f a) Q' E) : Quiet (M.bind m f) Q' E := by
  cases m with
  | diverge => trivial
  | done l r =>
    cases r with
    | err e => exact h
    | ok a =>
      have := hf a h.2
      have hl : l = [] := h.1
      subst hl
      show Quiet ((f a).after []) Q' E
      cases hfa : f a with
      | diverge => trivial
      | done l' r' => rw [hfa] at this; cases r' <;> exact this

theorem Quiet.mono {m : M L A} (h : Quiet m Q E) (hQ : ∀ a, Q a → Q' a) (hE : ∀ e, E e → E' e) :
    Quiet m Q' E' := by
  cases m with
  | diverge => trivial
  | done l r =>
    cases r with
    | ok a => exact ⟨h.1, hQ a h.2⟩
    | err e => exact ⟨h.1, hE e h.2⟩

theorem Quiet.post {m : M L A} (h : Quiet m Q E) (hQ : ∀ a, Q a → Q' a) : Quiet m Q' E :=
  h.mono hQ fun _ h => h

theorem Quiet.ite {c : Prop} [Decidable c] {m m' : M L A} (h : c → Quiet m Q E)
    (h' : ¬c → Quiet m' Q E) : Quiet (if c then m else m') Q E := by
  by_cases hc : c
  · rw [if_pos hc]; exact h hc
  · rw [if_neg hc]; exact h' hc

theorem Quiet.lim {m : Nat → M L A} {a : M L A} (h : Lim m a) (hm : ∀ n, Quiet (m n) Q E) :
    Quiet a Q E := by
  cases ha : a with
  | diverge => trivial
  | done l r =>
    obtain ⟨n, hn⟩ := (h.iff l r).1 ha
    have := hm n
    rw [hn] at this
    exact this

theorem Quiet.sat {m : M L A} (h : Quiet m Q E) : Sat m Q E := by
  cases m with
  | diverge => trivial
  | done l r => cases r <;> exact h.2

theorem Quiet.log {m : M L A} (h : Quiet m Q E) {l r} (hm : m = .done l r) : l = [] := by
  rw [hm] at h; cases r <;> exact h.1

end

/-- the only error: undefined behaviour because the input is not readable -/
def OnlyBadInput (C : Ctx α β) (s : Span) (e : Err) : Prop := e = .ub ∧ ¬ s.Valid C.mem

theorem OnlyBadInput.trans {C : Ctx α β} {s s' : Span} (hs : s'.SuffixOf s) {e : Err}
    (h : OnlyBadInput C s' e) : OnlyBadInput C s e := ⟨h.1, fun hv => h.2 (hs.valid hv)⟩

section
variable (C : Ctx α β)

/-- quiet on `s`, with a result that is good for `s` -/
abbrev QuietOn (m : Run R) (s : Span) : Prop := Quiet m (Good s) (OnlyBadInput C s)

/-- good, and without a value -/
structure GoodU (s : Span) (r : R) : Prop extends Good s r where
  unit : ∀ v, r.val = some v → v = .unit

theorem GoodU.failure (s : Span) : GoodU s (R.failure s) := ⟨.failure s, nofun⟩
theorem GoodU.successVoid {s s' : Span} (h : s'.SuffixOf s) : GoodU s (R.successVoid s') :=
  ⟨.successVoid h, by rintro v ⟨⟩; rfl⟩

/-- quiet on `s`, with a result that is good for `s` and has no value -/
abbrev QuietOnU (m : Run R) (s : Span) : Prop := Quiet m (GoodU s) (OnlyBadInput C s)

theorem ptrAdd_quiet (mem : Mem β) (p : Ptr) (n : Nat) :
    Quiet (p.add mem n : M L Ptr)
      (fun q => (n = 0 ∧ q = p) ∨ ∃ b o, p = .at b o ∧ q = .at b (o + n)) (· = .ub) := by
  cases p with
  | null =>
    refine Quiet.ite (fun h => Quiet.pure (.inl ⟨h, rfl⟩)) fun _ => Quiet.fail rfl
  | «at» b o =>
    exact Quiet.ite (fun h => Quiet.pure (.inr ⟨b, o, rfl, rfl⟩)) fun _ => Quiet.fail rfl

theorem ptrRead_quiet (mem : Mem β) (p : Ptr) (n : Nat) :
    Quiet (p.read mem n : M L β) (fun _ => True) (· = .ub) := by
  cases p with
  | null => exact Quiet.fail rfl
  | «at» b o =>
    show Quiet (M.ofOption .ub ((mem b)[o + n]?)) _ _
    cases (mem b)[o + n]? with
    | none => exact Quiet.fail rfl
    | some x => exact Quiet.pure trivial

theorem equalLoop_quiet {readL : Nat → M L A} {readR : Nat → M L B} {eqv : A → B → Bool}
    (hL : ∀ i, Quiet (readL i) (fun _ => True) (· = .ub))
    (hR : ∀ i, Quiet (readR i) (fun _ => True) (· = .ub)) (todo i : Nat) :
    Quiet (Span.equalLoop readL readR eqv todo i) (fun _ => True) (· = .ub) := by
  induction todo generalizing i with
  | zero => exact Quiet.pure trivial
  | succ n ih =>
    refine Quiet.bind (hL i) fun _ _ => Quiet.bind (hR i) fun _ _ => ?_
    exact Quiet.ite (fun _ => Quiet.pure trivial) fun _ => ih _

theorem failureCondition_quiet_ub (b : BasicP α) (s : Span) :
    Quiet (failureCondition C b s) (fun _ => True) (· = .ub) := by
  cases b with
  | anyOf arr =>
    refine Quiet.ite (fun _ => Quiet.pure trivial) fun _ => ?_
    refine Quiet.bind (Q := fun _ => True) ?_ fun _ _ => Quiet.pure trivial
    exact Quiet.ite (fun _ => Quiet.fail rfl) fun _ => ptrRead_quiet _ _ _
  | noneOf arr =>
    refine Quiet.ite (fun _ => Quiet.pure trivial) fun _ => ?_
    refine Quiet.bind (Q := fun _ => True) ?_ fun _ _ => Quiet.pure trivial
    exact Quiet.ite (fun _ => Quiet.fail rfl) fun _ => ptrRead_quiet _ _ _
  | allOf arr =>
    refine Quiet.ite (fun _ => Quiet.pure trivial) fun _ => ?_
    refine Quiet.bind (Q := fun _ => True) ?_ fun f _ => ?_
    · exact Quiet.ite (fun _ => Quiet.pure trivial) fun _ => Quiet.fail rfl
    · refine Quiet.bind (Q := fun _ => True) ?_ fun _ _ => Quiet.pure trivial
      exact Quiet.ite (fun _ => Quiet.pure trivial) fun _ =>
        equalLoop_quiet (fun _ => ptrRead_quiet _ _ _) (fun _ => ptrRead_quiet _ _ _) _ _
  | anything => exact Quiet.pure trivial

theorem advance_quiet_ub (s : Span) (n : Nat) : Quiet (advance C s n) (fun s' => s.Advanced n s') (· = .ub) := by
  refine Quiet.bind (ptrAdd_quiet _ _ _) fun p hp => ?_
  refine Quiet.bind (Q := fun k => n + k = s.len) ?_ fun k hk => Quiet.pure ⟨hk, hp⟩
  exact Quiet.ite (fun h => Quiet.pure (by omega)) fun _ => Quiet.fail rfl

theorem subspan_quiet_ub (s : Span) (n : Nat) :
    Quiet (s.subspan C.mem n : Run Span) (fun s' => s.Advanced n s') (· = .ub) := by
  refine Quiet.ite (fun h => ?_) fun _ => Quiet.fail rfl
  exact Quiet.bind (ptrAdd_quiet _ _ _) fun p hp => Quiet.pure ⟨by show n + (s.len - n) = s.len; omega, hp⟩

variable {C}

/-- assemble: `ub` is the only error in general, there is none on valid input -/
theorem Quiet.onlyBad {m : M L A} {Q : A → Prop} {s : Span} (h : Quiet m Q (· = .ub))
    (hv : s.Valid C.mem → ∃ a, m = M.pure a) : Quiet m Q (OnlyBadInput C s) := by
  by_cases hs : s.Valid C.mem
  · obtain ⟨a, rfl⟩ := hv hs
    exact ⟨rfl, h.2⟩
  · exact h.mono (fun _ h => h) fun e he => ⟨he, hs⟩

variable (C)

/-- the failure condition, and: if it is false the length fits -/
theorem failureCondition_quiet (b : BasicP α) (s : Span) :
    Quiet (failureCondition C b s) (fun c => s.Valid C.mem → c = false → b.length ≤ s.len)
      (OnlyBadInput C s) := by
  by_cases hs : s.Valid C.mem
  · rw [failureCondition_eq hs]
    refine Quiet.pure fun _ hc => ?_
    have := BasicP.accepts_length (b := b) (eqv := C.eqv) (by simpa using hc)
    rwa [hs.elems_length] at this
  · exact (failureCondition_quiet_ub C b s).mono (fun _ _ h => absurd h hs) fun e he => ⟨he, hs⟩

theorem advance_quiet {s : Span} {n : Nat} (h : s.Valid C.mem → n ≤ s.len) :
    Quiet (advance C s n) (fun s' => s.Advanced n s') (OnlyBadInput C s) :=
  (advance_quiet_ub C s n).onlyBad fun hs => ⟨_, hs.advance (h hs)⟩

theorem subspan_quiet {s : Span} {n : Nat} (h : s.Valid C.mem → n ≤ s.len) :
    Quiet (s.subspan C.mem n : Run Span) (fun s' => s.Advanced n s') (OnlyBadInput C s) :=
  (subspan_quiet_ub C s n).onlyBad fun hs => ⟨_, hs.subspan (h hs)⟩

theorem lookBasic_quiet (b : BasicP α) (s : Span) : QuietOnU C (lookBasic C b s) s := by
  refine Quiet.bind (failureCondition_quiet C b s) fun c hc => ?_
  refine Quiet.ite (fun _ => Quiet.pure (.failure s)) fun hn => ?_
  exact Quiet.bind (advance_quiet C fun hs => hc hs (by simpa using hn)) fun s' h =>
    Quiet.pure (.successVoid ⟨_, h⟩)

theorem lookJoinExactlyLoop_quiet (b : BasicP α) {o : Span} (todo : Nat) (s : Span) (hs : s.SuffixOf o) :
    QuietOnU C (lookJoinExactlyLoop C b o todo s) o := by
  induction todo generalizing s with
  | zero => exact Quiet.pure (.successVoid hs)
  | succ n ih =>
    refine Quiet.bind ((failureCondition_quiet C b s).mono (fun _ h => h) fun _ => .trans hs) fun c hc => ?_
    refine Quiet.ite (fun _ => Quiet.pure (.failure o)) fun hn => ?_
    refine Quiet.bind ((subspan_quiet C fun hs => hc hs (by simpa using hn)).mono (fun _ h => h) fun _ => .trans hs) fun s' h => ?_
    exact ih _ (Span.SuffixOf.trans ⟨_, h⟩ hs)

theorem lookJoinRepeatLoop_quiet (b : BasicP α) {o : Span} (k : Nat) (s : Span) (hs : s.SuffixOf o) :
    Quiet (lookJoinRepeatLoop C b k s) (fun x => x.SuffixOf o) (OnlyBadInput C o) := by
  induction k generalizing s with
  | zero => exact Quiet.diverge
  | succ n ih =>
    refine Quiet.bind ((failureCondition_quiet C b s).mono (fun _ h => h) fun _ => .trans hs) fun c hc => ?_
    refine Quiet.ite (fun _ => Quiet.pure hs) fun hn => ?_
    refine Quiet.bind ((subspan_quiet C fun hs => hc hs (by simpa using hn)).mono (fun _ h => h) fun _ => .trans hs) fun s' h => ?_
    exact ih _ (Span.SuffixOf.trans ⟨_, h⟩ hs)

/-- `lookahead` of the parser is quiet -/
def LookQuiet (P : Sub) : Prop := ∀ s, QuietOnU C (P.look s) s

variable {C} {P D : Sub}

theorem LookQuiet.from (hP : LookQuiet C P) {s o : Span} (hs : s.SuffixOf o) :
    Quiet (P.look s) (GoodU s) (OnlyBadInput C o) :=
  (hP s).mono (fun _ h => h) fun _ => .trans hs

theorem execLook_quiet (hP : LookQuiet C P) (T t : Ty) (u c : Bool) {o : Span} (st : Exec)
    (hs : st.input.SuffixOf o) :
    Quiet (execute C T u c ⟨P, t, none⟩ st)
      (fun x => x.2.input.SuffixOf st.input ∧ (x.1 = false → x.2.input = st.input)) (OnlyBadInput C o) := by
  refine Quiet.bind (hP.from hs) fun r hr => Quiet.pure ⟨hr.suffix, fun h => hr.fail ?_⟩
  simpa [R.hasValue] using h

theorem foldOrLook_quiet {rec : Parser α → Sub} (h : ∀ q, LookQuiet C (rec q)) (T : Ty) (u c : Bool)
    (ps : List (Parser α)) {o : Span} (st : Exec) (hs : st.input.SuffixOf o) :
    Quiet (foldOr (execute C T u c) (mkLookElems rec C ps) st) (fun x => x.2.input.SuffixOf o)
      (OnlyBadInput C o) := by
  induction ps generalizing st with
  | nil => exact Quiet.pure hs
  | cons p ps ih =>
    refine Quiet.bind (execLook_quiet (h p) T _ u c st hs) fun x hx => ?_
    exact Quiet.ite (fun _ => Quiet.pure (hx.1.trans hs)) fun hn => ih _ (hx.1.trans hs)

theorem foldAndLook_quiet {rec : Parser α → Sub} (h : ∀ q, LookQuiet C (rec q)) (T : Ty) (u c : Bool)
    (ps : List (Parser α)) {o : Span} (st : Exec) (hs : st.input.SuffixOf o) :
    Quiet (foldAnd (execute C T u c) (mkLookElems rec C ps) st) (fun x => x.2.input.SuffixOf o)
      (OnlyBadInput C o) := by
  induction ps generalizing st with
  | nil => exact Quiet.pure hs
  | cons p ps ih =>
    refine Quiet.bind (execLook_quiet (h p) T _ u c st hs) fun x hx => ?_
    exact Quiet.ite (fun _ => ih _ (hx.1.trans hs)) fun hn => Quiet.pure (hx.1.trans hs)

theorem lookExactlyLoop_quiet (hP : LookQuiet C P) {o : Span} (todo : Nat) (s : Span) (hs : s.SuffixOf o) :
    QuietOnU C (lookExactlyLoop P o todo s) o := by
  induction todo generalizing s with
  | zero => exact Quiet.pure (.successVoid hs)
  | succ n ih =>
    refine Quiet.bind (hP.from hs) fun r hr => Quiet.ite (fun _ => Quiet.pure (.failure o)) fun _ => ?_
    exact ih _ (hr.suffix.trans hs)

theorem lookOneOrMoreLoop_quiet (hP : LookQuiet C P) {o : Span} (k : Nat) (b : Bool) (s : Span)
    (hs : s.SuffixOf o) (hb : b = false → s = o) :
    Quiet (lookOneOrMoreLoop P k b s) (fun x => x.2.SuffixOf o ∧ (x.1 = false → x.2 = o))
      (OnlyBadInput C o) := by
  induction k generalizing b s with
  | zero => exact Quiet.diverge
  | succ k ih =>
    refine Quiet.bind (hP.from hs) fun r hr => Quiet.ite (fun hv => ?_) fun hv => ?_
    · refine Quiet.pure ⟨hr.suffix.trans hs, fun hb' => ?_⟩
      have hb2 : b = false := by simp at hb'; exact hb'.1
      rw [← hb hb2]
      exact hr.toGood.of_not_hasValue (by simpa using hv)
    · refine ih _ _ (hr.suffix.trans hs) fun hf => ?_
      simp at hv; simp [hv] at hf

theorem lookZeroOrMoreLoop_quiet (hP : LookQuiet C P) {o : Span} (k : Nat) (s : Span)
    (hs : s.SuffixOf o) :
    Quiet (lookZeroOrMoreLoop P k s) (fun x => x.SuffixOf o) (OnlyBadInput C o) := by
  induction k generalizing s with
  | zero => exact Quiet.diverge
  | succ k ih =>
    refine Quiet.bind (hP.from hs) fun r hr => Quiet.ite (fun hv => Quiet.pure (hr.suffix.trans hs)) fun hv => ?_
    exact ih _ (hr.suffix.trans hs)

theorem lookDelimitLoop_quiet (hP : LookQuiet C P) (hD : LookQuiet C D) (k : Nat) {o : Span} (r : R)
    (s : Span) (hr : r.rem.SuffixOf o) (hs : s.SuffixOf o) :
    Quiet (lookDelimitLoop P D k r s) (fun x => x.SuffixOf o) (OnlyBadInput C o) := by
  induction k generalizing r s with
  | zero => exact Quiet.diverge
  | succ k ih =>
    refine Quiet.ite (fun _ => Quiet.pure hs) fun _ => ?_
    refine Quiet.bind (hD.from hr) fun dr hdr => ?_
    refine Quiet.ite (fun _ => Quiet.pure hr) fun _ => ?_
    refine Quiet.bind (hP.from (hdr.suffix.trans hr)) fun r' hr' => ?_
    exact ih _ _ (hr'.suffix.trans (hdr.suffix.trans hr)) hr

theorem semJoin_quiet {rec : Parser α → Sub} (h : ∀ q, LookQuiet C (rec q)) (k : Nat) (p : Parser α) :
    LookQuiet C (semJoin C rec k p) := by
  cases p with
  | exactly q n =>
    simp only [semJoin]
    cases asBasic C q with
    | none => exact h _
    | some b => exact fun s => lookJoinExactlyLoop_quiet C b n s (.refl s)
  | maybe q =>
    simp only [semJoin]
    cases asBasic C q with
    | none => exact h _
    | some b =>
      intro s
      refine Quiet.bind (failureCondition_quiet C b s) fun c hc => ?_
      refine Quiet.ite (fun _ => Quiet.pure (.successVoid (.refl s))) fun hn => ?_
      exact Quiet.bind (advance_quiet C fun hs => hc hs (by simpa using hn)) fun s' h =>
        Quiet.pure (.successVoid ⟨_, h⟩)
  | oneOrMore q =>
    simp only [semJoin]
    cases asBasic C q with
    | none => exact h _
    | some b =>
      intro s
      refine Quiet.bind (failureCondition_quiet C b s) fun c hc => ?_
      refine Quiet.ite (fun _ => Quiet.pure (.failure s)) fun hn => ?_
      refine Quiet.bind (subspan_quiet C fun hs => hc hs (by simpa using hn)) fun s' h => ?_
      exact Quiet.bind (lookJoinRepeatLoop_quiet C b k _ ⟨_, h⟩) fun x hx => Quiet.pure (.successVoid hx)
  | zeroOrMore q =>
    simp only [semJoin]
    cases asBasic C q with
    | none => exact h _
    | some b =>
      intro s
      exact Quiet.bind (lookJoinRepeatLoop_quiet C b k _ (.refl s)) fun x hx => Quiet.pure (.successVoid hx)
  | _ => exact h _

theorem step_quiet {rec : Parser α → Sub} (k : Nat) (h : ∀ q, LookQuiet C (rec q)) (p : Parser α) :
    LookQuiet C (step C rec k p) := by
  intro s
  cases p with
  | anyOf _ | noneOf _ | allOf _ | anything => exact lookBasic_quiet C _ s
  | epsilon => exact Quiet.pure (.successVoid (.refl s))
  | choice ps =>
    refine Quiet.bind (foldOrLook_quiet h _ _ _ _ _ (.refl s)) fun x hx => ?_
    exact Quiet.ite (fun _ => Quiet.pure (.successVoid hx)) fun _ => Quiet.pure (.failure s)
  | sequence ps =>
    refine Quiet.bind (foldAndLook_quiet h _ _ _ _ _ (.refl s)) fun x hx => ?_
    exact Quiet.ite (fun _ => Quiet.pure (.successVoid hx)) fun _ => Quiet.pure (.failure s)
  | maybe p =>
    refine Quiet.bind (h p s) fun r hr => ?_
    exact Quiet.ite (fun _ => Quiet.pure (.successVoid hr.suffix)) fun _ => Quiet.pure (.successVoid (.refl s))
  | exactly p n => exact lookExactlyLoop_quiet (h p) n s (.refl s)
  | oneOrMore p =>
    refine Quiet.bind (lookOneOrMoreLoop_quiet (h p) k false s (.refl s) fun _ => rfl) fun x hx => ?_
    obtain ⟨b, s'⟩ := x
    refine Quiet.ite (fun _ => Quiet.pure (.successVoid hx.1)) fun hb => ?_
    have : s' = s := hx.2 (by simpa using hb)
    subst this; exact Quiet.pure (.failure _)
  | zeroOrMore p =>
    exact Quiet.bind (lookZeroOrMoreLoop_quiet (h p) k s (.refl s)) fun x hx => Quiet.pure (.successVoid hx)
  | delimit p d =>
    refine Quiet.bind (h p s) fun r hr => ?_
    refine Quiet.ite (fun _ => Quiet.pure (.failure s)) fun _ => ?_
    refine Quiet.bind (lookDelimitLoop_quiet (h p) (h d) k r s hr.suffix (.refl s)) fun x hx => ?_
    exact Quiet.pure (.successVoid hx)
  | ignore p => exact h p s
  | complete p =>
    refine Quiet.bind (h p s) fun r hr => ?_
    exact Quiet.ite (fun _ => Quiet.pure (.failure s)) fun _ => Quiet.pure hr
  | join p => exact semJoin_quiet h k p s
  | map p f => exact h p s
  | filter p f => exact h p s
  | named p _ => exact h p s
  | custom j => exact h _ s

theorem sem_quiet (n : Nat) (p : Parser α) : LookQuiet C (sem C n p) :=
  sem_induct (fun _ P => LookQuiet C P) (fun _ _ => Quiet.diverge) (fun _ k h p => step_quiet k h p) n p

theorem Look_quiet (p : Parser α) (s : Span) : QuietOnU C (Look C p s) s :=
  Quiet.lim ((sem_lim p).look s) fun n => sem_quiet n p s

end

end Tok3n
