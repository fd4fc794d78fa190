import Verif.Proof.StatefulFix
import Verif.Proof.Closed
/-
Assertions on runs with stateful callbacks that are preserved by sequential composition hold
of every parser: the counterpart of `Proof/Closed.lean`.
-/

namespace Tok3n.Stateful

variable {σ α β : Type} {C : Ctx α β} {U : Callbacks σ} {P : ∀ A : Type, SRun σ A → Prop}

/-- calls no user function and throws nothing -/
def Calm (A : Type) (m : Run A) : Prop :=
  ∀ l r, m = .done l r → l = [] ∧ ∀ e, r ≠ .err (.exn e)

theorem calm_closed : Tok3n.Closed Calm where
  diverge _ := nofun
  pure _ _ l r h := by cases h; exact ⟨rfl, nofun⟩
  ub _ l r h := by cases h; exact ⟨rfl, nofun⟩
  ill _ l r h := by cases h; exact ⟨rfl, nofun⟩
  bind A B m f hm hf l r h := by
    cases hm' : m with
    | diverge => rw [hm'] at h; cases h
    | done l0 r0 =>
      rw [hm'] at h
      obtain ⟨rfl, he⟩ := hm _ _ hm'
      cases r0 with
      | err e => cases h; exact ⟨rfl, fun e' h => he e' (by cases h; rfl)⟩
      | ok a =>
        change M.after [] (f a) = _ at h
        cases hfa : f a with
        | diverge => rw [hfa] at h; cases h
        | done l1 r1 =>
          rw [hfa] at h
          cases h
          exact hf a _ _ hfa

/-- Preserved by everything a parser body does other than calling the user's functions. -/
structure Closed (P : ∀ A : Type, SRun σ A → Prop) : Prop where
  diverge : ∀ A : Type, P A SRun.diverge
  lift : ∀ (A : Type) (m : Run A), Calm A m → P A (SRun.lift m)
  bind : ∀ (A B : Type) (m : SRun σ A) (f : A → SRun σ B), P A m → (∀ a, P B (f a)) → P B (m >>= f)

theorem Closed.pure (H : Closed P) (A : Type) (a : A) : P A (SRun.pure a) := by
  rw [← lift_pure]; exact H.lift _ _ (calm_closed.pure _ _)

/-- The functions `p` maps or filters with satisfy the assertion. -/
def FnsOK (P : ∀ A : Type, SRun σ A → Prop) (C : Ctx α β) (U : Callbacks σ) (p : Parser α) : Prop :=
  ∀ q f, (ParseReach C p (.map q f) ∨ ParseReach C p (.filter q f)) → ∀ args, P _ (invoke C U f args)

theorem FnsOK.child {p q : Parser α} (h : FnsOK P C U p) (hc : ParseChild C p q) : FnsOK P C U q :=
  fun r f hr => h r f (hr.imp (.step hc) (.step hc))

/-- the tactic for loop-free bodies -/
syntax "sclosed " ident : tactic
macro_rules
  | `(tactic| sclosed $h:ident) => `(tactic|
      ((try simp only [liftM_eq]);
       repeat' (first
        | with_reducible exact Closed.diverge $h _
        | with_reducible exact Closed.pure $h _ _
        | with_reducible refine Closed.bind $h _ _ _ _ ?_ fun _ => ?_
        | with_reducible solve_by_elim (maxDepth := 2) -exfalso -symm
        | split)))

theorem mkElems_mem {rec : Parser α → Sub σ} {ps : List (Parser α)} {is : List (Option Nat)} {e : Elem σ}
    (h : e ∈ mkElems rec C ps is) : ∃ p ∈ ps, e.sub = rec p := by
  induction ps generalizing is with
  | nil => simp [mkElems] at h
  | cons p ps ih =>
    cases is with
    | nil => simp [mkElems] at h
    | cons i is =>
      simp only [mkElems, List.mem_cons] at h
      rcases h with rfl | h
      · exact ⟨p, by simp, rfl⟩
      · obtain ⟨q, h1, h2⟩ := ih h; exact ⟨q, by simp [h1], h2⟩

section
variable (H : Closed P) {T : Ty}
include H

theorem execute_closed {u c : Bool} (e : Elem σ) (st : Exec) (h1 : e.idx ≠ none → ∀ s, P _ (e.sub.parse s))
    (h2 : ∀ s, P _ (e.sub.look s)) : P _ (execute C T u c e st) := by
  have h3 : ∀ v r, P _ (SRun.lift (builderAssign T v r)) := fun v r => H.lift _ _ (builderAssign_closed calm_closed v r)
  have h4 : ∀ i t v r, P _ (SRun.lift (builderEmplaceAt C T i t v r)) := fun i t v r => H.lift _ _ (builderEmplaceAt_closed calm_closed i t v r)
  have h5 : ∀ v i r, P _ (SRun.lift (builderGetAssign T v i r)) := fun v i r => H.lift _ _ (builderGetAssign_closed calm_closed v i r)
  unfold execute
  split
  · sclosed H
  · rename_i h
    have h1 := h1 (by rw [h]; nofun)
    sclosed H

theorem foldOr_closed {exec : Elem σ → Exec → SRun σ (Bool × Exec)} (es : List (Elem σ)) (st : Exec)
    (h : ∀ e ∈ es, ∀ st, P _ (exec e st)) : P _ (foldOr exec es st) := by
  induction es generalizing st with
  | nil => exact H.pure _ _
  | cons e es ih =>
    have h1 := h e (by simp)
    have ih := fun st => ih st fun e he => h e (by simp [he])
    clear h
    rename_i ih0; clear ih0
    unfold foldOr; sclosed H

theorem foldAnd_closed {exec : Elem σ → Exec → SRun σ (Bool × Exec)} (es : List (Elem σ)) (st : Exec)
    (h : ∀ e ∈ es, ∀ st, P _ (exec e st)) : P _ (foldAnd exec es st) := by
  induction es generalizing st with
  | nil => exact H.pure _ _
  | cons e es ih =>
    have h1 := h e (by simp)
    have ih := fun st => ih st fun e he => h e (by simp [he])
    clear h
    rename_i ih0; clear ih0
    unfold foldAnd; sclosed H

end

theorem argVals_calm (t : Ty) (r : R) : Calm _ (argVals t r) := by
  have H := calm_closed
  have hde := deref_closed H
  unfold argVals; closed H

/-- the bodies of the specialised joins are calm: nothing they could call is logged -/
theorem step_parse_calm {k : Nat} (p : Parser α) {s : Span} :
    Calm _ ((Tok3n.step C (fun _ => ⟨fun _ => M.diverge, fun _ => M.diverge⟩) k (.join p)).parse s) := by
  have H := calm_closed
  have hfc := failureCondition_closed (C := C) H
  have hadv := advance_closed (C := C) H
  have hsub := subspan_closed H (mem := C.mem)
  have hde := deref_closed H
  have hjr : ∀ b k s r, Calm _ (joinRepeatLoop C b k s r) := by
    intro b k
    induction k with
    | zero => intro s r; exact H.diverge _
    | succ k ih => intro s r; unfold joinRepeatLoop; closed H
  have hje : ∀ b s0 n s r, Calm _ (joinExactlyLoop C b s0 n s r) := by
    intro b s0 n
    induction n with
    | zero => intro s r; exact H.pure _ _
    | succ n ih => intro s r; unfold joinExactlyLoop; closed H
  obtain ⟨-, -, h2⟩ := joinPieces_closed (C := C) H
  simp only [Tok3n.step]
  have hg : ∀ s, Calm _ (Tok3n.parseJoin C ⟨fun _ => M.diverge, fun _ => M.diverge⟩ s) := by
    intro s; unfold Tok3n.parseJoin; closed H
  unfold Tok3n.semJoin
  split
  all_goals first
    | exact hg s
    | (split
       · first
         | exact hje _ _ _ _ _
         | (simp only [parseJoinMaybeBasic, parseJoinOneOrMoreBasic, parseJoinZeroOrMoreBasic]; closed H)
       · exact hg s)

section
variable (H : Closed P)
include H

theorem step_parse_closed {rec : Parser α → Sub σ} {k : Nat} (hl : ∀ q s, P _ ((rec q).look s))
    (h : ∀ q, FnsOK P C U q → ∀ s, P _ ((rec q).parse s)) (p : Parser α) (hp : FnsOK P C U p) (s : Span) :
    P _ ((step C U rec k p).parse s) := by
  have hbi : ∀ T, P _ (SRun.lift (builderInit C T)) := fun T => H.lift _ _ (builderInit_closed calm_closed)
  cases p with
  | anyOf | noneOf | allOf | anything => exact H.lift _ _ (parseBasic_closed calm_closed _ _)
  | epsilon => exact H.lift _ _ (calm_closed.pure _ _)
  | choice ps =>
    simp only [step, parseChoice]
    refine H.bind _ _ _ _ (hbi _) fun v => H.bind _ _ _ _ (foldOr_closed H _ _ fun e he st => ?_) fun _ => by sclosed H
    obtain ⟨q, hm, hq⟩ := mkElems_mem he
    exact execute_closed H e st (fun _ => by rw [hq]; exact h q (hp.child (.choice hm))) (by rw [hq]; exact hl q)
  | sequence ps =>
    simp only [step, parseSequence]
    refine H.bind _ _ _ _ (hbi _) fun v => H.bind _ _ _ _ (foldAnd_closed H _ _ fun e he st => ?_) fun _ => by sclosed H
    obtain ⟨q, hm, hq⟩ := mkElems_mem he
    exact execute_closed H e st (fun _ => by rw [hq]; exact h q (hp.child (.sequence hm))) (by rw [hq]; exact hl q)
  | maybe p =>
    have := h p (hp.child .maybe)
    have : ∀ v r, P _ (SRun.lift (builderEmplace (resultFor C (.maybe p)) v r)) := fun v r => H.lift _ _ (builderEmplace_closed calm_closed v r)
    simp only [step, parseMaybe]; sclosed H
  | exactly p n =>
    have := h p (hp.child .exactly)
    have : ∀ v i r, P _ (SRun.lift (builderArrayAssign (resultFor C (.exactly p n)) v i r)) := fun v i r => H.lift _ _ (builderArrayAssign_closed calm_closed v i r)
    generalize hT : resultFor C (.exactly p n) = T at this
    have hl : ∀ s0 n i s v, P _ (exactlyLoop T (rec p) s0 n i s v) := by
      intro s0 n
      induction n with
      | zero => intro i s v; exact H.pure _ _
      | succ n ih => intro i s v; unfold exactlyLoop; sclosed H
    simp only [step, parseExactly, hT]
    exact H.bind _ _ _ _ (hbi _) fun v => hl _ _ _ _ _
  | oneOrMore p =>
    have := h p (hp.child .oneOrMore)
    have : ∀ v r, P _ (SRun.lift (builderInsertBack (resultFor C (.oneOrMore p)) v r)) := fun v r => H.lift _ _ (builderInsertBack_closed calm_closed v r)
    have hl : ∀ k b s v, P _ (oneOrMoreLoop (resultFor C (.oneOrMore p)) (rec p) k b s v) := by
      intro k
      induction k with
      | zero => intro b s v; exact H.diverge _
      | succ n ih => intro b s v; unfold oneOrMoreLoop; sclosed H
    simp only [step, parseOneOrMore]; sclosed H
  | zeroOrMore p =>
    have := h p (hp.child .zeroOrMore)
    have : ∀ v r, P _ (SRun.lift (builderInsertBack (resultFor C (.zeroOrMore p)) v r)) := fun v r => H.lift _ _ (builderInsertBack_closed calm_closed v r)
    have hl : ∀ k s v, P _ (zeroOrMoreLoop (resultFor C (.zeroOrMore p)) (rec p) k s v) := by
      intro k
      induction k with
      | zero => intro s v; exact H.diverge _
      | succ n ih => intro s v; unfold zeroOrMoreLoop; sclosed H
    simp only [step, parseZeroOrMore]; sclosed H
  | delimit p d =>
    have h1 := h p (hp.child .delimit)
    have h2 := h d (hp.child .delimiter)
    generalize hT : resultFor C (.delimit p d) = T
    have h6 : ∀ a b v r, P _ (SRun.lift (delimitRecordP T a b v r)) := by
      intro a b v r
      refine H.lift _ _ ?_
      have H := calm_closed
      have h3 := builderInsertBack_closed (T := T) H
      have h4 := builderInsertBackFirst_closed (T := T) H
      unfold delimitRecordP; closed H
    have h7 : ∀ a b v r r', P _ (SRun.lift (delimitRecordD T a b v r r')) := by
      intro a b v r r'
      refine H.lift _ _ ?_
      have H := calm_closed
      have h3 := builderInsertBack_closed (T := T) H
      have h4 := builderInsertBackFirst_closed (T := T) H
      have h5 := builderInsertBackSecond_closed (T := T) H
      unfold delimitRecordD; closed H
    have hl : ∀ k r s v, P _ (delimitLoop T (resultFor C p) (resultFor C d) (rec p) (rec d) k r s v) := by
      intro k
      induction k with
      | zero => intro r s v; exact H.diverge _
      | succ n ih => intro r s v; unfold delimitLoop; sclosed H
    simp only [step, parseDelimit, hT]; sclosed H
  | ignore p => exact hl p s
  | complete p => have := h p (hp.child .complete); simp only [step, parseComplete]; sclosed H
  | join p =>
    have h1 := h p (hp.child .join)
    have h2 : ∀ r, P _ (SRun.lift (joinExecutor C r)) := fun r => H.lift _ _ ((joinPieces_closed (C := C) calm_closed).2.2 r)
    have hg : ∀ s, P _ (parseJoin C (rec p) s) := by intro s; unfold parseJoin; sclosed H
    simp only [step]
    have hs := step_parse_calm (C := C) (k := k) p (s := s)
    cases p
    case exactly q n =>
      simp only [Tok3n.step, Tok3n.semJoin, semJoin] at hs ⊢
      cases hb : asBasic C q <;> rw [hb] at hs
      exacts [hg s, H.lift _ _ hs]
    case maybe q =>
      simp only [Tok3n.step, Tok3n.semJoin, semJoin] at hs ⊢
      cases hb : asBasic C q <;> rw [hb] at hs
      exacts [hg s, H.lift _ _ hs]
    case oneOrMore q =>
      simp only [Tok3n.step, Tok3n.semJoin, semJoin] at hs ⊢
      cases hb : asBasic C q <;> rw [hb] at hs
      exacts [hg s, H.lift _ _ hs]
    case zeroOrMore q =>
      simp only [Tok3n.step, Tok3n.semJoin, semJoin] at hs ⊢
      cases hb : asBasic C q <;> rw [hb] at hs
      exacts [hg s, H.lift _ _ hs]
    all_goals exact hg s
  | map p f =>
    have h1 := h p (hp.child .map)
    have h2 := hp p f (.inl .refl)
    have h3 : ∀ r, P _ (SRun.lift (argVals (resultFor C p) r)) := fun r => H.lift _ _ (argVals_calm _ r)
    simp only [step, parseMap]; sclosed H
  | filter p f =>
    have h1 := h p (hp.child .filter)
    have h2 := hp p f (.inr .refl)
    have h3 : ∀ r, P _ (SRun.lift (argVals (resultFor C p) r)) := fun r => H.lift _ _ (argVals_calm _ r)
    simp only [step, parseFilter]; sclosed H
  | named p n => exact h p (hp.child .named) s
  | custom k =>
    have h1 := h _ (hp.child .custom)
    have h2 : ∀ a b r, P _ (SRun.lift (convertResult C a b r)) := by
      intro a b r
      refine H.lift _ _ ?_
      have H := calm_closed
      have := convert_closed (C := C) H
      unfold convertResult; closed H
    simp only [step, parseCustom]; sclosed H

theorem sem_closed (n : Nat) (p : Parser α) :
    (∀ s, P _ ((sem C U n p).look s)) ∧ (FnsOK P C U p → ∀ s, P _ ((sem C U n p).parse s)) := by
  induction n generalizing p with
  | zero => exact ⟨fun _ => H.diverge _, fun _ _ => H.diverge _⟩
  | succ n ih =>
    refine ⟨fun s => ?_, fun hp s => step_parse_closed H (fun q => (ih q).1) (fun q => (ih q).2) p hp s⟩
    rw [sem_look C U (n + 1) p s]
    refine H.lift _ _ ?_
    exact Tok3n.sem_induct (fun _ S => ∀ s, Calm _ (S.look s)) (fun _ _ => calm_closed.diverge _)
      (fun rec k ih q s => step_look_closed calm_closed ih q s) (n + 1) p s

end

end Tok3n.Stateful
