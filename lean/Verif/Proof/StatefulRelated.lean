import Verif.Proof.StatefulTracks
import Verif.Spec.Used
/-
Two kinds of state side by side: the parsers hand the state on and never look at it.
-/

namespace Tok3n.Stateful

variable {σ τ α β A B : Type} {C : Ctx α β} {U : Callbacks σ} {W : Callbacks τ} {S : σ → τ → Prop}

/-- the same outcome, in states that correspond -/
inductive MRel (S : σ → τ → Prop) : M Call (A × σ) → M Call (A × τ) → Prop where
  | diverge : MRel S .diverge .diverge
  | err {l e} : MRel S (.done l (.err e)) (.done l (.err e))
  | ok {l a st st'} : S st st' → MRel S (.done l (.ok (a, st))) (.done l (.ok (a, st')))

def SRel (S : σ → τ → Prop) (m : SRun σ A) (m' : SRun τ A) : Prop := ∀ st st', S st st' → MRel S (m st) (m' st')

theorem MRel.after {m : M Call (A × σ)} {m' : M Call (A × τ)} (h : MRel S m m') (l : List Call) :
    MRel S (m.after l) (m'.after l) := by
  cases h with
  | diverge => exact .diverge
  | err => exact .err
  | ok h => exact .ok h

namespace SRel

theorem pure (a : A) : SRel S (SRun.pure a) (SRun.pure a) := fun _ _ h => .ok h
theorem diverge : SRel S (SRun.diverge : SRun σ A) SRun.diverge := fun _ _ _ => .diverge
theorem lift (m : Run A) : SRel S (SRun.lift m) (SRun.lift m) := fun st st' h => by
  unfold SRun.lift
  rcases m with _ | ⟨l, a | e⟩
  · exact .diverge
  · exact .ok h
  · exact .err

theorem bind {m : SRun σ A} {m' : SRun τ A} {f : A → SRun σ B} {f' : A → SRun τ B} (h : SRel S m m')
    (hf : ∀ a, SRel S (f a) (f' a)) : SRel S (m >>= f) (m' >>= f') := fun st st' hs => by
  show MRel S (M.bind (m st) _) (M.bind (m' st') _)
  have := h st st' hs
  revert this
  generalize m st = x; generalize m' st' = y
  intro h
  cases h with
  | diverge => exact .diverge
  | err => exact .err
  | ok h1 => exact (hf _ _ _ h1).after _

theorem ite {c : Prop} [Decidable c] {m n : SRun σ A} {m' n' : SRun τ A} (h : SRel S m m') (h' : SRel S n n') :
    SRel S (if c then m else n) (if c then m' else n') := by split <;> assumption

theorem answer {c : Call} {f : σ → Except Nat Val × σ} {g : τ → Except Nat Val × τ}
    (h : ∀ st st', S st st' → (f st).1 = (g st').1 ∧ S (f st).2 (g st').2) :
    SRel S (answer c f) (answer c g) := fun st st' hs => by
  obtain ⟨h1, h2⟩ := h st st' hs
  unfold Stateful.answer
  revert h1 h2
  rcases f st with ⟨x, st1⟩; rcases g st' with ⟨y, st2⟩
  rintro (rfl : x = y) h2
  cases x with
  | ok v => exact .ok h2
  | error e => exact .err

end SRel

/-- `parse` and `lookahead` of two parsers do the same -/
structure SubRel (S : σ → τ → Prop) (P : Sub σ) (Q : Sub τ) : Prop where
  parse : ∀ s, SRel S (P.parse s) (Q.parse s)
  look : ∀ s, SRel S (P.look s) (Q.look s)

structure ElemRel (S : σ → τ → Prop) (e : Elem σ) (e' : Elem τ) : Prop where
  ty : e.ty = e'.ty
  idx : e.idx = e'.idx
  sub : SubRel S e.sub e'.sub

theorem execute_rel (T : Ty) (u c : Bool) {e : Elem σ} {e' : Elem τ} (h : ElemRel S e e') (x : Exec) :
    SRel S (execute C T u c e x) (execute C T u c e' x) := by
  unfold execute
  rw [← h.idx, ← h.ty]
  cases e.idx with
  | none => exact .bind (h.sub.look _) fun r => .pure _
  | some i =>
    refine .bind (h.sub.parse _) fun r => .ite (.pure _) ?_
    refine .bind ?_ fun v => .pure _
    split
    · exact .lift _
    · split <;> exact .lift _

theorem foldOr_rel {ex : Elem σ → Exec → SRun σ (Bool × Exec)} {ex' : Elem τ → Exec → SRun τ (Bool × Exec)}
    {es : List (Elem σ)} {es' : List (Elem τ)}
    (h : List.Forall₂ (fun e e' => ∀ x, SRel S (ex e x) (ex' e' x)) es es') (x : Exec) :
    SRel S (foldOr ex es x) (foldOr ex' es' x) := by
  induction h generalizing x with
  | nil => exact .pure _
  | cons he _ ih => exact .bind (he x) fun y => .ite (.pure _) (ih _)

theorem foldAnd_rel {ex : Elem σ → Exec → SRun σ (Bool × Exec)} {ex' : Elem τ → Exec → SRun τ (Bool × Exec)}
    {es : List (Elem σ)} {es' : List (Elem τ)}
    (h : List.Forall₂ (fun e e' => ∀ x, SRel S (ex e x) (ex' e' x)) es es') (x : Exec) :
    SRel S (foldAnd ex es x) (foldAnd ex' es' x) := by
  induction h generalizing x with
  | nil => exact .pure _
  | cons he _ ih => exact .bind (he x) fun y => .ite (ih _) (.pure _)

theorem mkElems_rel {rec : Parser α → Sub σ} {rec' : Parser α → Sub τ} :
    ∀ (ps : List (Parser α)) (is : List (Option Nat)), (∀ p ∈ ps, SubRel S (rec p) (rec' p)) →
      List.Forall₂ (ElemRel S) (mkElems rec C ps is) (mkElems rec' C ps is)
  | [], _, _ => .nil
  | _ :: _, [], _ => .nil
  | p :: ps, _ :: is, h =>
    .cons ⟨rfl, rfl, h p (List.mem_cons_self ..)⟩ (mkElems_rel ps is fun q hq => h q (List.mem_cons_of_mem _ hq))

variable {P D : Sub σ} {Q E : Sub τ}

theorem exactlyLoop_rel (T : Ty) (h : SubRel S P Q) (o : Span) :
    ∀ (n i : Nat) (s : Span) (v : Val), SRel S (exactlyLoop T P o n i s v) (exactlyLoop T Q o n i s v)
  | 0, _, _, _ => .pure _
  | n + 1, i, s, v => .bind (h.parse s) fun _ => .ite (.pure _) (.bind (.lift _) fun _ => exactlyLoop_rel T h o n _ _ _)

theorem oneOrMoreLoop_rel (T : Ty) (h : SubRel S P Q) :
    ∀ (n : Nat) (b : Bool) (s : Span) (v : Val), SRel S (oneOrMoreLoop T P n b s v) (oneOrMoreLoop T Q n b s v)
  | 0, _, _, _ => .diverge
  | n + 1, b, s, v => .bind (h.parse s) fun _ => .ite (.pure _) (.bind (.lift _) fun _ => oneOrMoreLoop_rel T h n _ _ _)

theorem zeroOrMoreLoop_rel (T : Ty) (h : SubRel S P Q) :
    ∀ (n : Nat) (s : Span) (v : Val), SRel S (zeroOrMoreLoop T P n s v) (zeroOrMoreLoop T Q n s v)
  | 0, _, _ => .diverge
  | n + 1, s, v => .bind (h.parse s) fun _ => .ite (.pure _) (.bind (.lift _) fun _ => zeroOrMoreLoop_rel T h n _ _)

theorem delimitLoop_rel (T tp td : Ty) (h : SubRel S P Q) (hd : SubRel S D E) :
    ∀ (n : Nat) (r : R) (s : Span) (v : Val), SRel S (delimitLoop T tp td P D n r s v) (delimitLoop T tp td Q E n r s v)
  | 0, _, _, _ => .diverge
  | n + 1, _, _, _ => .ite (.pure _) (.bind (.lift _) fun _ => .bind (hd.parse _) fun _ => .ite (.pure _)
      (.bind (h.parse _) fun _ => .bind (.lift _) fun _ => delimitLoop_rel T tp td h hd n _ _ _))

theorem invoke_rel : ∀ {f : Fn}, Corresponds S U W f → ∀ args, SRel S (invoke C U f args) (invoke C W f args)
  | .user k, h, args => .answer fun st st' hs => h args st st' hs
  | .apply f, h, args => by
    unfold invoke
    split
    · split
      · exact invoke_rel (f := f) h _
      · exact .lift _
    · exact .lift _
  | .const _, _, _ => .answer fun _ _ hs => ⟨rfl, hs⟩
  | .construct t, h, args => .answer fun st st' hs => h args st st' hs
  | .deflt _, _, _ => .bind (.lift _) fun _ => .lift _

theorem joinGeneric_rel (h : SubRel S P Q) : SubRel S (joinGeneric C P) (joinGeneric C Q) where
  parse s := .bind (h.parse s) fun r => .ite (.bind (.lift _) fun j => by
    cases j
    · exact .pure _
    · exact .pure _) (.pure _)
  look := h.look

theorem lifted_rel (P : Tok3n.Sub) : SubRel S (.lift P) (.lift P) := ⟨fun _ => .lift _, fun _ => .lift _⟩

theorem semJoin_rel {rec : Parser α → Sub σ} {rec' : Parser α → Sub τ} {n : Nat} {p : Parser α}
    (h : SubRel S (rec p) (rec' p)) : SubRel S (semJoin C rec n p) (semJoin C rec' n p) := by
  cases p
  case exactly q _ => simp only [semJoin]; cases asBasic C q; exacts [joinGeneric_rel h, lifted_rel _]
  case maybe q => simp only [semJoin]; cases asBasic C q; exacts [joinGeneric_rel h, lifted_rel _]
  case oneOrMore q => simp only [semJoin]; cases asBasic C q; exacts [joinGeneric_rel h, lifted_rel _]
  case zeroOrMore q => simp only [semJoin]; cases asBasic C q; exacts [joinGeneric_rel h, lifted_rel _]
  all_goals exact joinGeneric_rel h

theorem step_rel {rec : Parser α → Sub σ} {rec' : Parser α → Sub τ} {n : Nat} {p : Parser α}
    (hc : ∀ q, ParseChild C p q → SubRel S (rec q) (rec' q)) (hl : ∀ q s, SRel S ((rec q).look s) ((rec' q).look s))
    (hm : ∀ q f, p = .map q f ∨ p = .filter q f → Corresponds S U W f) (s : Span) :
    SRel S ((step C U rec n p).parse s) ((step C W rec' n p).parse s) := by
  cases p with
  | anyOf => exact .lift _
  | noneOf => exact .lift _
  | allOf => exact .lift _
  | anything => exact .lift _
  | epsilon => exact .lift (parseEpsilon s)
  | choice ps =>
    exact .bind (.lift _) fun v => .bind (foldOr_rel ((mkElems_rel ps _ fun q hq => hc q (.choice hq)).imp
      fun _ _ he => execute_rel _ _ _ he) _) fun x => .ite (.pure _) (.pure _)
  | sequence ps =>
    exact .bind (.lift _) fun v => .bind (foldAnd_rel ((mkElems_rel ps _ fun q hq => hc q (.sequence hq)).imp
      fun _ _ he => execute_rel _ _ _ he) _) fun x => .ite (.pure _) (.pure _)
  | maybe q =>
    exact .bind (.lift _) fun v => .bind ((hc q .maybe).parse s) fun r =>
      .bind (.ite (.lift _) (.pure _)) fun v => .pure _
  | exactly q _ => exact .bind (.lift _) fun v => exactlyLoop_rel _ (hc q .exactly) _ _ _ _ _
  | oneOrMore q =>
    exact .bind (.lift _) fun v => .bind (oneOrMoreLoop_rel _ (hc q .oneOrMore) _ _ _ _) fun x => .ite (.pure _) (.pure _)
  | zeroOrMore q =>
    exact .bind (.lift _) fun v => .bind (zeroOrMoreLoop_rel _ (hc q .zeroOrMore) _ _ _) fun x => .pure _
  | delimit q d =>
    exact .bind (.lift _) fun v => .bind ((hc q .delimit).parse s) fun r => .ite (.pure _)
      (.bind (delimitLoop_rel _ _ _ (hc q .delimit) (hc d .delimiter) _ _ _ _) fun x => .pure _)
  | ignore q => exact hl q s
  | complete q => exact .bind ((hc q .complete).parse s) fun r => .ite (.pure _) (.pure _)
  | join q => exact (semJoin_rel (hc q .join)).parse s
  | map q f =>
    exact .bind ((hc q .map).parse s) fun r => .ite (.pure _)
      (.bind (.lift _) fun args => .bind (invoke_rel (hm q f (.inl rfl)) args) fun v => .ite (.pure _) (.pure _))
  | filter q f =>
    exact .bind ((hc q .filter).parse s) fun r => .ite (.pure _)
      (.bind (.lift _) fun args => .bind (invoke_rel (hm q f (.inr rfl)) args) fun v => .ite (.pure _) (.pure _))
  | named q _ => exact (hc q .named).parse s
  | custom k => exact .bind ((hc _ .custom).parse s) fun r => .lift _

theorem sem_look_rel (n : Nat) (p : Parser α) (s : Span) : SRel S ((sem C U n p).look s) ((sem C W n p).look s) := by
  rw [sem_look C U n p s, sem_look C W n p s]; exact .lift _

theorem sem_rel : ∀ (n : Nat) (p : Parser α),
    (∀ q f, ParseReach C p (.map q f) ∨ ParseReach C p (.filter q f) → Corresponds S U W f) →
    SubRel S (sem C U n p) (sem C W n p)
  | 0, _, _ => ⟨fun _ => .diverge, fun _ => .diverge⟩
  | n + 1, p, h => ⟨step_rel (fun q hq => sem_rel n q fun r f hr => h r f (hr.imp (.step hq) (.step hq)))
      (fun q => sem_look_rel n q) (by rintro q f (rfl | rfl); exacts [h q f (.inl .refl), h q f (.inr .refl)]),
    sem_look_rel (n + 1) p⟩

theorem Parse_rel {p : Parser α}
    (h : ∀ q f, ParseReach C p (.map q f) ∨ ParseReach C p (.filter q f) → Corresponds S U W f) (s : Span) :
    SRel S (Parse C U p s) (Parse C W p s) := by
  intro st st' hs
  have l := (sem_lim (C := C) (U := U) p).parse s st
  have l' := (sem_lim (C := C) (U := W) p).parse s st'
  have key := fun n => (sem_rel (S := S) (U := U) (W := W) n p h).parse s st st' hs
  cases hx : Parse C U p s st with
  | done log r =>
    obtain ⟨n, hn⟩ := (l.iff log r).1 hx
    have k := key n
    rw [show (sem C U n p).parse s st = _ from hn] at k
    cases hy : (sem C W n p).parse s st' with
    | diverge => rw [hy] at k; cases k
    | done log' r' =>
      rw [show Parse C W p s st' = _ from (l'.iff log' r').2 ⟨n, hy⟩]
      rwa [hy] at k
  | diverge =>
    cases hy : Parse C W p s st' with
    | diverge => exact .diverge
    | done log' r' =>
      obtain ⟨n, hn⟩ := (l'.iff log' r').1 hy
      have k := key n
      rw [show (sem C W n p).parse s st' = _ from hn] at k
      cases hx' : (sem C U n p).parse s st with
      | diverge => rw [hx'] at k; cases k
      | done log r => cases hx.symm.trans ((l.iff log r).2 ⟨n, hx'⟩)

end Tok3n.Stateful
