import Verif.Spec.Interrupted
import Verif.Proof.StatefulFix
/-
Runs in an environment are monotone in the fuel.
-/

namespace Tok3n.Interrupted

open Stateful (SRun Callbacks)

variable {σ τ ς α β A : Type} {F : Env α β τ} {C : Ctx α β} {U : Callbacks σ}

section
variable {P P' D D' : Stateful.Sub ς} (h : P.le P') (hd : D.le D')

theorem foldOr_le {ex ex' : Stateful.Elem ς → Exec → SRun ς (Bool × Exec)} {es es' : List (Stateful.Elem ς)}
    (h : List.Forall₂ (fun e e' => ∀ x, (ex e x).le (ex' e' x)) es es') (x : Exec) :
    (Stateful.foldOr ex es x).le (Stateful.foldOr ex' es' x) := by
  induction h generalizing x with
  | nil => exact SRun.le_refl _
  | cons he _ ih => exact SRun.bind_le (he x) fun y => SRun.ite_le (fun _ => SRun.le_refl _) fun _ => ih _

theorem foldAnd_le {ex ex' : Stateful.Elem ς → Exec → SRun ς (Bool × Exec)} {es es' : List (Stateful.Elem ς)}
    (h : List.Forall₂ (fun e e' => ∀ x, (ex e x).le (ex' e' x)) es es') (x : Exec) :
    (Stateful.foldAnd ex es x).le (Stateful.foldAnd ex' es' x) := by
  induction h generalizing x with
  | nil => exact SRun.le_refl _
  | cons he _ ih => exact SRun.bind_le (he x) fun y => SRun.ite_le (fun _ => ih _) fun _ => SRun.le_refl _

structure ElemLe (e e' : Stateful.Elem ς) : Prop where
  ty : e.ty = e'.ty
  idx : e.idx = e'.idx
  sub : e.sub.le e'.sub

theorem mkElems_le {rec rec' : Parser α → Stateful.Sub ς} (h : ∀ p, (rec p).le (rec' p)) :
    ∀ (ps : List (Parser α)) (is : List (Option Nat)),
      List.Forall₂ ElemLe (Stateful.mkElems rec C ps is) (Stateful.mkElems rec' C ps is)
  | [], _ => .nil
  | _ :: _, [] => .nil
  | p :: ps, _ :: is => .cons ⟨rfl, rfl, h p⟩ (mkElems_le h ps is)

theorem mkLookElems_le {rec rec' : Parser α → Stateful.Sub ς} (h : ∀ p, (rec p).le (rec' p)) :
    ∀ ps : List (Parser α), List.Forall₂ ElemLe (Stateful.mkLookElems rec C ps) (Stateful.mkLookElems rec' C ps)
  | [] => .nil
  | p :: ps => .cons ⟨rfl, rfl, h p⟩ (mkLookElems_le h ps)

theorem sexecute_le {e e' : Stateful.Elem ς} (h : ElemLe e e') (T : Ty) (u c : Bool) (x : Exec) :
    (Stateful.execute C T u c e x).le (Stateful.execute C T u c e' x) := by
  unfold Stateful.execute
  rw [← h.idx, ← h.ty]
  cases e.idx with
  | none => exact SRun.bind_le (h.sub _).2 fun _ => SRun.le_refl _
  | some i => exact SRun.bind_le (h.sub _).1 fun _ => SRun.le_refl _

include h

theorem lookExactlyLoop_le (o : Span) : ∀ (n : Nat) (s : Span), (Stateful.lookExactlyLoop P o n s).le (Stateful.lookExactlyLoop P' o n s)
  | 0, _ => SRun.le_refl _
  | n + 1, s => SRun.bind_le (h s).2 fun _ => SRun.ite_le (fun _ => SRun.le_refl _) fun _ => lookExactlyLoop_le o n _

theorem lookOneOrMoreLoop_le : ∀ (n m : Nat), n ≤ m → ∀ (b : Bool) (s : Span),
    (Stateful.lookOneOrMoreLoop P n b s).le (Stateful.lookOneOrMoreLoop P' m b s)
  | 0, _, _, _, _ => SRun.diverge_le _
  | n + 1, m + 1, hn, b, s => SRun.bind_le (h s).2 fun _ => SRun.ite_le (fun _ => SRun.le_refl _) fun _ =>
    lookOneOrMoreLoop_le n m (Nat.le_of_succ_le_succ hn) _ _

theorem lookZeroOrMoreLoop_le : ∀ (n m : Nat), n ≤ m → ∀ (s : Span),
    (Stateful.lookZeroOrMoreLoop P n s).le (Stateful.lookZeroOrMoreLoop P' m s)
  | 0, _, _, _ => SRun.diverge_le _
  | n + 1, m + 1, hn, s => SRun.bind_le (h s).2 fun _ => SRun.ite_le (fun _ => SRun.le_refl _) fun _ =>
    lookZeroOrMoreLoop_le n m (Nat.le_of_succ_le_succ hn) _

include hd

theorem lookDelimitLoop_le : ∀ (n m : Nat), n ≤ m → ∀ (r : R) (s : Span),
    (Stateful.lookDelimitLoop P D n r s).le (Stateful.lookDelimitLoop P' D' m r s)
  | 0, _, _, _, _ => SRun.diverge_le _
  | n + 1, m + 1, hn, r, s => SRun.ite_le (fun _ => SRun.le_refl _) fun _ => SRun.bind_le (hd _).2 fun _ =>
    SRun.ite_le (fun _ => SRun.le_refl _) fun _ => SRun.bind_le (h _).2 fun _ =>
      lookDelimitLoop_le n m (Nat.le_of_succ_le_succ hn) _ _

end

section
variable {P P' D D' : Stateful.Sub (τ × σ)} (h : P.le P') (hd : D.le D')
open Stateful.SRun

theorem execute_le {e e' : Stateful.Elem (τ × σ)} (h : ElemLe e e') (T : Ty) (u c : Bool) (x : Exec) :
    (execute F C T u c e x).le (execute F C T u c e' x) := by
  unfold execute
  rw [← h.idx, ← h.ty]
  cases e.idx with
  | none => exact bind_le (h.sub _).2 fun _ => le_refl _
  | some i => exact bind_le (h.sub _).1 fun _ => le_refl _

include h

theorem exactlyLoop_le (T : Ty) (o : Span) : ∀ (n i : Nat) (s : Span) (v : Val),
    (exactlyLoop F T P o n i s v).le (exactlyLoop F T P' o n i s v)
  | 0, _, _, _ => le_refl _
  | n + 1, i, s, v => bind_le (h s).1 fun _ => ite_le (fun _ => le_refl _) fun _ => bind_le (le_refl _) fun _ =>
    exactlyLoop_le T o n _ _ _

theorem oneOrMoreLoop_le (T : Ty) : ∀ (n m : Nat), n ≤ m → ∀ (b : Bool) (s : Span) (v : Val),
    (oneOrMoreLoop F T P n b s v).le (oneOrMoreLoop F T P' m b s v)
  | 0, _, _, _, _, _ => diverge_le _
  | n + 1, m + 1, hn, b, s, v => bind_le (h s).1 fun _ => ite_le (fun _ => le_refl _) fun _ =>
    bind_le (le_refl _) fun _ => oneOrMoreLoop_le T n m (Nat.le_of_succ_le_succ hn) _ _ _

theorem zeroOrMoreLoop_le (T : Ty) : ∀ (n m : Nat), n ≤ m → ∀ (s : Span) (v : Val),
    (zeroOrMoreLoop F T P n s v).le (zeroOrMoreLoop F T P' m s v)
  | 0, _, _, _, _ => diverge_le _
  | n + 1, m + 1, hn, s, v => bind_le (h s).1 fun _ => ite_le (fun _ => le_refl _) fun _ =>
    bind_le (le_refl _) fun _ => zeroOrMoreLoop_le T n m (Nat.le_of_succ_le_succ hn) _ _

theorem joinGeneric_le : (joinGeneric F C P).le (joinGeneric F C P') :=
  fun s => ⟨bind_le (h s).1 fun _ => le_refl _, (h s).2⟩

include hd

theorem delimitLoop_le (T tp td : Ty) : ∀ (n m : Nat), n ≤ m → ∀ (r : R) (s : Span) (v : Val),
    (delimitLoop F T tp td P D n r s v).le (delimitLoop F T tp td P' D' m r s v)
  | 0, _, _, _, _, _ => diverge_le _
  | n + 1, m + 1, hn, r, s, v => ite_le (fun _ => le_refl _) fun _ => bind_le (le_refl _) fun _ =>
    bind_le (hd _).1 fun _ => ite_le (fun _ => le_refl _) fun _ => bind_le (h _).1 fun _ =>
      bind_le (le_refl _) fun _ => delimitLoop_le T tp td n m (Nat.le_of_succ_le_succ hn) _ _ _

end

open Stateful.SRun

theorem joinRepeatLoop_le (b : BasicP α) : ∀ (n m : Nat), n ≤ m → ∀ s r,
    (joinRepeatLoop F C b n s r : SRun (τ × σ) _).le (joinRepeatLoop F C b m s r)
  | 0, _, _, _, _ => diverge_le _
  | n + 1, m + 1, hn, _, _ => bind_le (le_refl _) fun _ => ite_le (fun _ => le_refl _) fun _ =>
    bind_le (le_refl _) fun _ => joinRepeatLoop_le b n m (Nat.le_of_succ_le_succ hn) _ _

theorem lookJoinRepeatLoop_le (b : BasicP α) : ∀ (n m : Nat), n ≤ m → ∀ s,
    (lookJoinRepeatLoop F C b n s : SRun (τ × σ) _).le (lookJoinRepeatLoop F C b m s)
  | 0, _, _, _ => diverge_le _
  | n + 1, m + 1, hn, _ => bind_le (le_refl _) fun _ => ite_le (fun _ => le_refl _) fun _ =>
    bind_le (le_refl _) fun _ => lookJoinRepeatLoop_le b n m (Nat.le_of_succ_le_succ hn) _

theorem Sub_le_refl (P : Stateful.Sub ς) : P.le P := fun _ => ⟨le_refl _, le_refl _⟩

theorem semJoin_le {rec rec' : Parser α → Stateful.Sub (τ × σ)} (h : ∀ q, (rec q).le (rec' q)) {n m : Nat} (hn : n ≤ m)
    (p : Parser α) : (semJoin F C rec n p).le (semJoin F C rec' m p) := by
  cases p
  case exactly q _ => simp only [semJoin]; cases asBasic C q; exacts [joinGeneric_le (h _), Sub_le_refl _]
  case maybe q => simp only [semJoin]; cases asBasic C q; exacts [joinGeneric_le (h _), Sub_le_refl _]
  case oneOrMore q =>
    simp only [semJoin]
    cases asBasic C q with
    | none => exact joinGeneric_le (h _)
    | some b =>
      exact fun s => ⟨bind_le (le_refl _) fun _ => ite_le (fun _ => le_refl _) fun _ => bind_le (le_refl _) fun _ =>
          bind_le (joinRepeatLoop_le b n m hn _ _) fun _ => le_refl _,
        bind_le (le_refl _) fun _ => ite_le (fun _ => le_refl _) fun _ => bind_le (le_refl _) fun _ =>
          bind_le (lookJoinRepeatLoop_le b n m hn _) fun _ => le_refl _⟩
  case zeroOrMore q =>
    simp only [semJoin]
    cases asBasic C q with
    | none => exact joinGeneric_le (h _)
    | some b =>
      exact fun s => ⟨bind_le (joinRepeatLoop_le b n m hn _ _) fun _ => le_refl _,
        bind_le (lookJoinRepeatLoop_le b n m hn _) fun _ => le_refl _⟩
  all_goals exact joinGeneric_le (h _)

theorem step_le {rec rec' : Parser α → Stateful.Sub (τ × σ)} (h : ∀ q, (rec q).le (rec' q)) {n m : Nat} (hn : n ≤ m)
    (p : Parser α) : (step F C U rec n p).le (step F C U rec' m p) := by
  cases p with
  | anyOf | noneOf | allOf | anything | epsilon => exact Sub_le_refl _
  | choice ps =>
    exact fun s => ⟨bind_le (le_refl _) fun _ => bind_le (foldOr_le ((mkElems_le h ps _).imp
        fun _ _ he => execute_le he _ _ _) _) fun _ => le_refl _,
      bind_le (foldOr_le ((mkLookElems_le h ps).imp fun _ _ he => sexecute_le he _ _ _) _) fun _ => le_refl _⟩
  | sequence ps =>
    exact fun s => ⟨bind_le (le_refl _) fun _ => bind_le (foldAnd_le ((mkElems_le h ps _).imp
        fun _ _ he => execute_le he _ _ _) _) fun _ => le_refl _,
      bind_le (foldAnd_le ((mkLookElems_le h ps).imp fun _ _ he => sexecute_le he _ _ _) _) fun _ => le_refl _⟩
  | maybe q =>
    exact fun s => ⟨bind_le (le_refl _) fun _ => bind_le (h q s).1 fun _ => le_refl _, bind_le (h q s).2 fun _ => le_refl _⟩
  | exactly q k =>
    exact fun s => ⟨bind_le (le_refl _) fun _ => exactlyLoop_le (h q) _ _ _ _ _ _, lookExactlyLoop_le (h q) _ _ _⟩
  | oneOrMore q =>
    exact fun s => ⟨bind_le (le_refl _) fun _ => bind_le (oneOrMoreLoop_le (h q) _ n m hn _ _ _) fun _ => le_refl _,
      bind_le (lookOneOrMoreLoop_le (h q) n m hn _ _) fun _ => le_refl _⟩
  | zeroOrMore q =>
    exact fun s => ⟨bind_le (le_refl _) fun _ => bind_le (zeroOrMoreLoop_le (h q) _ n m hn _ _) fun _ => le_refl _,
      bind_le (lookZeroOrMoreLoop_le (h q) n m hn _) fun _ => le_refl _⟩
  | delimit q d =>
    exact fun s => ⟨bind_le (le_refl _) fun _ => bind_le (h q s).1 fun _ => ite_le (fun _ => le_refl _) fun _ =>
        bind_le (delimitLoop_le (h q) (h d) _ _ _ n m hn _ _ _) fun _ => le_refl _,
      bind_le (h q s).2 fun _ => ite_le (fun _ => le_refl _) fun _ =>
        bind_le (lookDelimitLoop_le (h q) (h d) n m hn _ _) fun _ => le_refl _⟩
  | ignore q => exact fun s => ⟨(h q s).2, (h q s).2⟩
  | complete q => exact fun s => ⟨bind_le (h q s).1 fun _ => le_refl _, bind_le (h q s).2 fun _ => le_refl _⟩
  | join q => exact semJoin_le h hn q
  | map q f => exact fun s => ⟨bind_le (h q s).1 fun _ => le_refl _, (h q s).2⟩
  | filter q f => exact fun s => ⟨bind_le (h q s).1 fun _ => le_refl _, (h q s).2⟩
  | named q _ => exact h q
  | custom k => exact fun s => ⟨bind_le (h _ s).1 fun _ => le_refl _, (h _ s).2⟩

theorem sem_le (n : Nat) (p : Parser α) : (sem F C U n p).le (sem F C U (n + 1) p) := by
  induction n generalizing p with
  | zero => exact fun s => ⟨diverge_le _, diverge_le _⟩
  | succ n ih => exact step_le ih (Nat.le_succ n) p

theorem sem_lim (p : Parser α) (s : Span) (x : τ × σ) :
    Tok3n.Lim (fun n => (sem F C U n p).parse s x) (Parse F C U p s x) ∧
      Tok3n.Lim (fun n => (sem F C U n p).look s x) (Look F C U p s x) :=
  ⟨Tok3n.Mono.lim fun n => (sem_le n p s).1 x, Tok3n.Mono.lim fun n => (sem_le n p s).2 x⟩

end Tok3n.Interrupted
