import Verif.Spec.Stateful
/-
Runs that keep the state: the bodies of `Model/Stateful.lean` over lifted sub-parsers are
the lifted bodies of `Model/Parse.lean`.
-/

namespace Tok3n.Stateful

variable {σ α β A B : Type}

theorem bind_eq (m : SRun σ A) (f : A → SRun σ B) : (m >>= f) = SRun.bind m f := rfl
theorem liftM_eq (m : Run A) : (liftM m : SRun σ A) = SRun.lift m := rfl

theorem lift_pure (a : A) : (SRun.lift (M.pure a) : SRun σ A) = SRun.pure a := by
  rfl

theorem lift_diverge : (SRun.lift M.diverge : SRun σ A) = SRun.diverge := rfl

theorem lift_bind (m : Run A) (f : A → Run B) :
    (SRun.lift (m >>= f) : SRun σ B) = SRun.lift m >>= fun a => SRun.lift (f a) := by
  funext st
  show M.bind (M.bind m f) _ = M.bind (M.bind m _) _
  cases m with
  | diverge => rfl
  | done l r =>
    cases r with
    | err e => rfl
    | ok a =>
      show M.bind ((f a).after l) _ = M.bind (M.done (l ++ []) _) _
      rw [List.append_nil]
      show _ = (SRun.lift (f a) st).after l
      unfold SRun.lift
      cases f a with
      | diverge => rfl
      | done l' r' =>
        cases r' with
        | err e => rfl
        | ok b => show M.done ((l ++ l') ++ []) _ = M.done (l ++ (l' ++ [])) _; simp

theorem lift_ite {c : Prop} [Decidable c] (x y : Run A) :
    (SRun.lift (if c then x else y) : SRun σ A) = if c then SRun.lift x else SRun.lift y := by
  split <;> rfl

/-- the two `lookahead`s agree, and the state is kept -/
def LookLift (P : Sub σ) (Q : Tok3n.Sub) : Prop := ∀ s, P.look s = .lift (Q.look s)
/-- the two `parse`s agree, and the state is kept -/
def ParseLift (P : Sub σ) (Q : Tok3n.Sub) : Prop := ∀ s, P.parse s = .lift (Q.parse s)

structure ElemLift (e : Elem σ) (e' : Tok3n.Elem) : Prop where
  ty : e.ty = e'.ty
  idx : e.idx = e'.idx
  look : LookLift e.sub e'.sub
  parse : e.idx ≠ none → ParseLift e.sub e'.sub

theorem execute_lift (C : Ctx α β) (T : Ty) (u c : Bool) {e : Elem σ} {e' : Tok3n.Elem}
    (h : ElemLift e e') (x : Exec) :
    execute C T u c e x = .lift (Tok3n.execute C T u c e' x) := by
  unfold execute Tok3n.execute
  rw [← h.idx]
  have hp := h.parse
  cases hi : e.idx with
  | none =>
    simp only [h.look x.input, lift_bind, lift_pure]
  | some i =>
    rw [hi] at hp
    simp only [hp nofun x.input, lift_bind, lift_pure, liftM_eq, lift_ite, h.ty]

theorem foldOr_lift {ex : Elem σ → Exec → SRun σ (Bool × Exec)}
    {ex' : Tok3n.Elem → Exec → Run (Bool × Exec)}
    {es : List (Elem σ)} {es' : List Tok3n.Elem}
    (h : List.Forall₂ (fun e e' => ∀ x, ex e x = .lift (ex' e' x)) es es') (x : Exec) :
    foldOr ex es x = .lift (Tok3n.foldOr ex' es' x) := by
  induction h generalizing x with
  | nil => simp only [foldOr, Tok3n.foldOr, lift_pure]
  | cons he _ ih =>
    simp only [foldOr, Tok3n.foldOr, he, lift_bind]
    congr 1; funext y; obtain ⟨ok, y⟩ := y
    cases ok
    · exact ih y
    · exact (lift_pure _).symm

theorem foldAnd_lift {ex : Elem σ → Exec → SRun σ (Bool × Exec)}
    {ex' : Tok3n.Elem → Exec → Run (Bool × Exec)}
    {es : List (Elem σ)} {es' : List Tok3n.Elem}
    (h : List.Forall₂ (fun e e' => ∀ x, ex e x = .lift (ex' e' x)) es es') (x : Exec) :
    foldAnd ex es x = .lift (Tok3n.foldAnd ex' es' x) := by
  induction h generalizing x with
  | nil => simp only [foldAnd, Tok3n.foldAnd, lift_pure]
  | cons he _ ih =>
    simp only [foldAnd, Tok3n.foldAnd, he, lift_bind]
    congr 1; funext y; obtain ⟨ok, y⟩ := y
    cases ok
    · exact (lift_pure _).symm
    · exact ih y

theorem mkElems_lift {rec : Parser α → Sub σ} {rec' : Parser α → Tok3n.Sub} (C : Ctx α β)
    (hl : ∀ p, LookLift (rec p) (rec' p)) (hp : ∀ p, ParseLift (rec p) (rec' p)) :
    ∀ (ps : List (Parser α)) (is : List (Option Nat)),
      List.Forall₂ ElemLift (mkElems rec C ps is) (Tok3n.mkElems rec' C ps is)
  | [], _ => .nil
  | _ :: _, [] => .nil
  | p :: ps, _ :: is => .cons ⟨rfl, rfl, hl p, fun _ => hp p⟩ (mkElems_lift C hl hp ps is)

theorem mkLookElems_lift {rec : Parser α → Sub σ} {rec' : Parser α → Tok3n.Sub} (C : Ctx α β)
    (hl : ∀ p, LookLift (rec p) (rec' p)) :
    ∀ ps : List (Parser α), List.Forall₂ ElemLift (mkLookElems rec C ps) (Tok3n.mkLookElems rec' C ps)
  | [] => .nil
  | p :: ps => .cons ⟨rfl, rfl, hl p, nofun⟩ (mkLookElems_lift C hl ps)

variable {es : List (Elem σ)} {es' : List Tok3n.Elem} {P D : Sub σ} {Q E : Tok3n.Sub}

theorem parseChoice_lift (C : Ctx α β) (tr : Trait) (h : List.Forall₂ ElemLift es es') (s : Span) :
    parseChoice C tr es s = .lift (Tok3n.parseChoice C tr es' s) := by
  unfold parseChoice Tok3n.parseChoice
  rw [lift_bind]
  refine congrArg _ (funext fun v => ?_)
  rw [foldOr_lift (h.imp fun _ _ he => execute_lift C tr.ty tr.unwrapped true he), lift_bind]
  refine congrArg _ (funext fun x => ?_)
  simp only [lift_ite, lift_pure]

theorem lookChoice_lift (C : Ctx α β) (tr : Trait) (h : List.Forall₂ ElemLift es es') (s : Span) :
    lookChoice C tr es s = .lift (Tok3n.lookChoice C tr es' s) := by
  unfold lookChoice Tok3n.lookChoice
  rw [foldOr_lift (h.imp fun _ _ he => execute_lift C .void tr.unwrapped true he), lift_bind]
  refine congrArg _ (funext fun x => ?_)
  simp only [lift_ite, lift_pure]

theorem parseSequence_lift (C : Ctx α β) (tr : Trait) (h : List.Forall₂ ElemLift es es') (s : Span) :
    parseSequence C tr es s = .lift (Tok3n.parseSequence C tr es' s) := by
  unfold parseSequence Tok3n.parseSequence
  rw [lift_bind]
  refine congrArg _ (funext fun v => ?_)
  rw [foldAnd_lift (h.imp fun _ _ he => execute_lift C tr.ty tr.unwrapped false he), lift_bind]
  refine congrArg _ (funext fun x => ?_)
  simp only [lift_ite, lift_pure]

theorem lookSequence_lift (C : Ctx α β) (tr : Trait) (h : List.Forall₂ ElemLift es es') (s : Span) :
    lookSequence C tr es s = .lift (Tok3n.lookSequence C tr es' s) := by
  unfold lookSequence Tok3n.lookSequence
  rw [foldAnd_lift (h.imp fun _ _ he => execute_lift C .void tr.unwrapped false he), lift_bind]
  refine congrArg _ (funext fun x => ?_)
  simp only [lift_ite, lift_pure]

theorem parseMaybe_lift (C : Ctx α β) (T : Ty) (h : ParseLift P Q) (s : Span) :
    parseMaybe C T P s = .lift (Tok3n.parseMaybe C T Q s) := by
  simp only [parseMaybe, Tok3n.parseMaybe, h s, lift_bind, lift_pure, liftM_eq, lift_ite]

theorem lookMaybe_lift (h : LookLift P Q) (s : Span) :
    lookMaybe P s = .lift (Tok3n.lookMaybe Q s) := by
  simp only [lookMaybe, Tok3n.lookMaybe, h s, lift_bind, lift_pure, lift_ite]

theorem exactlyLoop_lift (T : Ty) (h : ParseLift P Q) (o : Span) :
    ∀ (n i : Nat) (s : Span) (v : Val),
      exactlyLoop T P o n i s v = .lift (Tok3n.exactlyLoop T Q o n i s v)
  | 0, _, _, _ => (lift_pure _).symm
  | n + 1, i, s, v => by
    simp only [exactlyLoop, Tok3n.exactlyLoop, h s, lift_bind, lift_pure, liftM_eq, lift_ite,
      exactlyLoop_lift T h o n]

theorem parseExactly_lift (C : Ctx α β) (T : Ty) (N : Nat) (h : ParseLift P Q) (s : Span) :
    parseExactly C T N P s = .lift (Tok3n.parseExactly C T N Q s) := by
  simp only [parseExactly, Tok3n.parseExactly, lift_bind, liftM_eq, exactlyLoop_lift T h]

theorem lookExactlyLoop_lift (h : LookLift P Q) (o : Span) :
    ∀ (n : Nat) (s : Span), lookExactlyLoop P o n s = .lift (Tok3n.lookExactlyLoop Q o n s)
  | 0, _ => (lift_pure _).symm
  | n + 1, s => by
    simp only [lookExactlyLoop, Tok3n.lookExactlyLoop, h s, lift_bind, lift_pure, lift_ite,
      lookExactlyLoop_lift h o n]

theorem oneOrMoreLoop_lift (T : Ty) (h : ParseLift P Q) :
    ∀ (n : Nat) (b : Bool) (s : Span) (v : Val),
      oneOrMoreLoop T P n b s v = .lift (Tok3n.oneOrMoreLoop T Q n b s v)
  | 0, _, _, _ => rfl
  | n + 1, b, s, v => by
    simp only [oneOrMoreLoop, Tok3n.oneOrMoreLoop, h s, lift_bind, lift_pure, liftM_eq, lift_ite,
      oneOrMoreLoop_lift T h n]

theorem parseOneOrMore_lift (C : Ctx α β) (T : Ty) (h : ParseLift P Q) (n : Nat) (s : Span) :
    parseOneOrMore C T P n s = .lift (Tok3n.parseOneOrMore C T Q n s) := by
  simp only [parseOneOrMore, Tok3n.parseOneOrMore, lift_bind, lift_pure, liftM_eq, lift_ite,
    oneOrMoreLoop_lift T h]

theorem lookOneOrMoreLoop_lift (h : LookLift P Q) :
    ∀ (n : Nat) (b : Bool) (s : Span),
      lookOneOrMoreLoop P n b s = .lift (Tok3n.lookOneOrMoreLoop Q n b s)
  | 0, _, _ => rfl
  | n + 1, b, s => by
    simp only [lookOneOrMoreLoop, Tok3n.lookOneOrMoreLoop, h s, lift_bind, lift_pure, lift_ite,
      lookOneOrMoreLoop_lift h n]

theorem lookOneOrMore_lift (h : LookLift P Q) (n : Nat) (s : Span) :
    lookOneOrMore P n s = .lift (Tok3n.lookOneOrMore Q n s) := by
  simp only [lookOneOrMore, Tok3n.lookOneOrMore, lift_bind, lift_pure, lift_ite,
    lookOneOrMoreLoop_lift h]

theorem zeroOrMoreLoop_lift (T : Ty) (h : ParseLift P Q) :
    ∀ (n : Nat) (s : Span) (v : Val),
      zeroOrMoreLoop T P n s v = .lift (Tok3n.zeroOrMoreLoop T Q n s v)
  | 0, _, _ => rfl
  | n + 1, s, v => by
    simp only [zeroOrMoreLoop, Tok3n.zeroOrMoreLoop, h s, lift_bind, lift_pure, liftM_eq, lift_ite,
      zeroOrMoreLoop_lift T h n]

theorem parseZeroOrMore_lift (C : Ctx α β) (T : Ty) (h : ParseLift P Q) (n : Nat) (s : Span) :
    parseZeroOrMore C T P n s = .lift (Tok3n.parseZeroOrMore C T Q n s) := by
  simp only [parseZeroOrMore, Tok3n.parseZeroOrMore, lift_bind, lift_pure, liftM_eq,
    zeroOrMoreLoop_lift T h]

theorem lookZeroOrMoreLoop_lift (h : LookLift P Q) :
    ∀ (n : Nat) (s : Span), lookZeroOrMoreLoop P n s = .lift (Tok3n.lookZeroOrMoreLoop Q n s)
  | 0, _ => rfl
  | n + 1, s => by
    simp only [lookZeroOrMoreLoop, Tok3n.lookZeroOrMoreLoop, h s, lift_bind, lift_pure, lift_ite,
      lookZeroOrMoreLoop_lift h n]

theorem lookZeroOrMore_lift (h : LookLift P Q) (n : Nat) (s : Span) :
    lookZeroOrMore P n s = .lift (Tok3n.lookZeroOrMore Q n s) := by
  simp only [lookZeroOrMore, Tok3n.lookZeroOrMore, lift_bind, lift_pure, lookZeroOrMoreLoop_lift h]

theorem delimitLoop_lift (T tp td : Ty) (h : ParseLift P Q) (hd : ParseLift D E) :
    ∀ (n : Nat) (r : R) (s : Span) (v : Val),
      delimitLoop T tp td P D n r s v = .lift (Tok3n.delimitLoop T tp td Q E n r s v)
  | 0, _, _, _ => rfl
  | n + 1, r, s, v => by
    have h' := fun s => h s
    have hd' := fun s => hd s
    simp only [delimitLoop, Tok3n.delimitLoop, h', hd', lift_bind, lift_pure, liftM_eq, lift_ite,
      delimitLoop_lift T tp td h hd n]

theorem parseDelimit_lift (C : Ctx α β) (T tp td : Ty) (h : ParseLift P Q) (hd : ParseLift D E)
    (n : Nat) (s : Span) :
    parseDelimit C T tp td P D n s = .lift (Tok3n.parseDelimit C T tp td Q E n s) := by
  simp only [parseDelimit, Tok3n.parseDelimit, h s, lift_bind, lift_pure, liftM_eq, lift_ite,
    delimitLoop_lift T tp td h hd]

theorem lookDelimitLoop_lift (h : LookLift P Q) (hd : LookLift D E) :
    ∀ (n : Nat) (r : R) (s : Span),
      lookDelimitLoop P D n r s = .lift (Tok3n.lookDelimitLoop Q E n r s)
  | 0, _, _ => rfl
  | n + 1, r, s => by
    have h' := fun s => h s
    have hd' := fun s => hd s
    simp only [lookDelimitLoop, Tok3n.lookDelimitLoop, h', hd', lift_bind, lift_pure, lift_ite,
      lookDelimitLoop_lift h hd n]

theorem lookDelimit_lift (h : LookLift P Q) (hd : LookLift D E) (n : Nat) (s : Span) :
    lookDelimit P D n s = .lift (Tok3n.lookDelimit Q E n s) := by
  simp only [lookDelimit, Tok3n.lookDelimit, h s, lift_bind, lift_pure, lift_ite,
    lookDelimitLoop_lift h hd]

theorem parseComplete_lift (h : ParseLift P Q) (s : Span) :
    parseComplete P s = .lift (Tok3n.parseComplete Q s) := by
  simp only [parseComplete, Tok3n.parseComplete, h s, lift_bind, lift_pure, lift_ite]

theorem lookComplete_lift (h : LookLift P Q) (s : Span) :
    lookComplete P s = .lift (Tok3n.lookComplete Q s) := by
  simp only [lookComplete, Tok3n.lookComplete, h s, lift_bind, lift_pure, lift_ite]

theorem parseJoin_lift (C : Ctx α β) (h : ParseLift P Q) (s : Span) :
    parseJoin C P s = .lift (Tok3n.parseJoin C Q s) := by
  simp only [parseJoin, Tok3n.parseJoin, h s, lift_bind, lift_pure, liftM_eq, lift_ite]
  congr 1; funext r; split
  · congr 1; funext j; cases j <;> exact (lift_pure _).symm
  · rfl

theorem parseCustom_lift (C : Ctx α β) (src dst : Ty) (h : ParseLift P Q) (s : Span) :
    parseCustom C src dst P s = .lift (Tok3n.parseCustom C src dst Q s) := by
  simp only [parseCustom, Tok3n.parseCustom, h s, lift_bind]

theorem joinGeneric_look (C : Ctx α β) (h : LookLift P Q) :
    LookLift (joinGeneric C P) (Tok3n.joinGeneric C Q) := h

theorem joinGeneric_parse (C : Ctx α β) (h : ParseLift P Q) :
    ParseLift (joinGeneric C P) (Tok3n.joinGeneric C Q) := parseJoin_lift C h

theorem semJoin_look {rec : Parser α → Sub σ} {rec' : Parser α → Tok3n.Sub} (C : Ctx α β)
    (hl : ∀ p, LookLift (rec p) (rec' p)) (n : Nat) (p : Parser α) :
    LookLift (semJoin C rec n p) (Tok3n.semJoin C rec' n p) := by
  cases p
  case exactly q _ => simp only [semJoin, Tok3n.semJoin]; cases asBasic C q; exacts [joinGeneric_look C (hl _), fun _ => rfl]
  case maybe q => simp only [semJoin, Tok3n.semJoin]; cases asBasic C q; exacts [joinGeneric_look C (hl _), fun _ => rfl]
  case oneOrMore q => simp only [semJoin, Tok3n.semJoin]; cases asBasic C q; exacts [joinGeneric_look C (hl _), fun _ => rfl]
  case zeroOrMore q => simp only [semJoin, Tok3n.semJoin]; cases asBasic C q; exacts [joinGeneric_look C (hl _), fun _ => rfl]
  all_goals exact joinGeneric_look C (hl _)

theorem semJoin_parse {rec : Parser α → Sub σ} {rec' : Parser α → Tok3n.Sub} (C : Ctx α β)
    (hl : ∀ p, ParseLift (rec p) (rec' p)) (n : Nat) (p : Parser α) :
    ParseLift (semJoin C rec n p) (Tok3n.semJoin C rec' n p) := by
  cases p
  case exactly q _ => simp only [semJoin, Tok3n.semJoin]; cases asBasic C q; exacts [joinGeneric_parse C (hl _), fun _ => rfl]
  case maybe q => simp only [semJoin, Tok3n.semJoin]; cases asBasic C q; exacts [joinGeneric_parse C (hl _), fun _ => rfl]
  case oneOrMore q => simp only [semJoin, Tok3n.semJoin]; cases asBasic C q; exacts [joinGeneric_parse C (hl _), fun _ => rfl]
  case zeroOrMore q => simp only [semJoin, Tok3n.semJoin]; cases asBasic C q; exacts [joinGeneric_parse C (hl _), fun _ => rfl]
  all_goals exact joinGeneric_parse C (hl _)

theorem step_look (C : Ctx α β) (U : Callbacks σ) {rec : Parser α → Sub σ}
    {rec' : Parser α → Tok3n.Sub} (hl : ∀ p, LookLift (rec p) (rec' p)) (n : Nat) (p : Parser α) :
    LookLift (step C U rec n p) (Tok3n.step C rec' n p) := by
  cases p with
  | anyOf a => exact fun _ => rfl
  | noneOf a => exact fun _ => rfl
  | allOf a => exact fun _ => rfl
  | anything => exact fun _ => rfl
  | epsilon => exact fun _ => rfl
  | choice ps => exact lookChoice_lift C _ (mkLookElems_lift C hl ps)
  | sequence ps => exact lookSequence_lift C _ (mkLookElems_lift C hl ps)
  | maybe p => exact lookMaybe_lift (hl p)
  | exactly p k => exact fun s => lookExactlyLoop_lift (hl p) s k s
  | oneOrMore p => exact lookOneOrMore_lift (hl p) n
  | zeroOrMore p => exact lookZeroOrMore_lift (hl p) n
  | delimit p d => exact lookDelimit_lift (hl p) (hl d) n
  | ignore p => exact hl p
  | complete p => exact lookComplete_lift (hl p)
  | join p => exact semJoin_look C hl n p
  | map p f => exact hl p
  | filter p f => exact hl p
  | named p s => exact hl p
  | custom k => exact hl _

theorem answer_lift (c : Call) (r : Except Nat Val) :
    (answer c (fun st => (r, st)) : SRun σ Val) = .lift (do M.log c; liftCall r) := by
  cases r <;> rfl

theorem invoke_lift (C : Ctx α β) : ∀ (f : Fn) (args : List Val),
    (invoke C (Callbacks.ofCtx C) f args : SRun σ Val) = .lift (Tok3n.invoke C f args)
  | .user k, args => answer_lift _ _
  | .apply _, [] => rfl
  | .apply f, [v] => by
    simp only [invoke, Tok3n.invoke]
    cases componentsOf v with
    | some vs => exact invoke_lift C f vs
    | none => rfl
  | .apply _, _ :: _ :: _ => rfl
  | .const k, args => answer_lift _ (.ok _)
  | .construct t, args => answer_lift _ _
  | .deflt t, args => by
    simp only [invoke, Tok3n.invoke, lift_bind]

theorem parseMap_lift (C : Ctx α β) (b a : Ty) (f : Fn) (h : ParseLift P Q) (s : Span) :
    parseMap C (Callbacks.ofCtx C) b a f P s = .lift (Tok3n.parseMap C b a f Q s) := by
  simp only [parseMap, Tok3n.parseMap, h s, lift_bind, lift_pure, liftM_eq, lift_ite, invoke_lift]

theorem parseFilter_lift (C : Ctx α β) (T : Ty) (f : Fn) (h : ParseLift P Q) (s : Span) :
    parseFilter C (Callbacks.ofCtx C) T f P s = .lift (Tok3n.parseFilter C T f Q s) := by
  simp only [parseFilter, Tok3n.parseFilter, h s, lift_bind, lift_pure, liftM_eq, lift_ite,
    invoke_lift]

theorem step_parse (C : Ctx α β) {rec : Parser α → Sub σ}
    {rec' : Parser α → Tok3n.Sub} (hl : ∀ p, LookLift (rec p) (rec' p))
    (hp : ∀ p, ParseLift (rec p) (rec' p)) (n : Nat) (p : Parser α) :
    ParseLift (step C (Callbacks.ofCtx C) rec n p) (Tok3n.step C rec' n p) := by
  cases p with
  | anyOf a => exact fun _ => rfl
  | noneOf a => exact fun _ => rfl
  | allOf a => exact fun _ => rfl
  | anything => exact fun _ => rfl
  | epsilon => exact fun _ => rfl
  | choice ps => exact parseChoice_lift C _ (mkElems_lift C hl hp ps _)
  | sequence ps => exact parseSequence_lift C _ (mkElems_lift C hl hp ps _)
  | maybe p => exact parseMaybe_lift C _ (hp p)
  | exactly p k => exact parseExactly_lift C _ k (hp p)
  | oneOrMore p => exact parseOneOrMore_lift C _ (hp p) n
  | zeroOrMore p => exact parseZeroOrMore_lift C _ (hp p) n
  | delimit p d => exact parseDelimit_lift C _ _ _ (hp p) (hp d) n
  | ignore p => exact hl p
  | complete p => exact parseComplete_lift (hp p)
  | join p => exact semJoin_parse C hp n p
  | map p f => exact parseMap_lift C _ _ f (hp p)
  | filter p f => exact parseFilter_lift C _ f (hp p)
  | named p s => exact hp p
  | custom k => exact parseCustom_lift C _ _ (hp _)

/-- a lookahead keeps the state, whatever the callbacks are -/
theorem sem_look (C : Ctx α β) (U : Callbacks σ) :
    ∀ (n : Nat) (p : Parser α), LookLift (sem C U n p) (Tok3n.sem C n p)
  | 0, _ => fun _ => rfl
  | n + 1, p => step_look C U (sem_look C U n) n p

/-- callbacks without state give the runs of `Model/Parse.lean` -/
theorem sem_parse (C : Ctx α β) :
    ∀ (n : Nat) (p : Parser α), ParseLift (sem C (Callbacks.ofCtx (σ := σ) C) n p) (Tok3n.sem C n p)
  | 0, _ => fun _ => rfl
  | n + 1, p => step_parse C (sem_look C _ n) (sem_parse C n) n p

end Tok3n.Stateful
