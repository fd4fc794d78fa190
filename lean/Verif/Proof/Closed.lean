import Verif.Proof.Hoare
import Verif.Spec.Values
/-
Assertions on runs (with their logs) that are preserved by sequential composition hold of
every parser.
-/

namespace Tok3n

variable {α β : Type} {C : Ctx α β} {P : ∀ A : Type, Run A → Prop}

/-- Preserved by everything a parser body does other than calling the user's functions. -/
structure Closed (P : ∀ A : Type, Run A → Prop) : Prop where
  diverge : ∀ A : Type, P A M.diverge
  pure : ∀ (A : Type) (a : A), P A (M.pure a)
  ub : ∀ A : Type, P A (M.fail .ub)
  ill : ∀ A : Type, P A (M.fail .ill)
  bind : ∀ (A B : Type) (m : Run A) (f : A → Run B), P A m → (∀ a, P B (f a)) → P B (M.bind m f)

/-- The functions `p` maps or filters with satisfy the assertion. -/
def FnsOK (P : ∀ A : Type, Run A → Prop) (C : Ctx α β) (p : Parser α) : Prop :=
  ∀ q f, (ParseReach C p (.map q f) ∨ ParseReach C p (.filter q f)) → ∀ args, P _ (invoke C f args)

theorem FnsOK.child {p q : Parser α} (h : FnsOK P C p) (hc : ParseChild C p q) : FnsOK P C q :=
  fun r f hr => h r f (hr.imp (.step hc) (.step hc))

/-- the tactic for loop-free bodies -/
syntax "closed " ident : tactic
macro_rules
  | `(tactic| closed $h:ident) => `(tactic|
      ((try simp only [M.bind_eq]);
       repeat' (first
        | with_reducible exact Closed.diverge $h _
        | with_reducible exact Closed.pure $h _ _
        | with_reducible exact Closed.ub $h _
        | with_reducible exact Closed.ill $h _
        | with_reducible refine Closed.bind $h _ _ _ _ ?_ fun _ => ?_
        | with_reducible solve_by_elim (maxDepth := 2) -exfalso -symm
        | split)))

section
variable (H : Closed P) {T : Ty}
include H

theorem ofOption_closed {A : Type} (o : Option A) : P _ (M.ofOption .ill o : Run A) := by
  unfold M.ofOption; closed H
theorem ofOption_closed' {A : Type} (o : Option A) : P _ (M.ofOption .ub o : Run A) := by
  unfold M.ofOption; closed H
theorem builderInit_closed : P _ (builderInit C T) := ofOption_closed H _
theorem deref_closed (r : R) : P _ r.deref := by unfold R.deref; closed H
theorem builderAssign_closed (v : Val) (r : R) : P _ (builderAssign T v r) := by
  have := deref_closed H r
  unfold builderAssign; closed H
theorem builderArrayAssign_closed (v : Val) (i : Nat) (r : R) : P _ (builderArrayAssign T v i r) := by
  have := deref_closed H r
  unfold builderArrayAssign; closed H
theorem builderGetAssign_closed (v : Val) (i : Nat) (r : R) : P _ (builderGetAssign T v i r) := by
  have := deref_closed H r
  unfold builderGetAssign; closed H
theorem builderEmplace_closed (v : Val) (r : R) : P _ (builderEmplace T v r) := by
  have := deref_closed H r
  unfold builderEmplace; closed H
theorem convert_closed (a b : Ty) (v : Val) : P _ (convert C a b v) := by
  unfold convert; closed H
theorem builderEmplaceAt_closed (i : Nat) (src : Ty) (v : Val) (r : R) : P _ (builderEmplaceAt C T i src v r) := by
  have := deref_closed H r
  have := convert_closed (C := C) H
  unfold builderEmplaceAt; closed H
theorem builderInsertBack_closed (v : Val) (r : R) : P _ (builderInsertBack T v r) := by
  have := deref_closed H r
  unfold builderInsertBack; closed H
theorem builderInsertBackFirst_closed (v : Val) (r : R) : P _ (builderInsertBackFirst T v r) := by
  have := deref_closed H r
  unfold builderInsertBackFirst; closed H
theorem builderInsertBackSecond_closed (v : Val) (r : R) : P _ (builderInsertBackSecond T v r) := by
  have := deref_closed H r
  unfold builderInsertBackSecond; closed H

theorem add_closed {mem : Mem β} (p : Ptr) (n : Nat) : P _ (p.add mem n) := by
  unfold Ptr.add; closed H
theorem read_closed {mem : Mem β} (p : Ptr) (n : Nat) : P _ (p.read mem n) := by
  unfold Ptr.read
  have := ofOption_closed' (P := P) H (A := β)
  closed H
theorem sizeSub_closed (a b : Nat) : P _ (sizeSub a b) := by unfold sizeSub; closed H
theorem front_closed {mem : Mem β} (s : Span) : P _ (s.front mem) := by
  have := read_closed (P := P) H (mem := mem)
  unfold Span.front; closed H
theorem first_closed (s : Span) (n : Nat) : P _ (s.first n) := by unfold Span.first; closed H
theorem subspan_closed {mem : Mem β} (s : Span) (n : Nat) : P _ (s.subspan mem n) := by
  have := add_closed (P := P) H (mem := mem)
  unfold Span.subspan; closed H
theorem equalLoop_closed {A B : Type} {f : Nat → Run A} {g : Nat → Run B} {e : A → B → Bool} (hf : ∀ i, P _ (f i))
    (hg : ∀ i, P _ (g i)) (n i : Nat) : P _ (Span.equalLoop f g e n i) := by
  induction n generalizing i with
  | zero => exact H.pure _ _
  | succ n ih => unfold Span.equalLoop; closed H
theorem failureCondition_closed (b : BasicP α) (s : Span) : P _ (failureCondition C b s) := by
  have h1 := front_closed (P := P) H (mem := C.mem)
  have h2 := first_closed (P := P) H
  have h3 : ∀ arr s, P _ (arrNotEqual C arr s) := fun arr s => by
    unfold arrNotEqual Span.equal
    refine H.bind _ _ _ _ ?_ fun _ => H.pure _ _
    split
    · exact H.pure _ _
    · exact equalLoop_closed H (fun i => read_closed H _ _) (fun i => read_closed H _ _) _ _
  unfold failureCondition; closed H
theorem advance_closed (s : Span) (n : Nat) : P _ (advance C s n) := by
  have h1 := add_closed (P := P) H (mem := C.mem)
  have h2 := sizeSub_closed (P := P) H
  unfold advance; closed H
theorem parseBasic_closed (b : BasicP α) (s : Span) : P _ (parseBasic C b s) := by
  have h1 := advance_closed (C := C) (P := P) H
  have h2 := failureCondition_closed (C := C) (P := P) H
  unfold parseBasic; closed H
theorem lookBasic_closed (b : BasicP α) (s : Span) : P _ (lookBasic C b s) := by
  have h1 := advance_closed (C := C) (P := P) H
  have h2 := failureCondition_closed (C := C) (P := P) H
  unfold lookBasic; closed H

theorem execute_closed {u c : Bool} (e : Elem) (st : Exec) (h1 : e.idx ≠ none → ∀ s, P _ (e.sub.parse s))
    (h2 : ∀ s, P _ (e.sub.look s)) : P _ (execute C T u c e st) := by
  have h3 := builderAssign_closed (P := P) H (T := T)
  have h4 := builderEmplaceAt_closed (C := C) (P := P) H (T := T)
  have h5 := builderGetAssign_closed (P := P) H (T := T)
  unfold execute
  split
  · closed H
  · rename_i h
    have h1 := h1 (by rw [h]; nofun)
    closed H

theorem foldOr_closed {exec : Elem → Exec → Run (Bool × Exec)} (es : List Elem) (st : Exec)
    (h : ∀ e ∈ es, ∀ st, P _ (exec e st)) : P _ (foldOr exec es st) := by
  induction es generalizing st with
  | nil => exact H.pure _ _
  | cons e es ih =>
    have h1 := h e (by simp)
    have ih := fun st => ih st fun e he => h e (by simp [he])
    clear h
    rename_i ih0; clear ih0
    unfold foldOr; closed H

theorem foldAnd_closed {exec : Elem → Exec → Run (Bool × Exec)} (es : List Elem) (st : Exec)
    (h : ∀ e ∈ es, ∀ st, P _ (exec e st)) : P _ (foldAnd exec es st) := by
  induction es generalizing st with
  | nil => exact H.pure _ _
  | cons e es ih =>
    have h1 := h e (by simp)
    have ih := fun st => ih st fun e he => h e (by simp [he])
    clear h
    rename_i ih0; clear ih0
    unfold foldAnd; closed H

theorem joinPieces_closed :
    (∀ j s, P _ (tryJoinSpan C j s)) ∧ (∀ j v, P _ (tryJoin C j v)) ∧ ∀ r, P _ (joinExecutor C r) := by
  have h1 : ∀ a b, P _ (adjacent C a b) := by
    have := add_closed (P := P) H (mem := C.mem)
    intro a b; unfold adjacent; closed H
  have h2 : ∀ j s, P _ (tryJoinSpan C j s) := by
    intro j s; unfold tryJoinSpan; closed H
  have h3 : ∀ v j, P _ (tryJoin C j v) := by
    intro v
    apply Val.rec (motive_1 := fun v => ∀ j, P _ (tryJoin C j v)) (motive_2 := fun vs => ∀ j, P _ (tryJoins C j vs))
      (motive_3 := fun o => ∀ v, o = some v → ∀ j, P _ (tryJoin C j v))
    case some => intro v h w hw; cases hw; exact h
    case none => nofun
    case opt =>
      intro o h j
      cases o with
      | none => simp only [tryJoin]; exact H.pure _ _
      | some v => simp only [tryJoin]; exact h v rfl j
    all_goals
      intros
      first | simp only [tryJoin] | simp only [tryJoins]
      closed H
  refine ⟨h2, fun j v => h3 v j, fun r => ?_⟩
  have := deref_closed (P := P) H
  unfold joinExecutor; closed H

end

theorem mkElems_mem {rec : Parser α → Sub} {ps : List (Parser α)} {is : List (Option Nat)} {e : Elem}
    (h : e ∈ mkElems rec C ps is) : ∃ p ∈ ps, e.sub = rec p := by
  induction ps generalizing is with
  | nil => simp [mkElems] at h
  | cons p ps ih =>
    cases is with
    | nil => simp [mkElems] at h
    | cons i is =>
      simp only [mkElems, List.mem_cons] at h
      rcases h with rfl | h
      · exact ⟨p, by simp, rfl⟩
      · obtain ⟨q, h1, h2⟩ := ih h; exact ⟨q, by simp [h1], h2⟩

theorem mkLookElems_mem {rec : Parser α → Sub} {ps : List (Parser α)} {e : Elem}
    (h : e ∈ mkLookElems rec C ps) : e.idx = none ∧ ∃ p ∈ ps, e.sub = rec p := by
  induction ps with
  | nil => simp [mkLookElems] at h
  | cons p ps ih =>
    simp only [mkLookElems, List.mem_cons] at h
    rcases h with rfl | h
    · exact ⟨rfl, p, by simp, rfl⟩
    · obtain ⟨h0, q, h1, h2⟩ := ih h; exact ⟨h0, q, by simp [h1], h2⟩

section
variable (H : Closed P)
include H

theorem step_look_closed {rec : Parser α → Sub} {k : Nat} (h : ∀ q s, P _ ((rec q).look s)) (p : Parser α) (s : Span) :
    P _ ((step C rec k p).look s) := by
  have hfc := failureCondition_closed (C := C) (P := P) H
  have hadv := advance_closed (C := C) (P := P) H
  have hsub := subspan_closed (P := P) H (mem := C.mem)
  have hjr : ∀ b k s, P _ (lookJoinRepeatLoop C b k s) := by
    intro b k
    induction k with
    | zero => intro s; exact H.diverge _
    | succ k ih => intro s; unfold lookJoinRepeatLoop; closed H
  have hje : ∀ b s0 n s, P _ (lookJoinExactlyLoop C b s0 n s) := by
    intro b s0 n
    induction n with
    | zero => intro s; exact H.pure _ _
    | succ n ih => intro s; unfold lookJoinExactlyLoop; closed H
  cases p with
  | anyOf | noneOf | allOf | anything => exact lookBasic_closed H _ _
  | epsilon => exact H.pure _ _
  | choice ps =>
    simp only [step, lookChoice]
    refine H.bind _ _ _ _ (foldOr_closed H _ _ fun e he st => ?_) fun _ => by closed H
    obtain ⟨h0, q, -, hq⟩ := mkLookElems_mem he
    exact execute_closed H e st (fun hn => absurd h0 hn) (by rw [hq]; exact h q)
  | sequence ps =>
    simp only [step, lookSequence]
    refine H.bind _ _ _ _ (foldAnd_closed H _ _ fun e he st => ?_) fun _ => by closed H
    obtain ⟨h0, q, -, hq⟩ := mkLookElems_mem he
    exact execute_closed H e st (fun hn => absurd h0 hn) (by rw [hq]; exact h q)
  | maybe p => have := h p; simp only [step, lookMaybe]; closed H
  | exactly p n =>
    have := h p
    have hl : ∀ s0 n s, P _ (lookExactlyLoop (rec p) s0 n s) := by
      intro s0 n
      induction n with
      | zero => intro s; exact H.pure _ _
      | succ n ih => intro s; unfold lookExactlyLoop; closed H
    exact hl _ _ _
  | oneOrMore p =>
    have := h p
    have hl : ∀ k b s, P _ (lookOneOrMoreLoop (rec p) k b s) := by
      intro k
      induction k with
      | zero => intro b s; exact H.diverge _
      | succ n ih => intro b s; unfold lookOneOrMoreLoop; closed H
    simp only [step, lookOneOrMore]; closed H
  | zeroOrMore p =>
    have := h p
    have hl : ∀ k s, P _ (lookZeroOrMoreLoop (rec p) k s) := by
      intro k
      induction k with
      | zero => intro s; exact H.diverge _
      | succ n ih => intro s; unfold lookZeroOrMoreLoop; closed H
    simp only [step, lookZeroOrMore]; closed H
  | delimit p d =>
    have h1 := h p
    have h2 := h d
    have hl : ∀ k r s, P _ (lookDelimitLoop (rec p) (rec d) k r s) := by
      intro k
      induction k with
      | zero => intro r s; exact H.diverge _
      | succ n ih => intro r s; unfold lookDelimitLoop; closed H
    simp only [step, lookDelimit]; closed H
  | ignore p => exact h p s
  | complete p => have := h p; simp only [step, lookComplete]; closed H
  | join p =>
    have := h p
    simp only [step]
    unfold semJoin
    split
    all_goals first
      | exact h _ s
      | (split
         · first
           | exact hje _ _ _ _
           | (simp only [lookJoinMaybeBasic, lookJoinOneOrMoreBasic, lookJoinZeroOrMoreBasic]; closed H)
         · exact h _ s)
  | map p f => exact h p s
  | filter p f => exact h p s
  | named p n => exact h p s
  | custom k => exact h _ s

theorem step_parse_closed {rec : Parser α → Sub} {k : Nat} (hl : ∀ q s, P _ ((rec q).look s))
    (h : ∀ q, FnsOK P C q → ∀ s, P _ ((rec q).parse s)) (p : Parser α) (hp : FnsOK P C p) (s : Span) :
    P _ ((step C rec k p).parse s) := by
  have hfc := failureCondition_closed (C := C) (P := P) H
  have hadv := advance_closed (C := C) (P := P) H
  have hsub := subspan_closed (P := P) H (mem := C.mem)
  have hde := deref_closed (P := P) H
  have hbi : ∀ T, P _ (builderInit C T) := fun T => builderInit_closed (C := C) (P := P) H
  have hjr : ∀ b k s r, P _ (joinRepeatLoop C b k s r) := by
    intro b k
    induction k with
    | zero => intro s r; exact H.diverge _
    | succ k ih => intro s r; unfold joinRepeatLoop; closed H
  have hje : ∀ b s0 n s r, P _ (joinExactlyLoop C b s0 n s r) := by
    intro b s0 n
    induction n with
    | zero => intro s r; exact H.pure _ _
    | succ n ih => intro s r; unfold joinExactlyLoop; closed H
  cases p with
  | anyOf | noneOf | allOf | anything => exact parseBasic_closed H _ _
  | epsilon => exact H.pure _ _
  | choice ps =>
    simp only [step, parseChoice]
    refine H.bind _ _ _ _ (hbi _) fun v => H.bind _ _ _ _ (foldOr_closed H _ _ fun e he st => ?_) fun _ => by closed H
    obtain ⟨q, hm, hq⟩ := mkElems_mem he
    exact execute_closed H e st (fun _ => by rw [hq]; exact h q (hp.child (.choice hm))) (by rw [hq]; exact hl q)
  | sequence ps =>
    simp only [step, parseSequence]
    refine H.bind _ _ _ _ (hbi _) fun v => H.bind _ _ _ _ (foldAnd_closed H _ _ fun e he st => ?_) fun _ => by closed H
    obtain ⟨q, hm, hq⟩ := mkElems_mem he
    exact execute_closed H e st (fun _ => by rw [hq]; exact h q (hp.child (.sequence hm))) (by rw [hq]; exact hl q)
  | maybe p =>
    have := h p (hp.child .maybe)
    have := builderEmplace_closed (P := P) H (T := resultFor C (.maybe p))
    simp only [step, parseMaybe]; closed H
  | exactly p n =>
    have := h p (hp.child .exactly)
    have := builderArrayAssign_closed (P := P) H (T := resultFor C (.exactly p n))
    generalize hT : resultFor C (.exactly p n) = T at this
    have hl : ∀ s0 n i s v, P _ (exactlyLoop T (rec p) s0 n i s v) := by
      intro s0 n
      induction n with
      | zero => intro i s v; exact H.pure _ _
      | succ n ih => intro i s v; unfold exactlyLoop; closed H
    simp only [step, parseExactly, hT]
    exact H.bind _ _ _ _ (hbi _) fun v => hl _ _ _ _ _
  | oneOrMore p =>
    have := h p (hp.child .oneOrMore)
    have := builderInsertBack_closed (P := P) H (T := resultFor C (.oneOrMore p))
    have hl : ∀ k b s v, P _ (oneOrMoreLoop (resultFor C (.oneOrMore p)) (rec p) k b s v) := by
      intro k
      induction k with
      | zero => intro b s v; exact H.diverge _
      | succ n ih => intro b s v; unfold oneOrMoreLoop; closed H
    simp only [step, parseOneOrMore]; closed H
  | zeroOrMore p =>
    have := h p (hp.child .zeroOrMore)
    have := builderInsertBack_closed (P := P) H (T := resultFor C (.zeroOrMore p))
    have hl : ∀ k s v, P _ (zeroOrMoreLoop (resultFor C (.zeroOrMore p)) (rec p) k s v) := by
      intro k
      induction k with
      | zero => intro s v; exact H.diverge _
      | succ n ih => intro s v; unfold zeroOrMoreLoop; closed H
    simp only [step, parseZeroOrMore]; closed H
  | delimit p d =>
    have h1 := h p (hp.child .delimit)
    have h2 := h d (hp.child .delimiter)
    have h3 := builderInsertBack_closed (P := P) H (T := resultFor C (.delimit p d))
    have h4 := builderInsertBackFirst_closed (P := P) H (T := resultFor C (.delimit p d))
    have h5 := builderInsertBackSecond_closed (P := P) H (T := resultFor C (.delimit p d))
    generalize hT : resultFor C (.delimit p d) = T at h3 h4 h5
    have h6 : ∀ a b v r, P _ (delimitRecordP T a b v r) := by intro a b v r; unfold delimitRecordP; closed H
    have h7 : ∀ a b v r r', P _ (delimitRecordD T a b v r r') := by
      intro a b v r r'; unfold delimitRecordD; closed H
    have hl : ∀ k r s v, P _ (delimitLoop T (resultFor C p) (resultFor C d) (rec p) (rec d) k r s v) := by
      intro k
      induction k with
      | zero => intro r s v; exact H.diverge _
      | succ n ih => intro r s v; unfold delimitLoop; closed H
    simp only [step, parseDelimit, hT]; closed H
  | ignore p => exact hl p s
  | complete p => have := h p (hp.child .complete); simp only [step, parseComplete]; closed H
  | join p =>
    have h1 := h p (hp.child .join)
    obtain ⟨-, -, h2⟩ := joinPieces_closed (C := C) (P := P) H
    simp only [step]
    have hg : ∀ s, P _ (parseJoin C (rec p) s) := by intro s; unfold parseJoin; closed H
    unfold semJoin
    split
    all_goals first
      | exact hg s
      | (split
         · first
           | exact hje _ _ _ _ _
           | (simp only [parseJoinMaybeBasic, parseJoinOneOrMoreBasic, parseJoinZeroOrMoreBasic]; closed H)
         · exact hg s)
  | map p f =>
    have h1 := h p (hp.child .map)
    have h2 := hp p f (.inl .refl)
    have h3 : ∀ r, P _ (argVals (resultFor C p) r) := by intro r; unfold argVals; closed H
    simp only [step, parseMap]; closed H
  | filter p f =>
    have h1 := h p (hp.child .filter)
    have h2 := hp p f (.inr .refl)
    have h3 : ∀ r, P _ (argVals (resultFor C p) r) := by intro r; unfold argVals; closed H
    simp only [step, parseFilter]; closed H
  | named p n => exact h p (hp.child .named) s
  | custom k =>
    have h1 := h _ (hp.child .custom)
    have h2 : ∀ a b r, P _ (convertResult C a b r) := by
      have := convert_closed (C := C) (P := P) H
      intro a b r; unfold convertResult; closed H
    simp only [step, parseCustom]; closed H

theorem Look_closed (p : Parser α) (s : Span) : P _ (Look C p s) := by
  have h : ∀ n, P _ ((sem C n p).look s) := fun n =>
    sem_induct (fun _ S => ∀ s, P _ (S.look s)) (fun _ _ => H.diverge _)
      (fun rec k ih q s => step_look_closed H ih q s) n p s
  cases hl : Look C p s with
  | diverge => exact H.diverge _
  | done l r => obtain ⟨n, hn⟩ := Look_eq_done.1 hl; rw [← hn]; exact h n

theorem Parse_closed (p : Parser α) (hp : FnsOK P C p) (s : Span) : P _ (Parse C p s) := by
  have h : ∀ n, P _ ((sem C n p).parse s) := fun n =>
    (sem_induct (fun p S => (∀ s, P _ (S.look s)) ∧ (FnsOK P C p → ∀ s, P _ (S.parse s)))
      (fun _ => ⟨fun _ => H.diverge _, fun _ _ => H.diverge _⟩)
      (fun rec k ih q => ⟨step_look_closed H (fun q => (ih q).1) q,
        step_parse_closed H (fun q => (ih q).1) (fun q => (ih q).2) q⟩) n p).2 hp s
  cases hl : Parse C p s with
  | diverge => exact H.diverge _
  | done l r => obtain ⟨n, hn⟩ := Parse_eq_done.1 hl; rw [← hn]; exact h n

end

end Tok3n
