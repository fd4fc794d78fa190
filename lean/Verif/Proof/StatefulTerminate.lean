import Verif.Spec.StatefulTerminate
import Verif.Proof.StatefulNullable
import Verif.Proof.StatefulCalls
/-
Productive grammars return, whatever the callbacks do: the counterpart of
`Proof/Terminate.lean`.
-/

namespace Tok3n.Stateful

variable {σ α β A B : Type} {C : Ctx α β} {U : Callbacks σ}

theorem sbind_ne {m : SRun σ A} {f : A → SRun σ B} {st : σ} (hm : m st ≠ .diverge)
    (hf : ∀ l a st', m st = .done l (.ok (a, st')) → f a st' ≠ .diverge) : (m >>= f) st ≠ .diverge :=
  bind_ne' hm fun l x hx => hf l x.1 x.2 hx
theorem spure_ne (a : A) (st : σ) : (SRun.pure a : SRun σ A) st ≠ .diverge := pure_ne _
theorem slift_ne {m : Run A} (hm : m ≠ .diverge) (st : σ) : (SRun.lift m : SRun σ A) st ≠ .diverge :=
  bind_ne hm fun _ => pure_ne _
theorem site_ne {c : Prop} [Decidable c] {m n : SRun σ A} {st : σ} (h : m st ≠ .diverge) (h' : n st ≠ .diverge) :
    (if c then m else n) st ≠ .diverge := by split <;> assumption

theorem answer_ne (c : Call) (f : σ → Except Nat Val × σ) (st : σ) : answer c f st ≠ .diverge := by
  unfold answer
  simp only [M.bind_eq]
  refine bind_ne (log_ne _) fun _ => ?_
  rcases f st with ⟨_ | _, _⟩
  · exact fail_ne _
  · exact pure_ne _

theorem sinvoke_ne (C : Ctx α β) (U : Callbacks σ) (f : Fn) (args : List Val) (st : σ) :
    invoke C U f args st ≠ .diverge := by
  induction f generalizing args with
  | user k => exact answer_ne _ _ _
  | const k => exact answer_ne _ _ _
  | construct t => exact answer_ne _ _ _
  | deflt t => exact sbind_ne (slift_ne (log_ne _) _) fun _ _ _ _ => slift_ne (ofOption_ne _ _) _
  | apply f ih =>
    unfold invoke
    split
    · rename_i v
      cases componentsOf v with
      | some vs => exact ih _
      | none => exact slift_ne (fail_ne _) _
    · exact slift_ne (fail_ne _) _

/-- one of the approximations of the loop returns -/
theorem Parse_ne {p : Parser α} {s : Span} {st : σ} (k : Nat)
    (h : (step C U (den C U) k p).parse s st ≠ .diverge) : Parse C U p s st ≠ .diverge := by
  cases hk : (step C U (den C U) k p).parse s st with
  | diverge => exact absurd hk h
  | done l r => rw [step_den_done.2 ⟨k, hk⟩]; nofun

/-- `parse` returns on `s` from every state, and so does `lookahead` -/
def Rets (C : Ctx α β) (U : Callbacks σ) (s : Span) (q : Parser α) : Prop :=
  (∀ st, Parse C U q s st ≠ .diverge) ∧ Tok3n.Look C q s ≠ .diverge

theorem Parse_suffix {p : Parser α} {s : Span} {st : σ} {l r st'} (h : Parse C U p s st = .done l (.ok (r, st'))) :
    r.rem.SuffixOf s := ((Parse_good p s st).ok h).suffix

theorem Nullable.of_parse {p : Parser α} {s : Span} {st : σ} {l r st'} (hs : s.Valid C.mem)
    (h : Parse C U p s st = .done l (.ok (r, st'))) (hv : r.hasValue = true) (hl : r.rem.len = s.len) :
    Nullable C U p := by
  have := (Parse_suffix h).eq_of_len hl
  obtain ⟨_ | v, t⟩ := r
  · simp [R.hasValue] at hv
  · simp only at this
    subst this
    exact ⟨_, hs, .inl ⟨st, l, v, st', h⟩⟩

theorem Nullable.of_look {p : Parser α} {s s' : Span} {l v} (hs : s.Valid C.mem)
    (h : Tok3n.Look C p s = .done l (.ok ⟨some v, s'⟩)) (hl : s'.len = s.len) : Nullable C U p := by
  have := (Look_suffix h).eq_of_len hl
  subst this
  have hv : v = .unit := by rcases (Look_unit h).2 with h | h <;> simp_all
  subst hv
  exact ⟨_, hs, .inr ⟨l, h⟩⟩

/-! ### Choices and sequences -/

theorem mem_mkElems {ps : List (Parser α)} {is : List (Option Nat)} {e : Elem σ}
    (h : e ∈ mkElems (den C U) C ps is) : ∃ q ∈ ps, e.sub = den C U q := by
  induction ps generalizing is with
  | nil => cases is <;> simp [mkElems] at h
  | cons p ps ih =>
    cases is with
    | nil => simp [mkElems] at h
    | cons i is =>
      rcases List.mem_cons.1 h with rfl | h
      · exact ⟨p, by simp, rfl⟩
      · obtain ⟨q, hq, he⟩ := ih h; exact ⟨q, by simp [hq], he⟩

theorem execute_ne {e : Elem σ} {q : Parser α} (he : e.sub = den C U q) (T : Ty) (u c : Bool) (x : Exec) (st : σ)
    (h : Rets C U x.input q) : execute C T u c e x st ≠ .diverge := by
  obtain ⟨P, t, i⟩ := e
  simp only at he
  subst he
  cases i with
  | none =>
    refine sbind_ne ?_ fun _ _ _ _ => spure_ne _ _
    change Look C U q x.input st ≠ _
    rw [Look_lift]
    exact slift_ne h.2 _
  | some i =>
    refine sbind_ne (h.1 st) fun _ r st' _ => site_ne (spure_ne _ _) (sbind_ne ?_ fun _ _ _ _ => spure_ne _ _)
    refine site_ne (slift_ne (builderAssign_ne _ _ _) _) (site_ne (slift_ne (builderEmplaceAt_ne _ _ _ _ _ _) _)
      (slift_ne (builderGetAssign_ne _ _ _ _) _))

/-- what a successful part says: it left a suffix, and was nullable if it consumed nothing -/
theorem execute_left {e : Elem σ} {q : Parser α} (he : e.sub = den C U q) {T : Ty} {u c : Bool} {x x' : Exec} {l b}
    {st st' : σ} (hs : x.input.Valid C.mem) (h : execute C T u c e x st = .done l (.ok ((b, x'), st'))) :
    x'.input.SuffixOf x.input ∧ (b = false → x'.input = x.input) ∧
      (b = true → x'.input.len = x.input.len → Nullable C U q) := by
  obtain ⟨P, t, i⟩ := e
  simp only at he
  subst he
  cases i with
  | none =>
    obtain ⟨l1, l2, r, st1, h1, h2, -⟩ := bind_ok.1 h
    have h1 : Look C U q x.input st = .done l1 (.ok (r, st1)) := h1
    rw [Look_lift] at h1
    obtain ⟨h1, -⟩ := lift_ok.1 h1
    obtain ⟨-, h2⟩ := pure_ok.1 h2
    obtain ⟨rv, rr⟩ := r
    simp only [Prod.mk.injEq] at h2
    obtain ⟨⟨rfl, rfl⟩, rfl⟩ := h2
    refine ⟨Look_suffix h1, fun hb => ((Look_good q _).ok h1).fail (by simpa [R.hasValue] using hb), fun hb hl => ?_⟩
    cases rv with
    | none => cases hb
    | some v => exact .of_look hs h1 hl
  | some i =>
    obtain ⟨l1, l2, r, st1, h1, h2, -⟩ := bind_ok.1 h
    have h1 : Parse C U q x.input st = .done l1 (.ok (r, st1)) := h1
    by_cases hv : r.hasValue = true
    · simp only [hv, Bool.not_true, Bool.false_eq_true, if_false] at h2
      obtain ⟨_, _, w, st2, -, h2, -⟩ := bind_ok.1 h2
      obtain ⟨-, h2⟩ := pure_ok.1 h2
      simp only [Prod.mk.injEq] at h2
      obtain ⟨⟨rfl, rfl⟩, rfl⟩ := h2
      exact ⟨Parse_suffix h1, nofun, fun _ hl => .of_parse hs h1 hv hl⟩
    · rw [Bool.not_eq_true] at hv
      simp only [hv, Bool.not_false, if_true] at h2
      obtain ⟨-, h2⟩ := pure_ok.1 h2
      simp only [Prod.mk.injEq] at h2
      obtain ⟨⟨rfl, rfl⟩, rfl⟩ := h2
      exact ⟨.refl _, fun _ => rfl, nofun⟩

theorem foldOr_ne {es : List (Elem σ)} {ps : List (Parser α)} (he : ∀ e ∈ es, ∃ q ∈ ps, e.sub = den C U q)
    (T : Ty) (u c : Bool) (x : Exec) (st : σ) (hs : x.input.Valid C.mem) (h : ∀ q ∈ ps, Rets C U x.input q) :
    foldOr (execute C T u c) es x st ≠ .diverge := by
  induction es generalizing x st with
  | nil => exact spure_ne _ _
  | cons e es ih =>
    obtain ⟨q, hq, heq⟩ := he e (by simp)
    refine sbind_ne (execute_ne heq T u c x st (h q hq)) fun l y st' hx => ?_
    obtain ⟨b, x'⟩ := y
    cases b with
    | true => exact spure_ne _ _
    | false =>
      have hi := (execute_left heq hs hx).2.1 rfl
      exact ih (fun e' he' => he e' (by simp [he'])) x' st' (hi ▸ hs) (hi ▸ h)

/-- the elements `es` run the parsers `ps` in turn -/
inductive Runs (C : Ctx α β) (U : Callbacks σ) : List (Elem σ) → List (Parser α) → Prop where
  | nil {ps} : Runs C U [] ps
  | cons {e es q ps} : e.sub = den C U q → Runs C U es ps → Runs C U (e :: es) (q :: ps)

theorem runs_mkElems (ps : List (Parser α)) (is : List (Option Nat)) : Runs C U (mkElems (den C U) C ps is) ps := by
  induction ps generalizing is with
  | nil => cases is <;> exact .nil
  | cons p ps ih =>
    cases is with
    | nil => exact .nil
    | cons i is => exact .cons rfl (ih is)

theorem foldAnd_ne {es : List (Elem σ)} {ps : List (Parser α)} (he : Runs C U es ps) (n : Nat) (T : Ty) (u c : Bool)
    (x : Exec) (st : σ) (hs : x.input.Valid C.mem) (hn : x.input.len ≤ n)
    (hlt : ∀ q ∈ ps, ∀ s : Span, s.Valid C.mem → s.len < n → Rets C U s q)
    (heq : x.input.len = n → ∀ qs q rs, ps = qs ++ q :: rs → (∀ x ∈ qs, Nullable C U x) →
      ∀ s : Span, s.Valid C.mem → s.len = n → Rets C U s q) :
    foldAnd (execute C T u c) es x st ≠ .diverge := by
  induction he generalizing x st with
  | nil => exact spure_ne _ _
  | @cons e es q ps heq' _ ih =>
    have hr : Rets C U x.input q := by
      rcases Nat.lt_or_ge x.input.len n with h | h
      · exact hlt q (by simp) _ hs h
      · exact heq (by omega) [] q ps rfl nofun _ hs (by omega)
    refine sbind_ne (execute_ne heq' T u c x st hr) fun l y st' hx => ?_
    obtain ⟨b, x'⟩ := y
    obtain ⟨hsuf, -, hnull⟩ := execute_left heq' hs hx
    cases b with
    | false => exact spure_ne _ _
    | true =>
      have hle := hsuf.len_le
      refine ih x' st' (hsuf.valid hs) (by omega) (fun q hq => hlt q (by simp [hq])) fun hst => ?_
      intro qs r rs hps hqs
      have hnq : Nullable C U q := hnull rfl (by omega)
      refine heq (by omega) (q :: qs) r rs (by rw [hps]; rfl) fun y hy => ?_
      rcases List.mem_cons.1 hy with rfl | hy
      · exact hnq
      · exact hqs y hy

/-- the same for `lookahead`, which runs no callbacks -/
theorem look_foldAnd_ne {es : List Tok3n.Elem} {ps : List (Parser α)} (he : Tok3n.Runs C es ps) (n : Nat) (T : Ty)
    (u c : Bool) (hi : ∀ e ∈ es, e.idx = none)
    (st : Exec) (hs : st.input.Valid C.mem) (hn : st.input.len ≤ n)
    (hlt : ∀ q ∈ ps, ∀ s : Span, s.Valid C.mem → s.len < n → Tok3n.Look C q s ≠ .diverge)
    (heq : st.input.len = n → ∀ qs q rs, ps = qs ++ q :: rs → (∀ x ∈ qs, Nullable C U x) →
      ∀ s : Span, s.Valid C.mem → s.len = n → Tok3n.Look C q s ≠ .diverge) :
    Tok3n.foldAnd (Tok3n.execute C T u c) es st ≠ .diverge := by
  induction he generalizing st with
  | nil => exact pure_ne _
  | @cons e es q ps heq' _ ih =>
    have hr : Tok3n.Look C q st.input ≠ .diverge := by
      rcases Nat.lt_or_ge st.input.len n with h | h
      · exact hlt q (by simp) _ hs h
      · exact heq (by omega) [] q ps rfl nofun _ hs (by omega)
    obtain ⟨P, t, i⟩ := e
    have hi0 : i = none := hi _ List.mem_cons_self
    simp only at heq'
    subst heq' hi0
    refine bind_ne' (bind_ne hr fun _ => pure_ne _) fun l x hx => ?_
    obtain ⟨l1, l2, ⟨rv, rr⟩, h1, h2, -⟩ := M.bind_eq_ok.1 hx
    simp only [M.pure_eq_ok] at h2
    obtain ⟨-, rfl⟩ := h2
    have hsuf := Look_suffix h1
    cases rv with
    | none => exact pure_ne _
    | some v =>
      have hle := hsuf.len_le
      refine ih (fun e he => hi e (by simp [he])) ⟨rr, st.value⟩ (hsuf.valid hs) (by simp only; omega)
        (fun q hq => hlt q (by simp [hq])) fun hst => ?_
      intro qs r rs hps hqs
      have hnq : Nullable C U q := .of_look hs h1 (by simp only at hst; omega)
      refine heq (by simp only at hst; omega) (q :: qs) r rs (by rw [hps]; rfl) fun y hy => ?_
      rcases List.mem_cons.1 hy with rfl | hy
      · exact hnq
      · exact hqs y hy

theorem look_foldOr_ne {es : List Tok3n.Elem} {ps : List (Parser α)} (he : Tok3n.Runs C es ps) (T : Ty)
    (u c : Bool) (hi : ∀ e ∈ es, e.idx = none) (st : Exec)
    (h : ∀ q ∈ ps, Tok3n.Look C q st.input ≠ .diverge) :
    Tok3n.foldOr (Tok3n.execute C T u c) es st ≠ .diverge := by
  induction he generalizing st with
  | nil => exact pure_ne _
  | @cons e es q ps heq' _ ih =>
    obtain ⟨P, t, i⟩ := e
    have hi0 : i = none := hi _ List.mem_cons_self
    simp only at heq'
    subst heq' hi0
    refine bind_ne' (bind_ne (h q (by simp)) fun _ => pure_ne _) fun l x hx => ?_
    obtain ⟨l1, l2, ⟨rv, rr⟩, h1, h2, -⟩ := M.bind_eq_ok.1 hx
    simp only [M.pure_eq_ok] at h2
    obtain ⟨-, rfl⟩ := h2
    cases rv with
    | some v => exact pure_ne _
    | none =>
      have : rr = st.input := ((Look_good q _).ok h1).fail rfl
      subst this
      exact ih (fun e he => hi e (by simp [he])) st fun q hq => h q (by simp [hq])

theorem mkLookElems_idx (rec : Parser α → Tok3n.Sub) (ps : List (Parser α)) :
    ∀ e ∈ Tok3n.mkLookElems rec C ps, e.idx = none := by
  induction ps with
  | nil => nofun
  | cons p ps ih =>
    intro e he
    rcases List.mem_cons.1 he with rfl | he
    · rfl
    · exact ih e he

/-! ### Expressions -/

theorem Reaches.uses {p : Parser α} {k : Nat} (h : Reaches C U p k) : Uses C p (.custom k) := by
  induction h with
  | custom => exact .self
  | within hp _ ih => exact .part (by rw [hp]; simp) ih
  | choice hq _ ih => exact .part hq ih
  | sequence _ _ ih => exact .part (by simp [Parser.parts]) ih
  | element _ ih => exact .part (by simp [Parser.parts]) ih
  | delimiter _ _ ih => exact .part (by simp [Parser.parts]) ih

/-- a literal runs no callbacks -/
theorem Parse_basic {q : Parser α} {b : BasicP α} (h : asBasic C q = some b) (s : Span) :
    Parse C U q s = SRun.lift (Tok3n.Parse C q s) := by
  rw [Parse_eq]
  cases q <;> simp only [asBasic, reduceCtorEq] at h
  · rw [Parse_anyOf]; exact lim_const _
  · rw [Parse_noneOf]; exact lim_const _
  · rw [Parse_allOf]; exact lim_const _

theorem Nullable.of_basic {q : Parser α} {b : BasicP α} (h : asBasic C q = some b) (hn : Tok3n.Nullable C q) (st : σ) :
    Nullable C U q := by
  obtain ⟨s, hs, ⟨log, v, hp⟩ | hl⟩ := hn
  · refine ⟨s, hs, .inl ⟨st, log, v, st, ?_⟩⟩
    unfold Parses
    rw [Parse_basic h, lift_ok]
    exact ⟨hp, rfl⟩
  · exact ⟨s, hs, .inr hl⟩

/-- `join` of a repeated literal runs no callbacks either -/
theorem Parse_join_ne {r q : Parser α} {b : BasicP α} (h : asBasic C q = some b)
    (hr : r.parts = [q]) (hn : ¬ RepeatsNothing C U r) (hj : ∀ k s, (step C U (den C U) k (.join r)).parse s =
      SRun.lift ((Tok3n.step C (Tok3n.den C) k (.join r)).parse s)) (s : Span) (hs : s.Valid C.mem) (st : σ) :
    Parse C U (.join r) s st ≠ .diverge := by
  have hq : ∀ x, Uses C q x → x = q := by
    intro x hx
    cases hx with
    | self => rfl
    | part hm _ => cases q <;> simp [asBasic, Parser.parts] at h hm
    | custom => simp [asBasic] at h
  have hnc : ∀ k, q ≠ .custom k := by rintro k rfl; simp [asBasic] at h
  have hrc : ∀ k, r ≠ .custom k := by rintro k rfl; simp [Parser.parts] at hr
  have hu : ∀ x, Uses C (.join r) x → x = .join r ∨ x = r ∨ x = q := by
    intro x hx
    cases hx with
    | self => exact .inl rfl
    | part hm hx =>
      simp only [Parser.parts, List.mem_singleton] at hm
      subst hm
      cases hx with
      | self => exact .inr (.inl rfl)
      | part hm hx =>
        rw [hr, List.mem_singleton] at hm
        subst hm
        exact .inr (.inr (hq x hx))
      | custom => exact absurd rfl (hrc _)
  have hp : Tok3n.Productive C (.join r) := by
    have hno : ∀ k, ¬ Uses C (.join r) (.custom k) := by
      intro k hk
      rcases hu _ hk with h | h | h
      · cases h
      · exact hrc k h.symm
      · exact hnc k h.symm
    refine ⟨⟨[], fun k hk => absurd hk (hno k)⟩, fun x hx hrn => ?_, fun k hk => absurd hk (hno k)⟩
    rcases hu _ hx with rfl | rfl | rfl
    · exact hrn
    · cases x <;> simp only [Tok3n.RepeatsNothing, Parser.parts, List.cons.injEq, reduceCtorEq, and_false, and_true] at hrn hr
      all_goals subst hr; exact hn (.of_basic h hrn st)
    · cases x <;> simp [Tok3n.RepeatsNothing, asBasic] at hrn h
  have := (Tok3n.productive_rets hp _ .self s hs).1
  cases hc : Tok3n.Parse C (.join r) s with
  | diverge => exact absurd hc this
  | done l x =>
    rw [Tok3n.Parse_eq] at hc
    obtain ⟨k, hk⟩ := ((Tok3n.Mono.lim (m := fun k => (Tok3n.step C (Tok3n.den C) k (.join r)).parse s)
      fun k => (Tok3n.step_fuel_le _ k _ s).1).iff l x).1 hc
    refine Parse_ne k ?_
    rw [hj, hk]
    exact slift_ne (by simp) _

section
variable {p : Parser α} (hrep : ∀ q, Uses C p q → ¬ RepeatsNothing C U q) {n : Nat}
  (short : ∀ q, Uses C p q → ∀ s : Span, s.Valid C.mem → s.len < n → Rets C U s q)

/-- a round of a repetition that succeeds shortens the input -/
theorem round_less {r : Parser α} (hnull : ¬ Nullable C U r) {s : Span} (hs : s.Valid C.mem) {st : σ} {l x st'}
    (h : Parse C U r s st = .done l (.ok (x, st'))) (hv : x.hasValue = true) : x.rem.len < s.len := by
  have := (Parse_suffix h).len_le
  exact Nat.lt_of_not_le fun hge => hnull (.of_parse hs h hv (by omega))

theorem zeroOrMoreLoop_ne {r : Parser α} (hnull : ¬ Nullable C U r)
    (one : ∀ s : Span, s.Valid C.mem → s.len ≤ n → ∀ st, Parse C U r s st ≠ .diverge) (T : Ty) (k : Nat) (s : Span)
    (hs : s.Valid C.mem) (hn : s.len ≤ n) (hk : s.len < k) (w : Val) (st : σ) :
    zeroOrMoreLoop T (den C U r) k s w st ≠ .diverge := by
  induction k generalizing s w st with
  | zero => omega
  | succ k ih =>
    refine sbind_ne (one s hs hn st) fun l x st' hx => ?_
    by_cases hv : x.hasValue = true
    · have hsuf := Parse_suffix hx
      have hl := round_less hnull hs hx hv
      simp only [hv, Bool.not_true, Bool.false_eq_true, if_false]
      exact sbind_ne (slift_ne (builderInsertBack_ne _ _ _) _) fun _ _ _ _ =>
        ih _ (hsuf.valid hs) (by omega) (by omega) _ _
    · rw [Bool.not_eq_true] at hv
      simp only [hv, Bool.not_false, if_true]
      exact spure_ne _ _

theorem oneOrMoreLoop_ne {r : Parser α} (hnull : ¬ Nullable C U r)
    (one : ∀ s : Span, s.Valid C.mem → s.len ≤ n → ∀ st, Parse C U r s st ≠ .diverge) (T : Ty) (k : Nat) (b : Bool)
    (s : Span) (hs : s.Valid C.mem) (hn : s.len ≤ n) (hk : s.len < k) (w : Val) (st : σ) :
    oneOrMoreLoop T (den C U r) k b s w st ≠ .diverge := by
  induction k generalizing b s w st with
  | zero => omega
  | succ k ih =>
    refine sbind_ne (one s hs hn st) fun l x st' hx => ?_
    by_cases hv : x.hasValue = true
    · have hsuf := Parse_suffix hx
      have hl := round_less hnull hs hx hv
      simp only [hv, Bool.not_true, Bool.false_eq_true, if_false]
      exact sbind_ne (slift_ne (builderInsertBack_ne _ _ _) _) fun _ _ _ _ =>
        ih _ _ (hsuf.valid hs) (by omega) (by omega) _ _
    · rw [Bool.not_eq_true] at hv
      simp only [hv, Bool.not_false, if_true]
      exact spure_ne _ _

theorem delimitLoop_ne {r d : Parser α} (hnull : ¬ (Nullable C U d ∧ Nullable C U r)) {m : Nat}
    (hr : ∀ s : Span, s.Valid C.mem → s.len ≤ m → ∀ st, Parse C U r s st ≠ .diverge)
    (hd : ∀ s : Span, s.Valid C.mem → s.len ≤ m → ∀ st, Parse C U d s st ≠ .diverge) (T tp td : Ty) (k : Nat) (x : R)
    (hs : x.rem.Valid C.mem) (hn : x.rem.len ≤ m) (hk : x.rem.len < k) (i : Span) (w : Val) (st : σ) :
    delimitLoop T tp td (den C U r) (den C U d) (k + 1) x i w st ≠ .diverge := by
  induction k generalizing x i w st with
  | zero => omega
  | succ k ih =>
    rw [delimitLoop]
    by_cases hx : x.hasValue = true
    case neg =>
      rw [Bool.not_eq_true] at hx
      simp only [hx, Bool.not_false, if_true]
      exact spure_ne _ _
    simp only [hx, Bool.not_true, Bool.false_eq_true, if_false]
    refine sbind_ne (slift_ne (delimitRecordP_ne _ _ _ _ _) _) fun _ w st1 _ => ?_
    refine sbind_ne (hd _ hs hn st1) fun l dr st2 h1 => ?_
    by_cases hv : dr.hasValue = true
    case neg =>
      rw [Bool.not_eq_true] at hv
      simp only [hv, Bool.not_false, if_true]
      exact spure_ne _ _
    simp only [hv, Bool.not_true, Bool.false_eq_true, if_false]
    have hs1 := Parse_suffix h1
    have hv1 := hs1.valid hs
    have hl1 := hs1.len_le
    refine sbind_ne (hr _ hv1 (by omega) st2) fun l y st3 h2 => ?_
    refine sbind_ne (slift_ne (delimitRecordD_ne _ _ _ _ _ _) _) fun _ w st4 _ => ?_
    have hs2 := Parse_suffix h2
    have hl2 := hs2.len_le
    by_cases hy : y.hasValue = true
    · refine ih y (hs2.valid hv1) (by omega) ?_ _ _ _
      have : y.rem.len < x.rem.len := Nat.lt_of_not_le fun hge =>
        hnull ⟨.of_parse hs h1 hv (by omega), .of_parse hv1 h2 hy (by omega)⟩
      omega
    · rw [Bool.not_eq_true] at hy
      rw [delimitLoop]
      simp only [hy, Bool.not_false, if_true]
      exact spure_ne _ _

include hrep short

theorem rets_core (q : Parser α) (hq : Uses C p q)
    (hk : ∀ k, Reaches C U q k → ∀ s : Span, s.Valid C.mem → s.len = n → Rets C U s (.custom k))
    (s : Span) (hs : s.Valid C.mem) (hn : s.len = n) : Rets C U s q := by
  induction hz : sizeOf q using Nat.strong_induction_on generalizing q s with
  | _ z ih =>
  -- a part that is reached on inputs of length `n`
  have part : ∀ r, r ∈ q.parts → (∀ k, Reaches C U r k → Reaches C U q k) →
      ∀ s : Span, s.Valid C.mem → s.len ≤ n → Rets C U s r := by
    intro r hr hre s hs hle
    rcases Nat.lt_or_ge s.len n with h | h
    · exact short r (hq.child hr) s hs h
    · exact ih (sizeOf r) (hz ▸ parts_lt hr) r (hq.child hr) (fun k h => hk k (hre k h)) s hs (by omega) rfl
  have one : ∀ r, q.parts = [r] → ∀ s : Span, s.Valid C.mem → s.len ≤ n → Rets C U s r := fun r hr =>
    part r (by rw [hr]; simp) fun k h => .within hr h
  have hsn : s.len ≤ n := by omega
  cases q with
  | anyOf a =>
    refine ⟨fun st => Parse_ne 0 (slift_ne ?_ st), by rw [Look_anyOf, lookBasic_eq hs]; exact pure_ne _⟩
    change parseBasic C (.anyOf a) s ≠ _
    rw [parseBasic_eq hs]; exact pure_ne _
  | noneOf a =>
    refine ⟨fun st => Parse_ne 0 (slift_ne ?_ st), by rw [Look_noneOf, lookBasic_eq hs]; exact pure_ne _⟩
    change parseBasic C (.noneOf a) s ≠ _
    rw [parseBasic_eq hs]; exact pure_ne _
  | allOf a =>
    refine ⟨fun st => Parse_ne 0 (slift_ne ?_ st), by rw [Look_allOf, lookBasic_eq hs]; exact pure_ne _⟩
    change parseBasic C (.allOf a) s ≠ _
    rw [parseBasic_eq hs]; exact pure_ne _
  | anything =>
    refine ⟨fun st => Parse_ne 0 (slift_ne ?_ st), by rw [Look_anything, lookBasic_eq hs]; exact pure_ne _⟩
    change parseBasic C .anything s ≠ _
    rw [parseBasic_eq hs]; exact pure_ne _
  | epsilon => exact ⟨fun st => Parse_ne 0 (slift_ne (pure_ne _) st), by rw [Look_epsilon]; exact pure_ne _⟩
  | choice ps =>
    have h : ∀ r ∈ ps, Rets C U s r := fun r hr => part r hr (fun k => .choice hr) s hs hsn
    rw [Rets, Look_choice]
    refine ⟨fun st => Parse_ne 0 ?_, bind_ne ?_ fun x => ite_ne (pure_ne _) (pure_ne _)⟩
    · refine sbind_ne (slift_ne (ofOption_ne _ _) _) fun _ v st1 _ => sbind_ne ?_ fun _ x st2 _ =>
        site_ne (spure_ne _ _) (spure_ne _ _)
      exact foldOr_ne (fun e => mem_mkElems) _ _ _ _ _ hs h
    · exact look_foldOr_ne (Tok3n.runs_mkLookElems _) _ _ _ (mkLookElems_idx _ _) _ fun q hq => (h q hq).2
  | sequence ps =>
    have hlt : ∀ q ∈ ps, ∀ s : Span, s.Valid C.mem → s.len < n → Rets C U s q := fun r hr => short r (hq.child hr)
    have heq : ∀ qs q rs, ps = qs ++ q :: rs → (∀ x ∈ qs, Nullable C U x) →
        ∀ s : Span, s.Valid C.mem → s.len = n → Rets C U s q := by
      intro qs r rs hps hqs s hs hn
      subst hps
      exact part r (by simp [Parser.parts]) (fun k => .sequence hqs) s hs (by omega)
    rw [Rets, Look_sequence]
    refine ⟨fun st => Parse_ne 0 ?_, bind_ne ?_ fun x => ite_ne (pure_ne _) (pure_ne _)⟩
    · refine sbind_ne (slift_ne (ofOption_ne _ _) _) fun _ v st1 _ => sbind_ne ?_ fun _ x st2 _ =>
        site_ne (spure_ne _ _) (spure_ne _ _)
      exact foldAnd_ne (runs_mkElems _ _) n _ _ _ _ _ hs hsn hlt fun _ => heq
    · exact look_foldAnd_ne (U := U) (Tok3n.runs_mkLookElems _) n _ _ _ (mkLookElems_idx _ _) _ hs hsn
        (fun q hq s hs hn => (hlt q hq s hs hn).2) fun _ qs q rs h1 h2 s h3 h4 => (heq qs q rs h1 h2 s h3 h4).2
  | maybe r =>
    have h := one r rfl s hs hsn
    rw [Rets, Look_maybe_eq]
    refine ⟨fun st => Parse_ne 0 ?_, bind_ne h.2 fun _ => pure_ne _⟩
    exact sbind_ne (slift_ne (ofOption_ne _ _) _) fun _ v st1 _ => sbind_ne (h.1 st1) fun _ x st2 _ =>
      sbind_ne (site_ne (slift_ne (builderEmplace_ne _ _ _) _) (spure_ne _ _)) fun _ _ _ _ => spure_ne _ _
  | exactly r m =>
    rw [Rets, Look_exactly]
    have hp : ∀ T o m i v st, ∀ s : Span, s.Valid C.mem → s.len ≤ n →
        exactlyLoop T (den C U r) o m i s v st ≠ .diverge := by
      intro T o m
      induction m with
      | zero => intro i v st s _ _; exact spure_ne _ _
      | succ m ihm =>
        intro i v st s hs hn
        refine sbind_ne ((one r rfl s hs hn).1 st) fun l x st1 hx => site_ne (spure_ne _ _) ?_
        have hsuf := Parse_suffix hx
        exact sbind_ne (slift_ne (builderArrayAssign_ne _ _ _ _) _) fun _ w st2 _ =>
          ihm _ _ _ _ (hsuf.valid hs) (by have := hsuf.len_le; omega)
    have hl : ∀ o m, ∀ s : Span, s.Valid C.mem → s.len ≤ n → Tok3n.lookExactlyLoop (Tok3n.den C r) o m s ≠ .diverge := by
      intro o m
      induction m with
      | zero => intro s _ _; exact pure_ne _
      | succ m ihm =>
        intro s hs hn
        refine bind_ne' (one r rfl s hs hn).2 fun l x hx => ite_ne (pure_ne _) ?_
        obtain ⟨rv, rr⟩ := x
        have hsuf := Look_suffix hx
        exact ihm _ (hsuf.valid hs) (by have := hsuf.len_le; simp only; omega)
    exact ⟨fun st => Parse_ne 0 (sbind_ne (slift_ne (ofOption_ne _ _) _) fun _ v st1 _ => hp _ _ _ _ _ _ s hs hsn),
      hl _ _ s hs hsn⟩
  | oneOrMore r =>
    have hnull : ¬ Nullable C U r := hrep _ hq
    have h := rep_one r hnull (one r rfl) s hs hsn
    rw [Rets, Look_oneOrMore_eq]
    refine ⟨fun st => Parse_ne (s.len + 1) ?_, bind_ne h fun _ => pure_ne _⟩
    exact sbind_ne (slift_ne (ofOption_ne _ _) _) fun _ v st1 _ =>
      sbind_ne (oneOrMoreLoop_ne hnull (fun s hs hn => (one r rfl s hs hn).1) _ _ _ _ hs hsn (by omega) _ _)
        fun _ _ _ _ => site_ne (spure_ne _ _) (spure_ne _ _)
  | zeroOrMore r =>
    have hnull : ¬ Nullable C U r := hrep _ hq
    have h := rep_one r hnull (one r rfl) s hs hsn
    rw [Rets, Look_zeroOrMore_eq]
    refine ⟨fun st => Parse_ne (s.len + 1) ?_, bind_ne h fun _ => pure_ne _⟩
    exact sbind_ne (slift_ne (ofOption_ne _ _) _) fun _ v st1 _ =>
      sbind_ne (zeroOrMoreLoop_ne hnull (fun s hs hn => (one r rfl s hs hn).1) _ _ _ hs hsn (by omega) _ _)
        fun _ _ _ _ => spure_ne _ _
  | delimit r d =>
    have hr := part r (by simp [Parser.parts]) (fun k => .element)
    have hnull : ¬ (Nullable C U d ∧ Nullable C U r) := hrep _ hq
    have hd : ∀ m ≤ n, (m = n → Nullable C U r) → ∀ s : Span, s.Valid C.mem → s.len ≤ m → Rets C U s d := by
      intro m hm hmn s hs hsm
      rcases Nat.lt_or_ge s.len n with h | h
      · exact short d (hq.child (by simp [Parser.parts])) s hs h
      · exact part d (by simp [Parser.parts]) (fun k => .delimiter (hmn (by omega))) s hs (by omega)
    rw [Rets, Look_delimit_eq]
    constructor
    · intro st
      refine Parse_ne (s.len + 1 + 1) (sbind_ne (slift_ne (ofOption_ne _ _) _) fun _ v st1 _ => ?_)
      refine sbind_ne ((hr s hs hsn).1 st1) fun l x st2 hx => ?_
      by_cases hv : x.hasValue = true
      case neg =>
        rw [Bool.not_eq_true] at hv
        simp only [hv, Bool.not_false, if_true]
        exact spure_ne _ _
      simp only [hv, Bool.not_true, Bool.false_eq_true, if_false]
      have hsuf := Parse_suffix hx
      have hle := hsuf.len_le
      have hd' := hd x.rem.len (by omega) fun h => .of_parse hs hx hv (by omega)
      refine sbind_ne ?_ fun _ _ _ _ => spure_ne _ _
      exact delimitLoop_ne hnull (fun s hs hn => (hr s hs (by omega)).1) (fun s hs hn => (hd' s hs hn).1) _ _ _ _ x
        (hsuf.valid hs) (Nat.le_refl _) (by omega) _ _ _
    · refine bind_ne' (hr s hs hsn).2 fun l x hx => ?_
      obtain ⟨rv, rr⟩ := x
      cases rv with
      | none => exact pure_ne _
      | some v =>
        have hsuf := Look_suffix hx
        have hle := hsuf.len_le
        refine bind_ne ?_ fun _ => pure_ne _
        have hd' := hd rr.len (by omega) fun h => .of_look hs hx (by omega)
        refine repeatAll_ne (mem := C.mem) rr.len (fun s hs hle' => ?_) (fun s l a s' hs hle' h => ?_) rr (hsuf.valid hs) (Nat.le_refl _)
        · refine bind_ne' (hd' s hs hle').2 fun l x hx => ?_
          obtain ⟨dv, dr⟩ := x
          have hsuf := Look_suffix hx
          cases dv with
          | none => exact pure_ne _
          | some v => exact bind_ne (hr dr (hsuf.valid hs) (by have := hsuf.len_le; omega)).2 fun _ => pure_ne _
        · simp only [stepPair, M.bind_eq_ok] at h
          obtain ⟨l1, l2, ⟨dv, dr⟩, h1, h2, -⟩ := h
          cases dv with
          | none => simp at h2
          | some dv =>
            simp only [M.bind_eq_ok, M.pure_eq_ok] at h2
            obtain ⟨l3, l4, ⟨rv, r'⟩, h3, ⟨-, h4⟩, -⟩ := h2
            cases rv with
            | none => simp at h4
            | some rv =>
              simp only [Option.map_some, Option.some.injEq, Prod.mk.injEq] at h4
              obtain ⟨-, rfl⟩ := h4
              have hs1 := Look_suffix h1
              have hs2 := Look_suffix h3
              have hv1 := hs1.valid hs
              refine ⟨hs2.valid hv1, ?_⟩
              have := hs1.len_le
              have := hs2.len_le
              refine Nat.lt_of_not_le fun hge => hnull ⟨.of_look hs h1 (by omega), .of_look hv1 h3 (by omega)⟩
  | ignore r =>
    have h := one r rfl s hs hsn
    rw [Rets, Look_ignore]
    refine ⟨fun st => Parse_ne 0 ?_, h.2⟩
    change Look C U r s st ≠ _
    rw [Look_lift]
    exact slift_ne h.2 _
  | complete r =>
    have h := one r rfl s hs hsn
    rw [Rets, Look_complete]
    exact ⟨fun st => Parse_ne 0 (sbind_ne (h.1 st) fun _ _ _ _ => site_ne (spure_ne _ _) (spure_ne _ _)),
      bind_ne h.2 fun _ => ite_ne (pure_ne _) (pure_ne _)⟩
  | join r =>
    have h := one r rfl s hs hsn
    rw [Rets, Look_join_eq]
    refine ⟨fun st => ?_, h.2⟩
    have hgen : parseJoin C (den C U r) s st ≠ .diverge := by
      refine sbind_ne (h.1 st) fun _ x st1 _ => site_ne (sbind_ne (slift_ne (joinExecutor_ne _ _) _) fun _ j _ _ => ?_)
        (spure_ne _ _)
      cases j <;> exact spure_ne _ _
    have hrep' := hrep r (hq.child (by simp [Parser.parts]))
    cases r
    case exactly q m =>
      cases hb : asBasic C q with
      | none => refine Parse_ne 0 ?_; simp only [step, semJoin, hb]; exact hgen
      | some b =>
        exact Parse_join_ne hb rfl hrep' (fun k s => by simp only [step, semJoin, Tok3n.step, Tok3n.semJoin, hb]; rfl) s hs st
    case maybe q =>
      cases hb : asBasic C q with
      | none => refine Parse_ne 0 ?_; simp only [step, semJoin, hb]; exact hgen
      | some b =>
        exact Parse_join_ne hb rfl hrep' (fun k s => by simp only [step, semJoin, Tok3n.step, Tok3n.semJoin, hb]; rfl) s hs st
    case oneOrMore q =>
      cases hb : asBasic C q with
      | none => refine Parse_ne 0 ?_; simp only [step, semJoin, hb]; exact hgen
      | some b =>
        exact Parse_join_ne hb rfl hrep' (fun k s => by simp only [step, semJoin, Tok3n.step, Tok3n.semJoin, hb]; rfl) s hs st
    case zeroOrMore q =>
      cases hb : asBasic C q with
      | none => refine Parse_ne 0 ?_; simp only [step, semJoin, hb]; exact hgen
      | some b =>
        exact Parse_join_ne hb rfl hrep' (fun k s => by simp only [step, semJoin, Tok3n.step, Tok3n.semJoin, hb]; rfl) s hs st
    all_goals exact Parse_ne 0 hgen
  | map r f =>
    have h := one r rfl s hs hsn
    rw [Rets, Look_map]
    exact ⟨fun st => Parse_ne 0 (sbind_ne (h.1 st) fun _ _ _ _ => site_ne (spure_ne _ _)
      (sbind_ne (slift_ne (argVals_ne _ _) _) fun _ _ _ _ => sbind_ne (sinvoke_ne _ _ _ _ _) fun _ _ _ _ =>
        site_ne (spure_ne _ _) (spure_ne _ _))), h.2⟩
  | filter r f =>
    have h := one r rfl s hs hsn
    rw [Rets, Look_filter]
    exact ⟨fun st => Parse_ne 0 (sbind_ne (h.1 st) fun _ _ _ _ => site_ne (spure_ne _ _)
      (sbind_ne (slift_ne (argVals_ne _ _) _) fun _ _ _ _ => sbind_ne (sinvoke_ne _ _ _ _ _) fun _ _ _ _ =>
        site_ne (spure_ne _ _) (spure_ne _ _))), h.2⟩
  | named r m =>
    have h := one r rfl s hs hsn
    rw [Rets, Look_named]
    exact ⟨fun st => Parse_ne 0 (h.1 st), h.2⟩
  | custom k => exact hk k .custom s hs hn
where
  rep_one (r : Parser α) (hnull : ¬ Nullable C U r)
      (one : ∀ s : Span, s.Valid C.mem → s.len ≤ n → Rets C U s r) (s : Span) (hs : s.Valid C.mem) (hn : s.len ≤ n) :
      repeatAll (stepOf (Tok3n.Look C r)) s ≠ .diverge := by
    refine repeatAll_ne n (fun s hs hn => bind_ne (one s hs hn).2 fun _ => pure_ne _) (fun s l a s' hs _ h => ?_) s hs hn
    simp only [M.bind_eq_ok, M.pure_eq_ok] at h
    obtain ⟨l1, l2, ⟨rv, rr⟩, h1, ⟨-, h2⟩, -⟩ := h
    cases rv with
    | none => simp at h2
    | some v =>
      simp only [Option.map_some, Option.some.injEq, Prod.mk.injEq] at h2
      obtain ⟨-, rfl⟩ := h2
      have hsuf := Look_suffix h1
      refine ⟨hsuf.valid hs, ?_⟩
      have := hsuf.len_le
      exact Nat.lt_of_not_le fun hge => hnull (.of_look hs h1 (by omega))

end

theorem custom_rets {k : Nat} {s : Span} (h : Rets C U s (C.custom k).body) : Rets C U s (.custom k) := by
  rw [Rets, Look_custom]
  refine ⟨fun st => Parse_ne 0 (sbind_ne (h.1 st) fun _ r _ _ => slift_ne ?_ _), h.2⟩
  unfold convertResult
  refine ite_ne (pure_ne _) (ite_ne (fail_ne _) ?_)
  cases fromOptional C (resultFor C (C.custom k).body) (C.custom k).ty with
  | some g => exact pure_ne _
  | none =>
    cases r.val with
    | none => exact pure_ne _
    | some v => exact bind_ne (convert_ne _ _ _ _) fun _ => pure_ne _

theorem productive_rets {p : Parser α} (hp : Productive C U p) (q : Parser α) (hq : Uses C p q) (s : Span)
    (hs : s.Valid C.mem) : Rets C U s q := by
  obtain ⟨⟨ks, hks⟩, hrep, hrec⟩ := hp
  induction hn : s.len using Nat.strong_induction_on generalizing q s with
  | _ n ih =>
  have short : ∀ q, Uses C p q → ∀ s : Span, s.Valid C.mem → s.len < n → Rets C U s q :=
    fun q hq s hs hl => ih _ hl q hq s hs rfl
  -- the custom parsers, by what they reach
  have hcust : ∀ k, Uses C p (.custom k) → ∀ s : Span, s.Valid C.mem → s.len = n → Rets C U s (.custom k) := by
    let Rel : {k // k ∈ ks} → {k // k ∈ ks} → Prop := fun j k =>
      Uses C p (.custom k.1) ∧ Relation.TransGen (fun j k => Reaches C U (C.custom j).body k) k.1 j.1
    have hfin : Finite {k // k ∈ ks} := (List.finite_toSet ks).to_subtype
    have hirr : Std.Irrefl Rel := ⟨fun k h => hrec k.1 h.1 h.2⟩
    have htr : IsTrans _ Rel := ⟨fun a b c h h' => ⟨h'.1, h'.2.trans h.2⟩⟩
    have hwf : WellFounded Rel := Finite.wellFounded_of_trans_of_irrefl Rel
    suffices h : ∀ k : {k // k ∈ ks}, Uses C p (.custom k.1) → ∀ s : Span, s.Valid C.mem → s.len = n →
        Rets C U s (.custom k.1) from fun k hk => h ⟨k, hks k hk⟩ hk
    intro k
    induction k using hwf.induction with
    | _ k ihk =>
      intro hk s hs hn
      refine custom_rets (rets_core hrep short _ (hk.trans (.custom .self)) (fun j hj => ?_) s hs hn)
      have hj' : Uses C p (.custom j) := hk.trans (.custom hj.uses)
      exact ihk ⟨j, hks j hj'⟩ ⟨hk, .single hj⟩ hj'
  exact rets_core hrep short q hq (fun k hk => hcust k (hq.trans hk.uses)) s hs hn

/-! ### The check -/

theorem nullable_sound {null : Nat → Bool} (hnull : NullOK C null) {p : Parser α}
    (h : Nullable C U p) : p.nullable null = true := by
  by_contra hc
  rw [Bool.not_eq_true] at hc
  obtain ⟨s, hs, ⟨st, log, v, st', h⟩ | hl⟩ := h
  · have := (Parse_sat (fun n => (sem_eat (U := U) hnull n p).parse s) st).ok h
    exact absurd (this.less hc rfl) (Nat.lt_irrefl _)
  · have := Tok3n.nullable_sound hnull (p := p) ⟨s, hs, .inr hl⟩
    rw [this] at hc; cases hc

theorem repeatsOK_sound {null : Nat → Bool} (hnull : NullOK C null) {p : Parser α}
    (h : p.repeatsOK null = true) : ¬ RepeatsNothing C U p := by
  intro hn
  cases p <;> simp only [RepeatsNothing] at hn
  case delimit p d =>
    simp [Parser.repeatsOK, nullable_sound hnull hn.1, nullable_sound hnull hn.2] at h
  case oneOrMore p => simp [Parser.repeatsOK, nullable_sound hnull hn] at h
  case zeroOrMore p => simp [Parser.repeatsOK, nullable_sound hnull hn] at h

theorem firsts_sound {null ok : Nat → Bool} (hnull : NullOK C null) {p : Parser α} {k : Nat}
    (hr : Reaches C U p k) (h : p.firsts null ok = true) : ok k = true := by
  induction hr with
  | custom => simpa only [Parser.firsts] using h
  | @within p q k hp _ ih =>
    apply ih
    cases p <;> simp only [Parser.parts, List.cons.injEq, reduceCtorEq, and_false, and_true] at hp
    case choice => subst hp; exact allFirsts_mem (by simpa only [Parser.firsts] using h) (List.mem_singleton_self _)
    case sequence => subst hp; simp only [Parser.firsts, sequenceFirsts, Bool.and_eq_true] at h; exact h.1
    all_goals subst hp; simpa only [Parser.firsts] using h
  | choice hm _ ih => exact ih (allFirsts_mem (by simpa only [Parser.firsts] using h) hm)
  | @sequence qs q rs k hn _ ih =>
    apply ih
    simp only [Parser.firsts] at h
    induction qs with
    | nil => simp only [List.nil_append, sequenceFirsts, Bool.and_eq_true] at h; exact h.1
    | cons x qs ih' =>
      simp only [List.cons_append, sequenceFirsts, Bool.and_eq_true, nullable_sound hnull (hn x List.mem_cons_self),
        Bool.not_true, Bool.false_or] at h
      exact ih' (fun y hy => hn y (List.mem_cons_of_mem _ hy)) h.2
  | element _ ih => simp only [Parser.firsts, Bool.and_eq_true] at h; exact ih h.1
  | delimiter hn _ ih =>
    simp only [Parser.firsts, Bool.and_eq_true, nullable_sound hnull hn, Bool.not_true, Bool.false_or] at h
    exact ih h.2

/-- what the check says -/
theorem productive_spec {ks : List Nat} {null : Nat → Bool} {rank : Nat → Nat} {p : Parser α}
    (h : productive C ks null rank p = true) : (∀ q, Uses C p q → ¬ RepeatsNothing C U q) ∧
      (∀ k, Uses C p (.custom k) → k ∈ ks) ∧
      ∀ j k, Uses C p (.custom j) → Reaches C U (C.custom j).body k → rank k < rank j := by
  simp only [productive, Bool.and_eq_true, List.all_eq_true] at h
  obtain ⟨⟨hrep, hcus⟩, hall⟩ := h
  generalize hN : (fun k => !ks.contains k || null k) = N at *
  have hnull : NullOK C N := by
    intro k hk
    by_cases hm : k ∈ ks
    · have := (hall k hm).1.1.1
      have e : N k = (!ks.contains k || null k) := by rw [← hN]
      rw [← e] at this
      rcases hk with hk | hk <;> rw [hk] at this <;> simpa using this
    · rw [← hN]; simp [hm]
  have hb : ∀ k, ks.contains k = true →
      (C.custom k).body.repeatsOK N = true ∧ (C.custom k).body.customs ks.contains = true := fun k hk =>
    have := hall k (by simpa using hk)
    ⟨this.1.1.2, this.1.2⟩
  have hu : ∀ {q}, Uses C p q → q.repeatsOK N = true ∧ q.customs ks.contains = true := fun hq => uses_ok hb hq hrep hcus
  have hks : ∀ k, Uses C p (.custom k) → k ∈ ks := fun k hk => by simpa [Parser.customs] using (hu hk).2
  exact ⟨fun q hq => repeatsOK_sound hnull (hu hq).1, hks, fun j k hj hr => by
    simpa using firsts_sound hnull hr (hall j (hks j hj)).2⟩

theorem productive_sound {ks : List Nat} {null : Nat → Bool} {rank : Nat → Nat} {p : Parser α}
    (h : productive C ks null rank p = true) : Productive C U p := by
  obtain ⟨hrep, hks, hlow⟩ := productive_spec h
  refine ⟨⟨ks, hks⟩, hrep, fun k hk hcyc => ?_⟩
  suffices h : ∀ j, Relation.TransGen (fun j k => Reaches C U (C.custom j).body k) k j → Uses C p (.custom j) ∧ rank j < rank k from
    absurd (h k hcyc).2 (Nat.lt_irrefl _)
  intro j hj
  induction hj with
  | single h => exact ⟨hk.trans (.custom h.uses), hlow _ _ hk h⟩
  | tail _ h ih => exact ⟨ih.1.trans (.custom h.uses), Nat.lt_trans (hlow _ _ ih.1 h) ih.2⟩

end Tok3n.Stateful
