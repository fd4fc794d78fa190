import Verif.Spec.Terminate
import Verif.Proof.Repeat
import Verif.Proof.Join
import Verif.Proof.Agree
import Verif.Props.Literals
import Mathlib.Order.WellFounded
import Mathlib.Data.Fintype.Card
import Mathlib.Data.Set.Finite.Basic
/-
Productive grammars return: induction over the length of the input, then over the custom parsers that can be
reached before something is consumed, then over the expression.
-/

namespace Tok3n

variable {α β : Type} {C : Ctx α β}

section
variable {L A B : Type}

theorem bind_ne' {m : M L A} {f : A → M L B} (hm : m ≠ .diverge)
    (hf : ∀ l a, m = .done l (.ok a) → f a ≠ .diverge) : M.bind m f ≠ .diverge := by
  cases m with
  | diverge => exact absurd rfl hm
  | done l r =>
    cases r with
    | err e => simp [M.bind]
    | ok a =>
      have := hf l a rfl
      cases h : f a with
      | diverge => exact absurd h this
      | done l' r' => simp [M.bind, h]
end

/-- both functions of `q` return on `s` -/
def Rets (C : Ctx α β) (s : Span) (q : Parser α) : Prop := Parse C q s ≠ .diverge ∧ Look C q s ≠ .diverge

/-! ### Repetitions -/

/-- a repetition of steps that return and shorten the input returns -/
theorem repeatAll_ne {A : Type} {step : Step A} {mem : Mem β} (n : Nat)
    (hstep : ∀ s : Span, s.Valid mem → s.len ≤ n → step s ≠ .diverge)
    (hless : ∀ (s : Span) l a s', s.Valid mem → s.len ≤ n → step s = .done l (.ok (some (a, s'))) →
      s'.Valid mem ∧ s'.len < s.len) (s : Span) (hs : s.Valid mem) (hn : s.len ≤ n) :
    repeatAll step s ≠ .diverge := by
  suffices h : ∀ m, ∀ s : Span, s.Valid mem → s.len ≤ n → s.len = m → repeatAll step s ≠ .diverge from
    h _ s hs hn rfl
  intro m
  induction m using Nat.strong_induction_on with
  | _ m ih =>
    intro s hs hn hm
    rw [repeatAll_eq]
    refine bind_ne' (hstep s hs hn) fun l x hx => ?_
    cases x with
    | none => exact pure_ne _
    | some x =>
      obtain ⟨a, s'⟩ := x
      obtain ⟨hv, hl⟩ := hless s l a s' hs hn hx
      exact bind_ne (ih s'.len (by omega) s' hv (by omega) rfl) fun _ => pure_ne _

theorem Parse_suffix {p : Parser α} {s : Span} {l v s'} (h : Parse C p s = .done l (.ok ⟨v, s'⟩)) : s'.SuffixOf s :=
  ((Parse_good p s).ok h).suffix
theorem Look_suffix {p : Parser α} {s : Span} {l v s'} (h : Look C p s = .done l (.ok ⟨v, s'⟩)) : s'.SuffixOf s :=
  ((Look_good p s).ok h).suffix

theorem Nullable.of_parse {p : Parser α} {s s' : Span} {l v} (hs : s.Valid C.mem)
    (h : Parse C p s = .done l (.ok ⟨some v, s'⟩)) (hl : s'.len = s.len) : Nullable C p := by
  have := (Parse_suffix h).eq_of_len hl
  subst this
  exact ⟨_, hs, .inl ⟨l, v, h⟩⟩

theorem Nullable.of_look {p : Parser α} {s s' : Span} {l v} (hs : s.Valid C.mem)
    (h : Look C p s = .done l (.ok ⟨some v, s'⟩)) (hl : s'.len = s.len) : Nullable C p := by
  have := (Look_suffix h).eq_of_len hl
  subst this
  have hv : v = .unit := by rcases (Look_unit h).2 with h | h <;> simp_all
  subst hv
  exact ⟨_, hs, .inr ⟨l, h⟩⟩

/-! ### Choices and sequences -/

theorem mem_mkElems {ps : List (Parser α)} {is : List (Option Nat)} {e : Elem}
    (h : e ∈ mkElems (den C) C ps is) : ∃ q ∈ ps, e.sub = den C q := by
  induction ps generalizing is with
  | nil => cases is <;> simp [mkElems] at h
  | cons p ps ih =>
    cases is with
    | nil => simp [mkElems] at h
    | cons i is =>
      rcases List.mem_cons.1 h with rfl | h
      · exact ⟨p, by simp, rfl⟩
      · obtain ⟨q, hq, he⟩ := ih h; exact ⟨q, by simp [hq], he⟩

theorem mem_mkLookElems {ps : List (Parser α)} {e : Elem}
    (h : e ∈ mkLookElems (den C) C ps) : ∃ q ∈ ps, e.sub = den C q := by
  induction ps with
  | nil => simp [mkLookElems] at h
  | cons p ps ih =>
    rcases List.mem_cons.1 h with rfl | h
    · exact ⟨p, by simp, rfl⟩
    · obtain ⟨q, hq, he⟩ := ih h; exact ⟨q, by simp [hq], he⟩

theorem execute_ne {e : Elem} {q : Parser α} (he : e.sub = den C q) (T : Ty) (u c : Bool) (st : Exec)
    (h : Rets C st.input q) : execute C T u c e st ≠ .diverge := by
  obtain ⟨P, t, i⟩ := e
  simp only at he
  subst he
  cases i with
  | none => exact bind_ne h.2 fun _ => pure_ne _
  | some i =>
    refine bind_ne h.1 fun r => ite_ne (pure_ne _) (bind_ne ?_ fun _ => pure_ne _)
    exact ite_ne (builderAssign_ne _ _ _) (ite_ne (builderEmplaceAt_ne _ _ _ _ _ _) (builderGetAssign_ne _ _ _ _))

/-- what a successful part says: it left a suffix, and was nullable if it consumed nothing -/
theorem execute_left {e : Elem} {q : Parser α} (he : e.sub = den C q) {T : Ty} {u c : Bool} {st st' : Exec} {l b}
    (hs : st.input.Valid C.mem) (h : execute C T u c e st = .done l (.ok (b, st'))) :
    st'.input.SuffixOf st.input ∧ (b = false → st'.input = st.input) ∧
      (b = true → st'.input.len = st.input.len → Nullable C q) := by
  obtain ⟨P, t, i⟩ := e
  simp only at he
  subst he
  cases i with
  | none =>
    simp only [execute, M.bind_eq, M.bind_eq_ok] at h
    obtain ⟨l1, l2, ⟨rv, rr⟩, h1, h2, -⟩ := h
    simp only [M.pure_eq_ok, Prod.mk.injEq] at h2
    obtain ⟨-, rfl, rfl⟩ := h2
    refine ⟨Look_suffix h1, fun hb => ((Look_good q _).ok h1).fail (by simpa [R.hasValue] using hb), fun hb hl => ?_⟩
    cases rv with
    | none => cases hb
    | some v => exact .of_look hs h1 hl
  | some i =>
    simp only [execute, M.bind_eq, M.bind_eq_ok] at h
    obtain ⟨l1, l2, ⟨rv, rr⟩, h1, h2, -⟩ := h
    cases rv with
    | none =>
      simp only [R.hasValue, Option.isSome_none, Bool.not_false, if_true, M.pure_eq_ok, Prod.mk.injEq] at h2
      obtain ⟨-, rfl, rfl⟩ := h2
      exact ⟨.refl _, fun _ => rfl, nofun⟩
    | some v =>
      simp only [R.hasValue, Option.isSome_some, Bool.not_true, Bool.false_eq_true, if_false, M.bind_eq_ok,
        M.pure_eq_ok, Prod.mk.injEq] at h2
      obtain ⟨_, _, w, -, ⟨-, rfl, rfl⟩, -⟩ := h2
      exact ⟨Parse_suffix h1, nofun, fun _ hl => .of_parse hs h1 hl⟩

theorem foldOr_ne {es : List Elem} {ps : List (Parser α)} (he : ∀ e ∈ es, ∃ q ∈ ps, e.sub = den C q)
    (T : Ty) (u c : Bool) (st : Exec) (hs : st.input.Valid C.mem) (h : ∀ q ∈ ps, Rets C st.input q) :
    foldOr (execute C T u c) es st ≠ .diverge := by
  induction es generalizing st with
  | nil => exact pure_ne _
  | cons e es ih =>
    obtain ⟨q, hq, heq⟩ := he e (by simp)
    refine bind_ne' (execute_ne heq T u c st (h q hq)) fun l x hx => ?_
    obtain ⟨b, st'⟩ := x
    cases b with
    | true => exact pure_ne _
    | false =>
      have hi := (execute_left heq hs hx).2.1 rfl
      exact ih (fun e' he' => he e' (by simp [he'])) st' (hi ▸ hs) (hi ▸ h)

/-- the elements `es` run the parsers `ps` in turn -/
inductive Runs (C : Ctx α β) : List Elem → List (Parser α) → Prop where
  | nil {ps} : Runs C [] ps
  | cons {e es q ps} : e.sub = den C q → Runs C es ps → Runs C (e :: es) (q :: ps)

theorem runs_mkElems (ps : List (Parser α)) (is : List (Option Nat)) : Runs C (mkElems (den C) C ps is) ps := by
  induction ps generalizing is with
  | nil => cases is <;> exact .nil
  | cons p ps ih =>
    cases is with
    | nil => exact .nil
    | cons i is => exact .cons rfl (ih is)

theorem runs_mkLookElems (ps : List (Parser α)) : Runs C (mkLookElems (den C) C ps) ps := by
  induction ps with
  | nil => exact .nil
  | cons p ps ih => exact .cons rfl ih

theorem foldAnd_ne {es : List Elem} {ps : List (Parser α)} (he : Runs C es ps) (n : Nat) (T : Ty) (u c : Bool)
    (st : Exec) (hs : st.input.Valid C.mem) (hn : st.input.len ≤ n)
    (hlt : ∀ q ∈ ps, ∀ s : Span, s.Valid C.mem → s.len < n → Rets C s q)
    (heq : st.input.len = n → ∀ qs q rs, ps = qs ++ q :: rs → (∀ x ∈ qs, Nullable C x) →
      ∀ s : Span, s.Valid C.mem → s.len = n → Rets C s q) :
    foldAnd (execute C T u c) es st ≠ .diverge := by
  induction he generalizing st with
  | nil => exact pure_ne _
  | @cons e es q ps heq' _ ih =>
    have hr : Rets C st.input q := by
      rcases Nat.lt_or_ge st.input.len n with h | h
      · exact hlt q (by simp) _ hs h
      · exact heq (by omega) [] q ps rfl nofun _ hs (by omega)
    refine bind_ne' (execute_ne heq' T u c st hr) fun l x hx => ?_
    obtain ⟨b, st'⟩ := x
    obtain ⟨hsuf, -, hnull⟩ := execute_left heq' hs hx
    cases b with
    | false => exact pure_ne _
    | true =>
      have hle := hsuf.len_le
      refine ih st' (hsuf.valid hs) (by omega) (fun q hq => hlt q (by simp [hq])) fun hst => ?_
      intro qs r rs hps hqs
      have hnq : Nullable C q := hnull rfl (by omega)
      refine heq (by omega) (q :: qs) r rs (by rw [hps]; rfl) fun x hx => ?_
      rcases List.mem_cons.1 hx with rfl | hx
      · exact hnq
      · exact hqs x hx

/-! ### Expressions -/

theorem parts_lt {p q : Parser α} (h : q ∈ p.parts) : sizeOf q < sizeOf p := by
  cases p <;> simp only [Parser.parts, List.mem_cons, List.not_mem_nil, or_false] at h
  case choice ps => have := List.sizeOf_lt_of_mem h; simp; omega
  case sequence ps => have := List.sizeOf_lt_of_mem h; simp; omega
  case delimit p d => rcases h with rfl | rfl <;> simp <;> omega
  all_goals first | (subst h; simp; done) | (subst h; simp; omega)

theorem Uses.trans {p q r : Parser α} (h : Uses C p q) (h' : Uses C q r) : Uses C p r := by
  induction h with
  | self => exact h'
  | part hq _ ih => exact .part hq (ih h')
  | custom _ ih => exact .custom (ih h')

theorem Uses.child {p q r : Parser α} (h : Uses C p q) (h' : r ∈ q.parts) : Uses C p r :=
  h.trans (.part h' .self)

theorem Reaches.uses {p : Parser α} {k : Nat} (h : Reaches C p k) : Uses C p (.custom k) := by
  induction h with
  | custom => exact .self
  | within hp _ ih => exact .part (by rw [hp]; simp) ih
  | choice hq _ ih => exact .part hq ih
  | sequence _ _ ih => exact .part (by simp [Parser.parts]) ih
  | element _ ih => exact .part (by simp [Parser.parts]) ih
  | delimiter _ _ ih => exact .part (by simp [Parser.parts]) ih

section
variable {p : Parser α} (hrep : ∀ q, Uses C p q → ¬ RepeatsNothing C q) {n : Nat}
  (short : ∀ q, Uses C p q → ∀ s : Span, s.Valid C.mem → s.len < n → Rets C s q)
include hrep short

theorem rets_core (q : Parser α) (hq : Uses C p q)
    (hk : ∀ k, Reaches C q k → ∀ s : Span, s.Valid C.mem → s.len = n → Rets C s (.custom k))
    (s : Span) (hs : s.Valid C.mem) (hn : s.len = n) : Rets C s q := by
  induction hz : sizeOf q using Nat.strong_induction_on generalizing q s with
  | _ z ih =>
  -- a part that is reached on inputs of length `n`
  have part : ∀ r, r ∈ q.parts → (∀ k, Reaches C r k → Reaches C q k) →
      ∀ s : Span, s.Valid C.mem → s.len ≤ n → Rets C s r := by
    intro r hr hre s hs hle
    rcases Nat.lt_or_ge s.len n with h | h
    · exact short r (hq.child hr) s hs h
    · exact ih (sizeOf r) (hz ▸ parts_lt hr) r (hq.child hr) (fun k h => hk k (hre k h)) s hs (by omega) rfl
  have one : ∀ r, q.parts = [r] → ∀ s : Span, s.Valid C.mem → s.len ≤ n → Rets C s r := fun r hr =>
    part r (by rw [hr]; simp) fun k h => .within hr h
  have hsn : s.len ≤ n := by omega
  cases q with
  | anyOf a => exact ⟨by rw [Parse_anyOf, parseBasic_eq hs]; exact pure_ne _, by rw [Look_anyOf, lookBasic_eq hs]; exact pure_ne _⟩
  | noneOf a => exact ⟨by rw [Parse_noneOf, parseBasic_eq hs]; exact pure_ne _, by rw [Look_noneOf, lookBasic_eq hs]; exact pure_ne _⟩
  | allOf a => exact ⟨by rw [Parse_allOf, parseBasic_eq hs]; exact pure_ne _, by rw [Look_allOf, lookBasic_eq hs]; exact pure_ne _⟩
  | anything => exact ⟨by rw [Parse_anything, parseBasic_eq hs]; exact pure_ne _, by rw [Look_anything, lookBasic_eq hs]; exact pure_ne _⟩
  | epsilon => exact ⟨by rw [Parse_epsilon]; exact pure_ne _, by rw [Look_epsilon]; exact pure_ne _⟩
  | choice ps =>
    have h : ∀ r ∈ ps, Rets C s r := fun r hr => part r hr (fun k => .choice hr) s hs hsn
    rw [Rets, Parse_choice, Look_choice]
    refine ⟨bind_ne (ofOption_ne _ _) fun v => bind_ne ?_ fun x => ite_ne (pure_ne _) (pure_ne _),
      bind_ne ?_ fun x => ite_ne (pure_ne _) (pure_ne _)⟩
    · exact foldOr_ne (fun e => mem_mkElems) _ _ _ _ hs h
    · exact foldOr_ne (fun e => mem_mkLookElems) _ _ _ _ hs h
  | sequence ps =>
    have hlt : ∀ q ∈ ps, ∀ s : Span, s.Valid C.mem → s.len < n → Rets C s q := fun r hr => short r (hq.child hr)
    have heq : ∀ qs q rs, ps = qs ++ q :: rs → (∀ x ∈ qs, Nullable C x) →
        ∀ s : Span, s.Valid C.mem → s.len = n → Rets C s q := by
      intro qs r rs hps hqs s hs hn
      subst hps
      exact part r (by simp [Parser.parts]) (fun k => .sequence hqs) s hs (by omega)
    rw [Rets, Parse_sequence, Look_sequence]
    refine ⟨bind_ne (ofOption_ne _ _) fun v => bind_ne ?_ fun x => ite_ne (pure_ne _) (pure_ne _),
      bind_ne ?_ fun x => ite_ne (pure_ne _) (pure_ne _)⟩
    · exact foldAnd_ne (runs_mkElems _ _) n _ _ _ _ hs hsn hlt fun _ => heq
    · exact foldAnd_ne (runs_mkLookElems _) n _ _ _ _ hs hsn hlt fun _ => heq
  | maybe r =>
    have h := one r rfl s hs hsn
    rw [Rets, Parse_maybe_eq, Look_maybe_eq]
    exact ⟨bind_ne h.1 fun _ => pure_ne _, bind_ne h.2 fun _ => pure_ne _⟩
  | exactly r m =>
    rw [Rets, Parse_exactly, Look_exactly]
    have hp : ∀ T o m i v, ∀ s : Span, s.Valid C.mem → s.len ≤ n →
        exactlyLoop T (den C r) o m i s v ≠ .diverge := by
      intro T o m
      induction m with
      | zero => intro i v s _ _; exact pure_ne _
      | succ m ihm =>
        intro i v s hs hn
        refine bind_ne' (one r rfl s hs hn).1 fun l x hx => ite_ne (pure_ne _) ?_
        obtain ⟨rv, rr⟩ := x
        have hsuf := Parse_suffix hx
        exact bind_ne (builderArrayAssign_ne _ _ _ _) fun w =>
          ihm _ _ _ (hsuf.valid hs) (by have := hsuf.len_le; simp only; omega)
    have hl : ∀ o m, ∀ s : Span, s.Valid C.mem → s.len ≤ n → lookExactlyLoop (den C r) o m s ≠ .diverge := by
      intro o m
      induction m with
      | zero => intro s _ _; exact pure_ne _
      | succ m ihm =>
        intro s hs hn
        refine bind_ne' (one r rfl s hs hn).2 fun l x hx => ite_ne (pure_ne _) ?_
        obtain ⟨rv, rr⟩ := x
        have hsuf := Look_suffix hx
        exact ihm _ (hsuf.valid hs) (by have := hsuf.len_le; simp only; omega)
    exact ⟨bind_ne (ofOption_ne _ _) fun v => hp _ _ _ _ _ s hs hsn, hl _ _ s hs hsn⟩
  | oneOrMore r =>
    have hnull : ¬ Nullable C r := hrep _ hq
    have h := rep_one r hnull (one r rfl) s hs hsn
    rw [Rets, Parse_oneOrMore_eq, Look_oneOrMore_eq]
    exact ⟨bind_ne h.1 fun _ => pure_ne _, bind_ne h.2 fun _ => pure_ne _⟩
  | zeroOrMore r =>
    have hnull : ¬ Nullable C r := hrep _ hq
    have h := rep_one r hnull (one r rfl) s hs hsn
    rw [Rets, Parse_zeroOrMore_eq, Look_zeroOrMore_eq]
    exact ⟨bind_ne h.1 fun _ => pure_ne _, bind_ne h.2 fun _ => pure_ne _⟩
  | delimit r d =>
    have hr := part r (by simp [Parser.parts]) (fun k => .element)
    have hnull : ¬ (Nullable C d ∧ Nullable C r) := hrep _ hq
    have hd : ∀ m ≤ n, (m = n → Nullable C r) → ∀ s : Span, s.Valid C.mem → s.len ≤ m → Rets C s d := by
      intro m hm hmn s hs hsm
      rcases Nat.lt_or_ge s.len n with h | h
      · exact short d (hq.child (by simp [Parser.parts])) s hs h
      · exact part d (by simp [Parser.parts]) (fun k => .delimiter (hmn (by omega))) s hs (by omega)
    rw [Rets, Parse_delimit_eq, Look_delimit_eq]
    constructor
    · refine bind_ne' (hr s hs hsn).1 fun l x hx => ?_
      obtain ⟨rv, rr⟩ := x
      cases rv with
      | none => exact pure_ne _
      | some v =>
        have hsuf := Parse_suffix hx
        have hle := hsuf.len_le
        refine bind_ne ?_ fun _ => pure_ne _
        have hd' := hd rr.len (by omega) fun h => .of_parse hs hx (by omega)
        refine repeatAll_ne (mem := C.mem) rr.len (fun s hs hle' => ?_) (fun s l a s' hs hle' h => ?_) rr (hsuf.valid hs) (Nat.le_refl _)
        · refine bind_ne' (hd' s hs hle').1 fun l x hx => ?_
          obtain ⟨dv, dr⟩ := x
          have hsuf := Parse_suffix hx
          cases dv with
          | none => exact pure_ne _
          | some v => exact bind_ne (hr dr (hsuf.valid hs) (by have := hsuf.len_le; omega)).1 fun _ => pure_ne _
        · simp only [stepPair, M.bind_eq_ok] at h
          obtain ⟨l1, l2, ⟨dv, dr⟩, h1, h2, -⟩ := h
          cases dv with
          | none => simp at h2
          | some dv =>
            simp only [M.bind_eq_ok, M.pure_eq_ok] at h2
            obtain ⟨l3, l4, ⟨rv, r'⟩, h3, ⟨-, h4⟩, -⟩ := h2
            cases rv with
            | none => simp at h4
            | some rv =>
              simp only [Option.map_some, Option.some.injEq, Prod.mk.injEq] at h4
              obtain ⟨-, rfl⟩ := h4
              have hs1 := Parse_suffix h1
              have hs2 := Parse_suffix h3
              have hv1 := hs1.valid hs
              refine ⟨hs2.valid hv1, ?_⟩
              have := hs1.len_le
              have := hs2.len_le
              refine Nat.lt_of_not_le fun hge => hnull ⟨.of_parse hs h1 (by omega), .of_parse hv1 h3 (by omega)⟩
    · refine bind_ne' (hr s hs hsn).2 fun l x hx => ?_
      obtain ⟨rv, rr⟩ := x
      cases rv with
      | none => exact pure_ne _
      | some v =>
        have hsuf := Look_suffix hx
        have hle := hsuf.len_le
        refine bind_ne ?_ fun _ => pure_ne _
        have hd' := hd rr.len (by omega) fun h => .of_look hs hx (by omega)
        refine repeatAll_ne (mem := C.mem) rr.len (fun s hs hle' => ?_) (fun s l a s' hs hle' h => ?_) rr (hsuf.valid hs) (Nat.le_refl _)
        · refine bind_ne' (hd' s hs hle').2 fun l x hx => ?_
          obtain ⟨dv, dr⟩ := x
          have hsuf := Look_suffix hx
          cases dv with
          | none => exact pure_ne _
          | some v => exact bind_ne (hr dr (hsuf.valid hs) (by have := hsuf.len_le; omega)).2 fun _ => pure_ne _
        · simp only [stepPair, M.bind_eq_ok] at h
          obtain ⟨l1, l2, ⟨dv, dr⟩, h1, h2, -⟩ := h
          cases dv with
          | none => simp at h2
          | some dv =>
            simp only [M.bind_eq_ok, M.pure_eq_ok] at h2
            obtain ⟨l3, l4, ⟨rv, r'⟩, h3, ⟨-, h4⟩, -⟩ := h2
            cases rv with
            | none => simp at h4
            | some rv =>
              simp only [Option.map_some, Option.some.injEq, Prod.mk.injEq] at h4
              obtain ⟨-, rfl⟩ := h4
              have hs1 := Look_suffix h1
              have hs2 := Look_suffix h3
              have hv1 := hs1.valid hs
              refine ⟨hs2.valid hv1, ?_⟩
              have := hs1.len_le
              have := hs2.len_le
              refine Nat.lt_of_not_le fun hge => hnull ⟨.of_look hs h1 (by omega), .of_look hv1 h3 (by omega)⟩
  | ignore r =>
    have h := one r rfl s hs hsn
    rw [Rets, Parse_ignore, Look_ignore]
    exact ⟨h.2, h.2⟩
  | complete r =>
    have h := one r rfl s hs hsn
    rw [Rets, Parse_complete, Look_complete]
    exact ⟨bind_ne h.1 fun _ => ite_ne (pure_ne _) (pure_ne _), bind_ne h.2 fun _ => ite_ne (pure_ne _) (pure_ne _)⟩
  | join r =>
    have h := one r rfl s hs hsn
    rw [Rets, Parse_join_eq, Look_join_eq]
    refine ⟨bind_ne h.1 fun x => ite_ne (bind_ne (joinExecutor_ne _ _) fun j => ?_) (pure_ne _), h.2⟩
    cases j <;> exact pure_ne _
  | map r f =>
    have h := one r rfl s hs hsn
    rw [Rets, Parse_map, Look_map]
    exact ⟨bind_ne h.1 fun _ => ite_ne (pure_ne _) (bind_ne (argVals_ne _ _) fun _ =>
      bind_ne (invoke_ne _ _ _) fun _ => ite_ne (pure_ne _) (pure_ne _)), h.2⟩
  | filter r f =>
    have h := one r rfl s hs hsn
    rw [Rets, Parse_filter, Look_filter]
    exact ⟨bind_ne h.1 fun _ => ite_ne (pure_ne _) (bind_ne (argVals_ne _ _) fun _ =>
      bind_ne (invoke_ne _ _ _) fun _ => ite_ne (pure_ne _) (pure_ne _)), h.2⟩
  | named r m =>
    have h := one r rfl s hs hsn
    rw [Rets, Parse_named, Look_named]
    exact h
  | custom k => exact hk k .custom s hs hn
where
  rep_one (r : Parser α) (hnull : ¬ Nullable C r)
      (one : ∀ s : Span, s.Valid C.mem → s.len ≤ n → Rets C s r) (s : Span) (hs : s.Valid C.mem) (hn : s.len ≤ n) :
      repeatAll (stepOf (Parse C r)) s ≠ .diverge ∧ repeatAll (stepOf (Look C r)) s ≠ .diverge := by
    constructor
    · refine repeatAll_ne n (fun s hs hn => bind_ne (one s hs hn).1 fun _ => pure_ne _) (fun s l a s' hs _ h => ?_) s hs hn
      simp only [M.bind_eq_ok, M.pure_eq_ok] at h
      obtain ⟨l1, l2, ⟨rv, rr⟩, h1, ⟨-, h2⟩, -⟩ := h
      cases rv with
      | none => simp at h2
      | some v =>
        simp only [Option.map_some, Option.some.injEq, Prod.mk.injEq] at h2
        obtain ⟨-, rfl⟩ := h2
        have hsuf := Parse_suffix h1
        refine ⟨hsuf.valid hs, ?_⟩
        have := hsuf.len_le
        exact Nat.lt_of_not_le fun hge => hnull (.of_parse hs h1 (by omega))
    · refine repeatAll_ne n (fun s hs hn => bind_ne (one s hs hn).2 fun _ => pure_ne _) (fun s l a s' hs _ h => ?_) s hs hn
      simp only [M.bind_eq_ok, M.pure_eq_ok] at h
      obtain ⟨l1, l2, ⟨rv, rr⟩, h1, ⟨-, h2⟩, -⟩ := h
      cases rv with
      | none => simp at h2
      | some v =>
        simp only [Option.map_some, Option.some.injEq, Prod.mk.injEq] at h2
        obtain ⟨-, rfl⟩ := h2
        have hsuf := Look_suffix h1
        refine ⟨hsuf.valid hs, ?_⟩
        have := hsuf.len_le
        exact Nat.lt_of_not_le fun hge => hnull (.of_look hs h1 (by omega))

end

theorem custom_rets {k : Nat} {s : Span} (h : Rets C s (C.custom k).body) : Rets C s (.custom k) := by
  rw [Rets, Parse_custom, Look_custom]
  refine ⟨bind_ne h.1 fun r => ?_, h.2⟩
  unfold convertResult
  refine ite_ne (pure_ne _) (ite_ne (fail_ne _) ?_)
  cases fromOptional C (resultFor C (C.custom k).body) (C.custom k).ty with
  | some g => exact pure_ne _
  | none =>
    cases r.val with
    | none => exact pure_ne _
    | some v => exact bind_ne (convert_ne _ _ _ _) fun _ => pure_ne _

theorem productive_rets {p : Parser α} (hp : Productive C p) (q : Parser α) (hq : Uses C p q) (s : Span)
    (hs : s.Valid C.mem) : Rets C s q := by
  obtain ⟨⟨ks, hks⟩, hrep, hrec⟩ := hp
  induction hn : s.len using Nat.strong_induction_on generalizing q s with
  | _ n ih =>
  have short : ∀ q, Uses C p q → ∀ s : Span, s.Valid C.mem → s.len < n → Rets C s q :=
    fun q hq s hs hl => ih _ hl q hq s hs rfl
  -- the custom parsers, by what they reach
  have hcust : ∀ k, Uses C p (.custom k) → ∀ s : Span, s.Valid C.mem → s.len = n → Rets C s (.custom k) := by
    let Rel : {k // k ∈ ks} → {k // k ∈ ks} → Prop := fun j k =>
      Uses C p (.custom k.1) ∧ Relation.TransGen (fun j k => Reaches C (C.custom j).body k) k.1 j.1
    have hfin : Finite {k // k ∈ ks} := (List.finite_toSet ks).to_subtype
    have hirr : Std.Irrefl Rel := ⟨fun k h => hrec k.1 h.1 h.2⟩
    have htr : IsTrans _ Rel := ⟨fun a b c h h' => ⟨h'.1, h'.2.trans h.2⟩⟩
    have hwf : WellFounded Rel := Finite.wellFounded_of_trans_of_irrefl Rel
    suffices h : ∀ k : {k // k ∈ ks}, Uses C p (.custom k.1) → ∀ s : Span, s.Valid C.mem → s.len = n →
        Rets C s (.custom k.1) from fun k hk => h ⟨k, hks k hk⟩ hk
    intro k
    induction k using hwf.induction with
    | _ k ihk =>
      intro hk s hs hn
      refine custom_rets (rets_core hrep short _ (hk.trans (.custom .self)) (fun j hj => ?_) s hs hn)
      have hj' : Uses C p (.custom j) := hk.trans (.custom hj.uses)
      exact ihk ⟨j, hks j hj'⟩ ⟨hk, .single hj⟩ hj'
  exact rets_core hrep short q hq (fun k hk => hcust k (hq.trans hk.uses)) s hs hn

end Tok3n
