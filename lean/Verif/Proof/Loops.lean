import Verif.Spec.Repeat
import Verif.Proof.Verdict
/-
The loops are repetitions of their bodies.
-/

namespace Tok3n

variable {α β : Type} {C : Ctx α β}

/-! ### Repetition with and without fuel -/

section
variable {A : Type} (step : Step A)

def rep : Nat → Span → Run (List A × Span)
  | 0, _ => .diverge
  | n + 1, s => M.bind (step s) fun
    | none => M.pure ([], s)
    | some (a, s') => M.bind (rep n s') fun x => M.pure (a :: x.1, x.2)

theorem rep_mono (s : Span) : Mono fun n => rep step n s := by
  intro n
  induction n generalizing s with
  | zero => exact M.diverge_le _
  | succ n ih =>
    refine M.bind_le (M.le_refl _) fun x => ?_
    cases x with
    | none => exact M.le_refl _
    | some x => exact M.bind_le (ih x.2) fun _ => M.le_refl _

noncomputable def repeatAll (s : Span) : Run (List A × Span) := lim fun n => rep step n s

theorem repeatAll_lim (s : Span) : Lim (fun n => rep step n s) (repeatAll step s) := (rep_mono step s).lim

variable {step}

theorem repeatAll_eq (s : Span) :
    repeatAll step s = M.bind (step s) fun
      | none => M.pure ([], s)
      | some (a, s') => M.bind (repeatAll step s') fun x => M.pure (a :: x.1, x.2) :=
  (repeatAll_lim step s).tail.unique <| Lim.bind (Lim.const _) fun x => by
    cases x with
    | none => exact Lim.const _
    | some x => exact Lim.bind (repeatAll_lim step x.2) fun _ => Lim.const _

theorem rep_ok {n : Nat} {s : Span} {log xs s'} (h : rep step n s = .done log (.ok (xs, s'))) :
    ∃ l1 l2, Chain step s l1 xs s' ∧ step s' = .done l2 (.ok none) ∧ log = l1 ++ l2 := by
  induction n generalizing s log xs with
  | zero => cases h
  | succ n ih =>
    rw [rep, M.bind_eq_ok] at h
    obtain ⟨l1, l2, x, h1, h2, rfl⟩ := h
    cases x with
    | none =>
      simp only [M.pure_eq_ok, Prod.mk.injEq] at h2
      obtain ⟨rfl, rfl, rfl⟩ := h2
      exact ⟨[], l1, .nil, h1, by simp⟩
    | some x =>
      obtain ⟨a, s1⟩ := x
      simp only at h2
      rw [M.bind_eq_ok] at h2
      obtain ⟨l3, l4, ⟨ys, s2⟩, h3, h4, rfl⟩ := h2
      simp only [M.pure_eq_ok, Prod.mk.injEq] at h4
      obtain ⟨rfl, rfl, rfl⟩ := h4
      obtain ⟨l5, l6, h5, h6, rfl⟩ := ih h3
      exact ⟨l1 ++ l5, l6, .cons h1 h5, h6, by simp⟩

theorem rep_err {n : Nat} {s : Span} {log e} (h : rep step n s = .done log (.err e)) :
    ∃ l1 l2 xs s', Chain step s l1 xs s' ∧ step s' = .done l2 (.err e) ∧ log = l1 ++ l2 := by
  induction n generalizing s log with
  | zero => cases h
  | succ n ih =>
    rw [rep, M.bind_eq_err] at h
    rcases h with h | ⟨l1, l2, x, h1, h2, rfl⟩
    · exact ⟨[], log, [], s, .nil, h, rfl⟩
    · cases x with
      | none => simp at h2
      | some x =>
        obtain ⟨a, s1⟩ := x
        simp only at h2
        rw [M.bind_eq_err] at h2
        rcases h2 with h2 | ⟨l3, l4, x, h3, h4, rfl⟩
        · obtain ⟨l5, l6, xs, s', h5, h6, rfl⟩ := ih h2
          exact ⟨l1 ++ l5, l6, a :: xs, s', .cons h1 h5, h6, by simp⟩
        · simp at h4

theorem repeatAll_chain {s : Span} {l xs s'} (h : Chain step s l xs s') :
    repeatAll step s =
      M.bind ((repeatAll step s').after l) fun x => M.pure (xs ++ x.1, x.2) := by
  induction h with
  | nil => simp only [M.after_nil, List.nil_append]; exact (M.bind_pure _).symm
  | cons hx _ ih =>
    rw [repeatAll_eq, hx]
    simp only [M.ok_bind]
    rw [ih, M.bind_assoc, M.after_bind, M.after_after]
    simp only [M.pure_bind, List.cons_append]

theorem repeatAll_ok {s : Span} {log xs s'} :
    repeatAll step s = .done log (.ok (xs, s')) ↔
      ∃ l1 l2, Chain step s l1 xs s' ∧ step s' = .done l2 (.ok none) ∧ log = l1 ++ l2 := by
  constructor
  · intro h
    obtain ⟨n, h⟩ := ((repeatAll_lim step s).iff _ _).1 h
    exact rep_ok h
  · rintro ⟨l1, l2, h1, h2, rfl⟩
    rw [repeatAll_chain h1, repeatAll_eq, h2]
    simp [M.pure]

theorem repeatAll_err {s : Span} {log e} :
    repeatAll step s = .done log (.err e) ↔
      ∃ l1 l2 xs s', Chain step s l1 xs s' ∧ step s' = .done l2 (.err e) ∧ log = l1 ++ l2 := by
  constructor
  · intro h
    obtain ⟨n, h⟩ := ((repeatAll_lim step s).iff _ _).1 h
    exact rep_err h
  · rintro ⟨l1, l2, xs, s', h1, h2, rfl⟩
    rw [repeatAll_chain h1, repeatAll_eq, h2]
    simp

theorem rep_map {B : Type} {step' : Step B} {f : A → B}
    (h : ∀ s, step' s = M.bind (step s) fun o => M.pure (o.map fun x => (f x.1, x.2))) (n : Nat) (s : Span) :
    rep step' n s = M.bind (rep step n s) fun x => M.pure (x.1.map f, x.2) := by
  induction n generalizing s with
  | zero => rfl
  | succ n ih =>
    rw [rep, rep, h, M.bind_assoc, M.bind_assoc]
    refine M.bind_congr fun o => ?_
    cases o with
    | none => simp
    | some x =>
      simp only [M.pure_bind, Option.map_some]
      rw [ih, M.bind_assoc, M.bind_assoc]
      simp

/-- Changing the values of the steps changes the values of the repetition. -/
theorem repeatAll_map {B : Type} {step' : Step B} {f : A → B}
    (h : ∀ s, step' s = M.bind (step s) fun o => M.pure (o.map fun x => (f x.1, x.2))) (s : Span) :
    repeatAll step' s = M.bind (repeatAll step s) fun x => M.pure (x.1.map f, x.2) := by
  refine (repeatAll_lim step' s).unique ?_
  have h1 : (fun n => rep step' n s) = fun n => M.bind (rep step n s) fun x => M.pure (x.1.map f, x.2) :=
    funext fun n => rep_map h n s
  rw [h1]
  exact Lim.bind (f := fun _ (x : List A × Span) => M.pure (x.1.map f, x.2)) (repeatAll_lim step s)
    fun _ => Lim.const _

theorem Chain.append {s s1 s2 : Span} {l l' xs ys} (h : Chain step s l xs s1) (h' : Chain step s1 l' ys s2) :
    Chain step s (l ++ l') (xs ++ ys) s2 := by
  induction h with
  | nil => exact h'
  | cons hx _ ih => rw [List.append_assoc]; exact .cons hx (ih h')

theorem rep_diverge_of_chain {s : Span} {l xs s'} (h : Chain step s l xs s') :
    rep step xs.length s = .diverge := by
  induction h with
  | nil => rfl
  | cons hx _ ih => rw [List.length_cons, rep, hx]; simp only [M.ok_bind]; rw [ih]; rfl

/-- A repetition does not end exactly if a step it reaches does not end or if there are
arbitrarily long chains of steps. -/
theorem repeatAll_diverge {s : Span} :
    repeatAll step s = .diverge ↔
      (∃ l xs s', Chain step s l xs s' ∧ step s' = .diverge) ∨
      ∀ n, ∃ l xs s', xs.length = n ∧ Chain step s l xs s' := by
  constructor
  · intro h
    by_cases hd : ∃ l xs s', Chain step s l xs s' ∧ step s' = .diverge
    · exact .inl hd
    · refine .inr fun n => ?_
      induction n with
      | zero => exact ⟨[], [], s, rfl, .nil⟩
      | succ n ih =>
        obtain ⟨l, xs, s', hn, hc⟩ := ih
        rw [repeatAll_chain hc, M.bind_eq_diverge] at h
        rcases h with h | ⟨_, _, _, h⟩
        · rw [M.after_eq_diverge, repeatAll_eq] at h
          cases hs : step s' with
          | diverge => exact absurd ⟨l, xs, s', hc, hs⟩ hd
          | done l' r =>
            rw [hs] at h
            cases r with
            | err e => simp at h
            | ok x =>
              cases x with
              | none => simp at h
              | some x =>
                exact ⟨_, xs ++ [x.1], x.2, by simp [hn], hc.append (.cons hs .nil)⟩
        · simp at h
  · rintro (⟨l, xs, s', hc, hs⟩ | h)
    · rw [repeatAll_chain hc, repeatAll_eq, hs]; simp
    · cases hr : repeatAll step s with
      | diverge => rfl
      | done l r =>
        obtain ⟨n, hn⟩ := ((repeatAll_lim step s).iff _ _).1 hr
        obtain ⟨_, xs, _, hx, hc⟩ := h n
        rw [← hx, rep_diverge_of_chain hc] at hn
        cases hn

end

/-! ### Steps made of runs -/

theorem stepOf_some {run : Span → Run R} {s : Span} {l v s'} :
    stepOf run s = .done l (.ok (some (v, s'))) ↔ run s = .done l (.ok ⟨some v, s'⟩) := by
  rw [stepOf, M.bind_eq_ok]
  constructor
  · rintro ⟨l1, l2, ⟨rv, rr⟩, h1, h2, rfl⟩
    cases rv with
    | none => simp at h2
    | some w =>
      simp only [Option.map_some, M.pure_eq_ok, Option.some.injEq, Prod.mk.injEq] at h2
      obtain ⟨rfl, rfl, rfl⟩ := h2
      simpa using h1
  · intro h; exact ⟨l, [], _, h, rfl, by simp⟩

theorem stepOf_none {run : Span → Run R} {s : Span} {l} :
    stepOf run s = .done l (.ok none) ↔ ∃ s', run s = .done l (.ok ⟨none, s'⟩) := by
  rw [stepOf, M.bind_eq_ok]
  constructor
  · rintro ⟨l1, l2, ⟨rv, rr⟩, h1, h2, rfl⟩
    cases rv with
    | some w => simp at h2
    | none =>
      simp only [Option.map_none, M.pure_eq_ok] at h2
      obtain ⟨rfl, _⟩ := h2
      exact ⟨rr, by simpa using h1⟩
  · rintro ⟨s', h⟩; exact ⟨l, [], _, h, rfl, by simp⟩

theorem stepOf_err {run : Span → Run R} {s : Span} {l e} :
    stepOf run s = .done l (.err e) ↔ run s = .done l (.err e) := by
  rw [stepOf, M.bind_eq_err]
  constructor
  · rintro (h | ⟨l1, l2, r, h1, h2, rfl⟩)
    · exact h
    · simp at h2
  · exact .inl

theorem stepOf_diverge {run : Span → Run R} {s : Span} : stepOf run s = .diverge ↔ run s = .diverge := by
  rw [stepOf, M.bind_eq_diverge]
  constructor
  · rintro (h | ⟨l1, a, h1, h2⟩)
    · exact h
    · simp at h2
  · exact .inl

theorem chain_inTurn {run : Span → Run R} {s : Span} {l vs s'} :
    Chain (stepOf run) s l vs s' ↔ InTurn (List.replicate vs.length run) s l vs s' := by
  constructor
  · intro h
    induction h with
    | nil => exact .nil
    | cons hx _ ih => exact .cons (stepOf_some.1 hx) ih
  · intro h
    induction vs generalizing s l with
    | nil => cases h; exact .nil
    | cons v vs ih =>
      cases h with
      | cons hm ht => exact .cons (stepOf_some.2 hm) (ih ht)

theorem InTurn.length {ms : List (Span → Run R)} {s l vs s'} (h : InTurn ms s l vs s') :
    vs.length = ms.length := by
  induction h with
  | nil => rfl
  | cons _ _ ih => simp [ih]

theorem stepPair_some {D P : Span → Run R} {s : Span} {l d v s'} :
    stepPair D P s = .done l (.ok (some ((d, v), s'))) ↔
      ∃ l1 l2 s1, D s = .done l1 (.ok ⟨some d, s1⟩) ∧ P s1 = .done l2 (.ok ⟨some v, s'⟩) ∧ l = l1 ++ l2 := by
  rw [stepPair, M.bind_eq_ok]
  constructor
  · rintro ⟨l1, l2, ⟨rv, rr⟩, h1, h2, rfl⟩
    cases rv with
    | none => simp at h2
    | some w =>
      simp only at h2
      rw [M.bind_eq_ok] at h2
      obtain ⟨l3, l4, ⟨pv, pr⟩, h3, h4, rfl⟩ := h2
      cases pv with
      | none => simp at h4
      | some w =>
        simp only [Option.map_some, M.pure_eq_ok, Option.some.injEq, Prod.mk.injEq] at h4
        obtain ⟨rfl, ⟨rfl, rfl⟩, rfl⟩ := h4
        exact ⟨l1, l3, rr, h1, h3, by simp⟩
  · rintro ⟨l1, l2, s1, h1, h2, rfl⟩
    refine ⟨l1, l2, _, h1, ?_, rfl⟩
    simp only
    rw [h2]; simp [M.pure]

theorem stepPair_none {D P : Span → Run R} {s : Span} {l} :
    stepPair D P s = .done l (.ok none) ↔ NoMore P D s l := by
  rw [stepPair, M.bind_eq_ok, NoMore]
  constructor
  · rintro ⟨l1, l2, ⟨rv, rr⟩, h1, h2, rfl⟩
    cases rv with
    | none =>
      simp only [M.pure_eq_ok] at h2
      obtain ⟨rfl, _⟩ := h2
      exact .inl ⟨rr, by simpa using h1⟩
    | some w =>
      simp only at h2
      rw [M.bind_eq_ok] at h2
      obtain ⟨l3, l4, ⟨pv, pr⟩, h3, h4, rfl⟩ := h2
      cases pv with
      | some w => simp at h4
      | none =>
        simp only [Option.map_none, M.pure_eq_ok] at h4
        obtain ⟨rfl, _⟩ := h4
        exact .inr ⟨l1, l3, w, rr, pr, h1, h3, by simp⟩
  · rintro (⟨s', h⟩ | ⟨l1, l2, d, s1, s2, h1, h2, rfl⟩)
    · exact ⟨l, [], _, h, rfl, by simp⟩
    · refine ⟨l1, l2, _, h1, ?_, rfl⟩
      simp only
      rw [h2]; simp [M.pure]

theorem delimited_chain {P D : Span → Run R} {s : Span} {log vs ds s'} :
    Delimited P D s log vs ds s' ↔
      ∃ l l' v xs s1, P s = .done l (.ok ⟨some v, s1⟩) ∧ Chain (stepPair D P) s1 l' xs s' ∧
        log = l ++ l' ∧ vs = v :: xs.map (·.2) ∧ ds = xs.map (·.1) := by
  constructor
  · intro h
    induction h with
    | one hp => exact ⟨_, [], _, [], _, hp, .nil, by simp, rfl, rfl⟩
    | more hp hd _ ih =>
      obtain ⟨l1, l2, w, xs, s1, h1, h2, rfl, rfl, rfl⟩ := ih
      exact ⟨_, _, _, (_, w) :: xs, _, hp, .cons (stepPair_some.2 ⟨_, _, _, hd, h1, rfl⟩) h2, by simp, rfl, rfl⟩
  · rintro ⟨l, l', v, xs, s1, hp, hc, rfl, rfl, rfl⟩
    induction xs generalizing l l' v s s1 with
    | nil => cases hc; rw [List.append_nil]; exact .one hp
    | cons x xs ih =>
      cases hc with
      | cons hx ht =>
        obtain ⟨d, w⟩ := x
        obtain ⟨l1, l2, s2, h1, h2, rfl⟩ := stepPair_some.1 hx
        have := Delimited.more hp h1 (ih _ _ _ _ h2 ht)
        simpa using this

theorem Delimited.length {P D : Span → Run R} {s : Span} {log vs ds s'} (h : Delimited P D s log vs ds s') :
    vs.length = ds.length + 1 := by
  induction h with
  | one => rfl
  | more _ _ _ ih => simp [ih]

/-! ### The library's loops -/

/-- a failure leaves the input alone -/
def FailsBack (run : Span → Run R) : Prop := ∀ s l s', run s = .done l (.ok ⟨none, s'⟩) → s' = s

theorem Parse_failsBack (p : Parser α) : FailsBack (Parse C p) := fun _ _ _ h => ((Parse_good p _).ok h).2 rfl
theorem Look_failsBack (p : Parser α) : FailsBack (Look C p) := fun _ _ _ h => ((Look_good p _).ok h).2 rfl

/-- what inserting at the back does -/
def collect (T : Ty) (v : Val) (vs : List Val) : Val :=
  if T = .void then v else match v with
    | .vec ws => .vec (ws ++ vs)
    | _ => v

theorem insertBack_eq {T : Ty} {v w : Val} {s : Span} (h : T = .void ∨ ∃ ws, v = .vec ws) :
    builderInsertBack T v ⟨some w, s⟩ = M.pure (collect T v [w]) := by
  unfold builderInsertBack collect
  split
  · rfl
  · rcases h with h | ⟨ws, rfl⟩
    · contradiction
    · simp [R.deref, M.pure_bind]

theorem collect_vec {T : Ty} {v : Val} {vs : List Val} (h : T = .void ∨ ∃ ws, v = .vec ws) :
    T = .void ∨ ∃ ws, collect T v vs = .vec ws := by
  rcases h with h | ⟨ws, rfl⟩
  · exact .inl h
  · by_cases hT : T = .void
    · exact .inl hT
    · exact .inr ⟨ws ++ vs, by simp [collect, hT]⟩

theorem collect_collect {T : Ty} {v w : Val} {vs : List Val} (h : T = .void ∨ ∃ ws, v = .vec ws) :
    collect T (collect T v [w]) vs = collect T v (w :: vs) := by
  by_cases hT : T = .void
  · simp [collect, hT]
  · rcases h with h | ⟨ws, rfl⟩
    · contradiction
    · simp [collect, hT]

theorem collect_nil {T : Ty} {v : Val} (h : T = .void ∨ ∃ ws, v = .vec ws) : collect T v [] = v := by
  by_cases hT : T = .void
  · simp [collect, hT]
  · rcases h with h | ⟨ws, rfl⟩
    · contradiction
    · simp [collect, hT]

theorem zeroOrMoreLoop_rep {T : Ty} {P : Sub} (hP : FailsBack P.parse) (k : Nat) (s : Span) (v : Val)
    (h : T = .void ∨ ∃ ws, v = .vec ws) :
    zeroOrMoreLoop T P k s v =
      M.bind (rep (stepOf P.parse) k s) fun x => M.pure (x.2, collect T v x.1) := by
  induction k generalizing s v with
  | zero => rfl
  | succ k ih =>
    simp only [zeroOrMoreLoop, rep, stepOf, M.bind_eq]
    rw [M.bind_assoc, M.bind_assoc]
    refine M.bind_congr' fun l r hr => ?_
    obtain ⟨rv, rr⟩ := r
    cases rv with
    | none =>
      cases hP _ _ _ hr
      simp [R.hasValue, M.pure_bind, collect_nil h]
    | some w =>
      rw [insertBack_eq h]
      simp only [R.hasValue, Option.isSome_some, Bool.not_true, Bool.false_eq_true, ↓reduceIte, M.pure_bind,
        Option.map_some]
      rw [ih _ _ (collect_vec h), M.bind_assoc]
      exact M.bind_congr fun x => by rw [M.pure_bind, collect_collect h]

theorem oneOrMoreLoop_rep {T : Ty} {P : Sub} (hP : FailsBack P.parse) (k : Nat) (b : Bool) (s : Span) (v : Val)
    (h : T = .void ∨ ∃ ws, v = .vec ws) :
    oneOrMoreLoop T P k b s v =
      M.bind (rep (stepOf P.parse) k s) fun x => M.pure (b || !x.1.isEmpty, x.2, collect T v x.1) := by
  induction k generalizing b s v with
  | zero => rfl
  | succ k ih =>
    simp only [oneOrMoreLoop, rep, stepOf, M.bind_eq]
    rw [M.bind_assoc, M.bind_assoc]
    refine M.bind_congr' fun l r hr => ?_
    obtain ⟨rv, rr⟩ := r
    cases rv with
    | none =>
      cases hP _ _ _ hr
      simp [R.hasValue, M.pure_bind, collect_nil h]
    | some w =>
      rw [insertBack_eq h]
      simp only [R.hasValue, Option.isSome_some, Bool.not_true, Bool.false_eq_true, ↓reduceIte, M.pure_bind,
        Option.map_some, Bool.or_true]
      rw [ih _ _ _ (collect_vec h), M.bind_assoc]
      exact M.bind_congr fun x => by rw [M.pure_bind, collect_collect h]; simp

theorem lookZeroOrMoreLoop_rep {P : Sub} (hP : FailsBack P.look) (k : Nat) (s : Span) :
    lookZeroOrMoreLoop P k s = M.bind (rep (stepOf P.look) k s) fun x => M.pure x.2 := by
  induction k generalizing s with
  | zero => rfl
  | succ k ih =>
    simp only [lookZeroOrMoreLoop, rep, stepOf, M.bind_eq]
    rw [M.bind_assoc, M.bind_assoc]
    refine M.bind_congr' fun l r hr => ?_
    obtain ⟨rv, rr⟩ := r
    cases rv with
    | none => cases hP _ _ _ hr; simp [R.hasValue, M.pure_bind]
    | some w =>
      simp only [R.hasValue, Option.isSome_some, Bool.not_true, Bool.false_eq_true, ↓reduceIte, M.pure_bind,
        Option.map_some]
      rw [ih, M.bind_assoc]
      exact M.bind_congr fun x => by rw [M.pure_bind]

theorem lookOneOrMoreLoop_rep {P : Sub} (hP : FailsBack P.look) (k : Nat) (b : Bool) (s : Span) :
    lookOneOrMoreLoop P k b s =
      M.bind (rep (stepOf P.look) k s) fun x => M.pure (b || !x.1.isEmpty, x.2) := by
  induction k generalizing b s with
  | zero => rfl
  | succ k ih =>
    simp only [lookOneOrMoreLoop, rep, stepOf, M.bind_eq]
    rw [M.bind_assoc, M.bind_assoc]
    refine M.bind_congr' fun l r hr => ?_
    obtain ⟨rv, rr⟩ := r
    cases rv with
    | none => cases hP _ _ _ hr; simp [R.hasValue, M.pure_bind]
    | some w =>
      simp only [R.hasValue, Option.isSome_some, Bool.not_true, Bool.false_eq_true, ↓reduceIte, M.pure_bind,
        Option.map_some, Bool.or_true]
      rw [ih, M.bind_assoc]
      exact M.bind_congr fun x => by rw [M.pure_bind]; simp

/-- what recording elements and delimiters does -/
def collect2 (tp td : Ty) (v : Val) (ds vs : List Val) : Val :=
  if td = .void then if tp = .void then v else match v with
    | .vec ws => .vec (ws ++ vs)
    | _ => v
  else if tp = .void then match v with
    | .vec es => .vec (es ++ ds)
    | _ => v
  else match v with
    | .pair (.vec ws) (.vec es) => .pair (.vec (ws ++ vs)) (.vec (es ++ ds))
    | _ => v

/-- the builder holds what it should -/
def Holds (tp td : Ty) (v : Val) : Prop :=
  (td = .void → tp ≠ .void → ∃ ws, v = .vec ws) ∧ (td ≠ .void → tp = .void → ∃ es, v = .vec es) ∧
  (td ≠ .void → tp ≠ .void → ∃ ws es, v = .pair (.vec ws) (.vec es))

theorem recordP_eq {tp td : Ty} {v w : Val} {s : Span} (h : Holds tp td v) :
    delimitRecordP (delimitTy tp td) tp td v ⟨some w, s⟩ = M.pure (collect2 tp td v [] [w]) := by
  obtain ⟨h1, h2, h3⟩ := h
  unfold delimitRecordP collect2 delimitTy
  by_cases ht : td = .void <;> by_cases hp : tp = .void
  · simp [ht, hp]
  · obtain ⟨ws, rfl⟩ := h1 ht hp
    simp [ht, hp, builderInsertBack, R.deref, M.pure_bind]
  · obtain ⟨ws, rfl⟩ := h2 ht hp
    simp [ht, hp]
  · obtain ⟨ws, es, rfl⟩ := h3 ht hp
    simp [ht, hp, builderInsertBackFirst, R.deref, M.pure_bind]

theorem recordD_some {tp td : Ty} {v w d : Val} {s s' : Span} (h : Holds tp td v) :
    delimitRecordD (delimitTy tp td) tp td v ⟨some w, s⟩ ⟨some d, s'⟩ = M.pure (collect2 tp td v [d] []) := by
  obtain ⟨h1, h2, h3⟩ := h
  unfold delimitRecordD collect2 delimitTy
  by_cases ht : td = .void <;> by_cases hp : tp = .void
  · simp [ht, hp]
  · obtain ⟨ws, rfl⟩ := h1 ht hp
    simp [ht, hp]
  · obtain ⟨ws, rfl⟩ := h2 ht hp
    simp [ht, hp, builderInsertBack, R.deref, M.pure_bind, R.hasValue]
  · obtain ⟨ws, es, rfl⟩ := h3 ht hp
    simp [ht, hp, builderInsertBackSecond, R.deref, M.pure_bind, R.hasValue]

theorem recordD_none {T tp td : Ty} {v : Val} {s : Span} {r : R} :
    delimitRecordD T tp td v ⟨none, s⟩ r = M.pure v := by
  unfold delimitRecordD
  by_cases ht : td = .void <;> simp [ht, R.hasValue]

theorem collect2_holds {tp td : Ty} {v : Val} {ds vs : List Val} (h : Holds tp td v) :
    Holds tp td (collect2 tp td v ds vs) := by
  obtain ⟨h1, h2, h3⟩ := h
  unfold collect2
  refine ⟨fun a b => ?_, fun a b => ?_, fun a b => ?_⟩
  · obtain ⟨ws, rfl⟩ := h1 a b; simp [a, b]
  · obtain ⟨ws, rfl⟩ := h2 a b; simp [a, b]
  · obtain ⟨ws, es, rfl⟩ := h3 a b; simp [a, b]

theorem collect2_collect2 {tp td : Ty} {v : Val} {ds vs ds' vs' : List Val} (h : Holds tp td v) :
    collect2 tp td (collect2 tp td v ds vs) ds' vs' = collect2 tp td v (ds ++ ds') (vs ++ vs') := by
  obtain ⟨h1, h2, h3⟩ := h
  unfold collect2
  by_cases ht : td = .void <;> by_cases hp : tp = .void
  · simp [ht, hp]
  · obtain ⟨ws, rfl⟩ := h1 ht hp; simp [ht, hp]
  · obtain ⟨ws, rfl⟩ := h2 ht hp; simp [ht, hp]
  · obtain ⟨ws, es, rfl⟩ := h3 ht hp; simp [ht, hp]

theorem collect2_nil {tp td : Ty} {v : Val} (h : Holds tp td v) : collect2 tp td v [] [] = v := by
  obtain ⟨h1, h2, h3⟩ := h
  unfold collect2
  by_cases ht : td = .void <;> by_cases hp : tp = .void
  · simp [ht, hp]
  · obtain ⟨ws, rfl⟩ := h1 ht hp; simp [ht, hp]
  · obtain ⟨ws, rfl⟩ := h2 ht hp; simp [ht, hp]
  · obtain ⟨ws, es, rfl⟩ := h3 ht hp; simp [ht, hp]

theorem dlmLoop_fail {T tp td : Ty} {P D : Sub} {s s' : Span} {v : Val} :
    dlmLoop T tp td P D ⟨none, s'⟩ s v = M.pure (s, v) := by
  rw [dlmLoop_eq]; simp [R.hasValue]

theorem lookDlmLoop_fail {P D : Sub} {s s' : Span} : lookDlmLoop P D ⟨none, s'⟩ s = M.pure s := by
  rw [lookDlmLoop_eq]; simp [R.hasValue]

/-- Fuel-free simulation: a loop that unfolds like a repetition is one, given that each of
its rounds spends fuel. -/
theorem delimitLoop_rep {tp td : Ty} {P D : Sub} (k : Nat) (w : Val)
    (s0 s : Span) (v : Val) (h : Holds tp td v) :
    (delimitLoop (delimitTy tp td) tp td P D k ⟨some w, s⟩ s0 v).le
      (M.bind (repeatAll (stepPair D.parse P.parse) s) fun x =>
        M.pure (x.2, collect2 tp td v (x.1.map (·.1)) (w :: x.1.map (·.2)))) := by
  induction k generalizing w s0 s v with
  | zero => exact M.diverge_le _
  | succ k ih =>
    rw [repeatAll_eq]
    simp only [delimitLoop, M.bind_eq, R.hasValue, Option.isSome_some, Bool.not_true, Bool.false_eq_true,
      ↓reduceIte, recordP_eq h, M.pure_bind]
    simp only [stepPair]
    rw [M.bind_assoc, M.bind_assoc]
    refine M.bind_le (M.le_refl _) fun r => ?_
    obtain ⟨rv, rr⟩ := r
    cases rv with
    | none => simp [M.pure_bind, M.le_refl]
    | some d =>
      simp only [Option.isSome_some, Bool.not_true, Bool.false_eq_true, ↓reduceIte]
      rw [M.bind_assoc]
      refine M.bind_le (M.le_refl _) fun r => ?_
      obtain ⟨rv, rr⟩ := r
      cases rv with
      | none =>
        rw [recordD_none]
        simp only [M.pure_bind, Option.map_none, List.map_nil]
        cases k with
        | zero => exact M.diverge_le _
        | succ k => simp [delimitLoop, R.hasValue, M.le_refl]
      | some w' =>
        rw [recordD_some (collect2_holds h)]
        simp only [M.pure_bind, Option.map_some]
        refine M.le_trans (ih _ _ _ _ (collect2_holds (collect2_holds h))) ?_
        rw [M.bind_assoc]
        refine M.bind_le (M.le_refl _) fun x => ?_
        rw [M.pure_bind, collect2_collect2 (collect2_holds h), collect2_collect2 h]
        exact M.le_refl _

theorem rep_delimitLoop {tp td : Ty} {P D : Sub} (k : Nat) (w : Val)
    (s0 s : Span) (v : Val) (h : Holds tp td v) :
    (M.bind (rep (stepPair D.parse P.parse) k s) fun x =>
        M.pure (x.2, collect2 tp td v (x.1.map (·.1)) (w :: x.1.map (·.2)))).le
      (dlmLoop (delimitTy tp td) tp td P D ⟨some w, s⟩ s0 v) := by
  induction k generalizing w s0 s v with
  | zero => exact M.diverge_le _
  | succ k ih =>
    rw [dlmLoop_eq]
    simp only [rep, R.hasValue, Option.isSome_some, Bool.not_true, Bool.false_eq_true,
      ↓reduceIte, recordP_eq h, M.pure_bind]
    simp only [stepPair]
    rw [M.bind_assoc, M.bind_assoc]
    refine M.bind_le (M.le_refl _) fun r => ?_
    obtain ⟨rv, rr⟩ := r
    cases rv with
    | none => simp [M.pure_bind, M.le_refl]
    | some d =>
      simp only [Option.isSome_some, Bool.not_true, Bool.false_eq_true, ↓reduceIte]
      rw [M.bind_assoc]
      refine M.bind_le (M.le_refl _) fun r => ?_
      obtain ⟨rv, rr⟩ := r
      cases rv with
      | none =>
        rw [recordD_none]
        simp only [M.pure_bind, Option.map_none, List.map_nil, dlmLoop_fail]
        exact M.le_refl _
      | some w' =>
        rw [recordD_some (collect2_holds h)]
        simp only [M.pure_bind, Option.map_some]
        refine M.le_trans ?_ (ih _ _ _ _ (collect2_holds (collect2_holds h)))
        rw [M.bind_assoc]
        refine M.bind_le (M.le_refl _) fun x => ?_
        rw [M.pure_bind, collect2_collect2 (collect2_holds h), collect2_collect2 h]
        exact M.le_refl _

theorem Lim.le_of {L A : Type} {m : Nat → M L A} {a b : M L A} (h : Lim m a) (hb : ∀ n, (m n).le b) : a.le b := by
  intro hd
  cases ha : a with
  | diverge => exact absurd ha hd
  | done l r =>
    obtain ⟨n, hn⟩ := (h.iff l r).1 ha
    exact (hb n).done hn

theorem dlmLoop_repeat {tp td : Ty} {P D : Sub} (w : Val) (s0 s : Span) (v : Val) (h : Holds tp td v) :
    dlmLoop (delimitTy tp td) tp td P D ⟨some w, s⟩ s0 v =
      M.bind (repeatAll (stepPair D.parse P.parse) s) fun x =>
        M.pure (x.2, collect2 tp td v (x.1.map (·.1)) (w :: x.1.map (·.2))) :=
  M.le_antisymm
    (Lim.le_of (dlmLoop_lim _ _ _) fun k => delimitLoop_rep k w s0 s v h)
    (Lim.le_of (Lim.bind (repeatAll_lim _ _) fun _ => Lim.const _) fun k => rep_delimitLoop k w s0 s v h)

theorem lookDlmLoop_repeat {P D : Sub} (w : Val) (s0 s : Span) :
    lookDlmLoop P D ⟨some w, s⟩ s0 =
      M.bind (repeatAll (stepPair D.look P.look) s) fun x => M.pure x.2 := by
  refine M.le_antisymm (Lim.le_of (lookDlmLoop_lim _ _) fun k => ?_)
    (Lim.le_of (Lim.bind (f := fun _ x => M.pure x.2) (repeatAll_lim _ _) fun _ => Lim.const _) fun k => ?_)
  · induction k generalizing w s0 s with
    | zero => exact M.diverge_le _
    | succ k ih =>
      rw [repeatAll_eq]
      simp only [lookDelimitLoop, M.bind_eq, R.hasValue, Option.isSome_some, Bool.not_true, Bool.false_eq_true,
        ↓reduceIte]
      simp only [stepPair]
      rw [M.bind_assoc, M.bind_assoc]
      refine M.bind_le (M.le_refl _) fun r => ?_
      obtain ⟨rv, rr⟩ := r
      cases rv with
      | none => simp [M.pure_bind, M.le_refl]
      | some d =>
        simp only [Option.isSome_some, Bool.not_true, Bool.false_eq_true, ↓reduceIte]
        rw [M.bind_assoc]
        refine M.bind_le (M.le_refl _) fun r => ?_
        obtain ⟨rv, rr⟩ := r
        cases rv with
        | none =>
          simp only [M.pure_bind, Option.map_none]
          cases k with
          | zero => exact M.diverge_le _
          | succ k => simp [lookDelimitLoop, R.hasValue, M.le_refl]
        | some w' =>
          simp only [M.pure_bind, Option.map_some]
          refine M.le_trans (ih _ _ _) ?_
          rw [M.bind_assoc]
          exact M.bind_le (M.le_refl _) fun x => by rw [M.pure_bind]; exact M.le_refl _
  · induction k generalizing w s0 s with
    | zero => exact M.diverge_le _
    | succ k ih =>
      rw [lookDlmLoop_eq]
      simp only [rep, R.hasValue, Option.isSome_some, Bool.not_true, Bool.false_eq_true, ↓reduceIte]
      simp only [stepPair]
      rw [M.bind_assoc, M.bind_assoc]
      refine M.bind_le (M.le_refl _) fun r => ?_
      obtain ⟨rv, rr⟩ := r
      cases rv with
      | none => simp [M.pure_bind, M.le_refl]
      | some d =>
        simp only [Option.isSome_some, Bool.not_true, Bool.false_eq_true, ↓reduceIte]
        rw [M.bind_assoc]
        refine M.bind_le (M.le_refl _) fun r => ?_
        obtain ⟨rv, rr⟩ := r
        cases rv with
        | none =>
          simp only [M.pure_bind, Option.map_none, lookDlmLoop_fail]
          exact M.le_refl _
        | some w' =>
          simp only [M.pure_bind, Option.map_some]
          refine M.le_trans ?_ (ih _ _ _)
          rw [M.bind_assoc]
          exact M.bind_le (M.le_refl _) fun x => by rw [M.pure_bind]; exact M.le_refl _

end Tok3n
