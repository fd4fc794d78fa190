import Verif.Proof.Terminate
/-
The check is sound: what is not `nullable` consumes something whenever it succeeds.
-/

namespace Tok3n

variable {α β : Type} {C : Ctx α β}

theorem R.some_of {r : R} (h : ¬(!r.hasValue) = true) : r.val.isSome = true := by
  cases hv : r.val <;> simp [R.hasValue, hv] at h ⊢

/-- the result is good, and unless `b` a success consumed something -/
structure Eat (b : Bool) (s : Span) (r : R) : Prop extends Good s r where
  less : b = false → r.val.isSome = true → r.rem.len < s.len

theorem Eat.failure (b : Bool) (s : Span) : Eat b s (R.failure s) := ⟨.failure s, nofun⟩
theorem Eat.success {b : Bool} {s s' : Span} (v : Val) (h : s'.SuffixOf s) (hl : b = false → s'.len < s.len) :
    Eat b s (R.success v s') := ⟨.success v h, fun hb _ => hl hb⟩
theorem Eat.successVoid {b : Bool} {s s' : Span} (h : s'.SuffixOf s) (hl : b = false → s'.len < s.len) :
    Eat b s (R.successVoid s') := ⟨.successVoid h, fun hb _ => hl hb⟩
theorem Eat.build {b : Bool} {s s' : Span} (T : Ty) (v : Val) (h : s'.SuffixOf s) (hl : b = false → s'.len < s.len) :
    Eat b s (builderBuild T v s') := by
  unfold builderBuild; split
  · exact .successVoid h hl
  · exact .success v h hl

structure SubEat (b : Bool) (P : Sub) : Prop where
  parse : ∀ s, Sat (P.parse s) (Eat b s) anyErr
  look : ∀ s, Sat (P.look s) (Eat b s) anyErr

theorem SubEat.good {b : Bool} {P : Sub} (h : SubEat b P) : SubGood P :=
  ⟨fun s => (h.parse s).post fun _ h => h.toGood, fun s => (h.look s).post fun _ h => h.toGood⟩

theorem advanced_less {s s' : Span} {n : Nat} (h : s.Advanced n s') (hn : n ≠ 0) : s'.len < s.len := by
  have := h.size; omega

section
variable {P D : Sub} {b : Bool}

theorem basic_eat (x : BasicP α) (hb : b = false → x.length ≠ 0) :
    SubEat b ⟨parseBasic C x, lookBasic C x⟩ := by
  refine ⟨fun s => ?_, fun s => ?_⟩
  · refine Sat.bind (Sat.triv _) fun c _ => Sat.ite (fun _ => Sat.pure (.failure _ s)) fun _ => ?_
    exact Sat.bind (advance_good C s _) fun s' h => Sat.pure (.success _ ⟨_, h⟩ fun hf => advanced_less h (hb hf))
  · refine Sat.bind (Sat.triv _) fun c _ => Sat.ite (fun _ => Sat.pure (.failure _ s)) fun _ => ?_
    exact Sat.bind (advance_good C s _) fun s' h => Sat.pure (.successVoid ⟨_, h⟩ fun hf => advanced_less h (hb hf))

theorem execute_eat {e : Elem} (he : SubEat b e.sub) (T : Ty) (u c : Bool) (st : Exec) :
    Sat (execute C T u c e st)
      (fun x => x.2.input.SuffixOf st.input ∧ (x.1 = false → x.2.input = st.input) ∧
        (x.1 = true → b = false → x.2.input.len < st.input.len)) anyErr := by
  obtain ⟨P, t, i⟩ := e
  cases i with
  | none =>
    refine Sat.bind (he.look _) fun r hr => Sat.pure ⟨hr.suffix, fun h => hr.fail ?_, fun h hb => hr.less hb h⟩
    simpa [R.hasValue] using h
  | some i =>
    refine Sat.bind (he.parse _) fun r hr => Sat.ite (fun _ => Sat.pure ⟨.refl _, fun _ => rfl, nofun⟩) fun hv => ?_
    refine Sat.bind (Sat.triv _) fun v _ => Sat.pure ⟨hr.suffix, nofun, fun _ hb => hr.less hb (R.some_of hv)⟩

variable {null : Nat → Bool} {rec : Parser α → Sub} (h : ∀ q, SubEat (q.nullable null) (rec q))
include h

/-- the elements run these parsers -/
inductive RunsOf (rec : Parser α → Sub) : List Elem → List (Parser α) → Prop where
  | nil : RunsOf rec [] []
  | cons {e es q ps} : e.sub = rec q → RunsOf rec es ps → RunsOf rec (e :: es) (q :: ps)

omit h in
theorem runsOf_mkElems (ps : List (Parser α)) (is : List (Option Nat)) (hl : is.length = ps.length) :
    RunsOf rec (mkElems rec C ps is) ps := by
  induction ps generalizing is with
  | nil => cases is <;> exact .nil
  | cons p ps ih =>
    cases is with
    | nil => cases hl
    | cons i is => exact .cons rfl (ih is (by simpa using hl))

omit h in
theorem runsOf_mkLookElems (ps : List (Parser α)) : RunsOf rec (mkLookElems rec C ps) ps := by
  induction ps with
  | nil => exact .nil
  | cons p ps ih => exact .cons rfl ih

theorem foldOr_eat {es : List Elem} {ps : List (Parser α)} (he : RunsOf rec es ps) (T : Ty) (u c : Bool) (st : Exec) :
    Sat (foldOr (execute C T u c) es st)
      (fun x => x.2.input.SuffixOf st.input ∧
        (x.1 = true → someNullable null ps = false → x.2.input.len < st.input.len)) anyErr := by
  induction he generalizing st with
  | nil => exact Sat.pure ⟨.refl _, nofun⟩
  | @cons e es q ps heq _ ih =>
    refine Sat.bind (execute_eat (heq ▸ h q) T u c st) fun ⟨ok, st'⟩ hx => ?_
    simp only [someNullable, Bool.or_eq_false_iff]
    refine Sat.ite (fun ht => Sat.pure ⟨hx.1, fun _ hn => hx.2.2 ht hn.1⟩) fun hn => ?_
    have : st'.input = st.input := hx.2.1 (by simpa using hn)
    exact (ih st').post fun a ha => by rw [← this]; exact ⟨ha.1, fun h1 h2 => ha.2 h1 h2.2⟩

theorem foldAnd_eat {es : List Elem} {ps : List (Parser α)} (he : RunsOf rec es ps) (T : Ty) (u c : Bool) (st : Exec) :
    Sat (foldAnd (execute C T u c) es st)
      (fun x => x.2.input.SuffixOf st.input ∧
        (x.1 = true → allNullable null ps = false → x.2.input.len < st.input.len)) anyErr := by
  induction he generalizing st with
  | nil => exact Sat.pure ⟨.refl _, nofun⟩
  | @cons e es q ps heq _ ih =>
    refine Sat.bind (execute_eat (heq ▸ h q) T u c st) fun ⟨ok, st'⟩ hx => ?_
    simp only [allNullable, Bool.and_eq_false_iff]
    refine Sat.ite (fun ht => ?_) fun hf => Sat.pure ⟨hx.1, nofun⟩
    refine (ih st').post fun a ha => ⟨ha.1.trans hx.1, fun h1 h2 => ?_⟩
    have hl := ha.1.len_le
    have hl' := hx.1.len_le
    rcases h2 with h2 | h2
    · have := hx.2.2 ht h2; simp only at *; omega
    · have := ha.2 h1 h2; simp only at *; omega

omit h
variable (hP : SubEat b P)
include hP

theorem exactlyLoop_eat (T : Ty) (o : Span) (todo i : Nat) (s : Span) (v : Val) :
    Sat (exactlyLoop T P o todo i s v)
      (fun r => r.val.isSome = true → r.rem.len ≤ s.len ∧ (todo ≠ 0 → b = false → r.rem.len < s.len)) anyErr := by
  induction todo generalizing i s v with
  | zero =>
    refine Sat.pure fun _ => ⟨?_, fun h => absurd rfl h⟩
    unfold builderBuild; split <;> exact Nat.le_refl _
  | succ n ih =>
    refine Sat.bind (hP.parse s) fun r hr => Sat.ite (fun _ => Sat.pure nofun) fun hv => ?_
    refine Sat.bind (Sat.triv _) fun v _ => (ih _ _ _).post fun a ha hs => ?_
    have h1 := ha hs
    have h2 := hr.suffix.len_le
    refine ⟨by omega, fun _ hb => ?_⟩
    have h3 := hr.less hb (R.some_of hv)
    omega

theorem lookExactlyLoop_eat (o : Span) (todo : Nat) (s : Span) :
    Sat (lookExactlyLoop P o todo s)
      (fun r => r.val.isSome = true → r.rem.len ≤ s.len ∧ (todo ≠ 0 → b = false → r.rem.len < s.len)) anyErr := by
  induction todo generalizing s with
  | zero => exact Sat.pure fun _ => ⟨Nat.le_refl _, fun h => absurd rfl h⟩
  | succ n ih =>
    refine Sat.bind (hP.look s) fun r hr => Sat.ite (fun _ => Sat.pure nofun) fun hv => ?_
    refine (ih _).post fun a ha hs => ?_
    have h1 := ha hs
    have h2 := hr.suffix.len_le
    refine ⟨by omega, fun _ hb => ?_⟩
    have h3 := hr.less hb (R.some_of hv)
    omega

theorem exactly_eat (T : Ty) (n : Nat) : SubEat (n == 0 || b) ⟨parseExactly C T n P, lookExactly n P⟩ := by
  refine ⟨fun s => ?_, fun s => ?_⟩
  · refine Sat.bind (Sat.triv _) fun v _ => ?_
    refine (Sat.and (exactlyLoop_good hP.good T n 0 s v (.refl s)) (exactlyLoop_eat hP T s n 0 s v)).mono
      (fun r hr => ⟨hr.1, fun hb hs => ?_⟩) fun _ _ => trivial
    simp only [Bool.or_eq_false_iff, beq_eq_false_iff_ne] at hb
    exact (hr.2 hs).2 hb.1 hb.2
  · refine (Sat.and (lookExactlyLoop_good hP.good n s (.refl s)) (lookExactlyLoop_eat hP s n s)).mono
      (fun r hr => ⟨hr.1, fun hb hs => ?_⟩) fun _ _ => trivial
    simp only [Bool.or_eq_false_iff, beq_eq_false_iff_ne] at hb
    exact (hr.2 hs).2 hb.1 hb.2

theorem oneOrMore_eat (T : Ty) (k : Nat) : SubEat b ⟨parseOneOrMore C T P k, lookOneOrMore P k⟩ := by
  refine ⟨fun s => ?_, fun s => ?_⟩
  · refine Sat.bind (Sat.triv _) fun v _ => ?_
    refine Sat.bind (Q := fun x => (x.2.1.SuffixOf s ∧ (x.1 = false → x.2.1 = s)) ∧
      (x.1 = true → b = false → x.2.1.len < s.len)) ?_ fun x hx => ?_
    · refine (Sat.and (E' := anyErr) (oneOrMoreLoop_good hP.good T k false s v) ?_).mono (fun _ h => h) fun _ _ => trivial
      cases k with
      | zero => exact Sat.diverge
      | succ k =>
        refine Sat.bind (hP.parse s) fun r hr => Sat.ite (fun hv => ?_) fun hv => ?_
        · refine Sat.pure fun ht => ?_
          have hv : r.hasValue = false := by simpa using hv
          simp [hv] at ht
        · refine Sat.bind (Sat.triv _) fun v _ => (oneOrMoreLoop_good hP.good _ _ _ _ _).post fun a ha _ hb => ?_
          have h1 := hr.less hb (R.some_of hv)
          have h2 := ha.1.len_le
          omega
    · obtain ⟨c, s', v⟩ := x
      refine Sat.ite (fun hc => Sat.pure (.build _ _ hx.1.1 fun hb => hx.2 hc hb)) fun hc => ?_
      have : s' = s := hx.1.2 (by simpa using hc)
      subst this; exact Sat.pure (.failure _ _)
  · refine Sat.bind (Q := fun x => (x.2.SuffixOf s ∧ (x.1 = false → x.2 = s)) ∧
      (x.1 = true → b = false → x.2.len < s.len)) ?_ fun x hx => ?_
    · refine (Sat.and (E' := anyErr) (lookOneOrMoreLoop_good hP.good k false s) ?_).mono (fun _ h => h) fun _ _ => trivial
      cases k with
      | zero => exact Sat.diverge
      | succ k =>
        refine Sat.bind (hP.look s) fun r hr => Sat.ite (fun hv => ?_) fun hv => ?_
        · refine Sat.pure fun ht => ?_
          have hv : r.hasValue = false := by simpa using hv
          simp [hv] at ht
        · refine (lookOneOrMoreLoop_good hP.good _ _ _).post fun a ha _ hb => ?_
          have h1 := hr.less hb (R.some_of hv)
          have h2 := ha.1.len_le
          omega
    · obtain ⟨c, s'⟩ := x
      refine Sat.ite (fun hc => Sat.pure (.successVoid hx.1.1 fun hb => hx.2 hc hb)) fun hc => ?_
      have : s' = s := hx.1.2 (by simpa using hc)
      subst this; exact Sat.pure (.failure _ _)

theorem delimit_eat {D : Sub} (hD : SubGood D) (T tp td : Ty) (k : Nat) :
    SubEat b ⟨parseDelimit C T tp td P D k, lookDelimit P D k⟩ := by
  refine ⟨fun s => ?_, fun s => ?_⟩
  · refine Sat.bind (Sat.triv _) fun v _ => Sat.bind (hP.parse s) fun r hr => ?_
    refine Sat.ite (fun _ => Sat.pure (.failure _ s)) fun hv => ?_
    refine Sat.bind (Q := fun x => x.1.SuffixOf r.rem) ?_ fun x hx =>
      Sat.pure (.build _ _ (hx.trans hr.suffix) fun hb => ?_)
    · cases k with
      | zero => exact Sat.diverge
      | succ k =>
        refine Sat.ite (fun h => absurd h hv) fun _ => ?_
        refine Sat.bind (Sat.triv _) fun v _ => Sat.bind (hD.parse _) fun dr hdr => ?_
        refine Sat.ite (fun _ => Sat.pure (.refl _)) fun _ => ?_
        refine Sat.bind (hP.good.parse _) fun r' hr' => Sat.bind (Sat.triv _) fun v _ => ?_
        exact delimitLoop_good hP.good hD _ _ _ _ _ _ _ (hr'.suffix.trans hdr.suffix) (.refl _)
    · have h1 := hr.less hb (R.some_of hv)
      have h2 := hx.len_le
      omega
  · refine Sat.bind (hP.look s) fun r hr => ?_
    refine Sat.ite (fun _ => Sat.pure (.failure _ s)) fun hv => ?_
    refine Sat.bind (Q := fun x => x.SuffixOf r.rem) ?_ fun x hx =>
      Sat.pure (.successVoid (hx.trans hr.suffix) fun hb => ?_)
    · cases k with
      | zero => exact Sat.diverge
      | succ k =>
        refine Sat.ite (fun h => absurd h hv) fun _ => ?_
        refine Sat.bind (hD.look _) fun dr hdr => ?_
        refine Sat.ite (fun _ => Sat.pure (.refl _)) fun _ => ?_
        refine Sat.bind (hP.good.look _) fun r' hr' => ?_
        exact lookDelimitLoop_good hP.good hD _ _ _ (hr'.suffix.trans hdr.suffix) (.refl _)
    · have h1 := hr.less hb (R.some_of hv)
      have h2 := hx.len_le
      omega

theorem joinGeneric_eat : SubEat b (joinGeneric C P) := by
  refine ⟨fun s => ?_, hP.look⟩
  refine Sat.bind (hP.parse s) fun r hr => Sat.ite (fun hv => ?_) fun _ => Sat.pure (.failure _ s)
  refine Sat.bind (Sat.triv _) fun j _ => ?_
  cases j with
  | none => exact Sat.pure (.failure _ s)
  | some j => exact Sat.pure (.success _ hr.suffix fun hb => hr.less hb hv)

end

section
variable {null : Nat → Bool}

theorem joinExactlyLoop_eat (x : BasicP α) (o : Span) (todo : Nat) (s res : Span) :
    Sat (joinExactlyLoop C x o todo s res)
      (fun r => r.val.isSome = true → r.rem.len ≤ s.len ∧ (todo ≠ 0 → x.length ≠ 0 → r.rem.len < s.len)) anyErr := by
  induction todo generalizing s res with
  | zero => exact Sat.pure fun _ => ⟨Nat.le_refl _, fun h => absurd rfl h⟩
  | succ n ih =>
    refine Sat.bind (Sat.triv _) fun c _ => Sat.ite (fun _ => Sat.pure nofun) fun _ => ?_
    refine Sat.bind (subspan_good C s _) fun s' h => (ih _ _).post fun a ha hs => ?_
    have h1 := ha hs
    have h2 := h.size
    exact ⟨by omega, fun _ hb => by omega⟩

theorem lookJoinExactlyLoop_eat (x : BasicP α) (o : Span) (todo : Nat) (s : Span) :
    Sat (lookJoinExactlyLoop C x o todo s)
      (fun r => r.val.isSome = true → r.rem.len ≤ s.len ∧ (todo ≠ 0 → x.length ≠ 0 → r.rem.len < s.len)) anyErr := by
  induction todo generalizing s with
  | zero => exact Sat.pure fun _ => ⟨Nat.le_refl _, fun h => absurd rfl h⟩
  | succ n ih =>
    refine Sat.bind (Sat.triv _) fun c _ => Sat.ite (fun _ => Sat.pure nofun) fun _ => ?_
    refine Sat.bind (subspan_good C s _) fun s' h => (ih _).post fun a ha hs => ?_
    have h1 := ha hs
    have h2 := h.size
    exact ⟨by omega, fun _ hb => by omega⟩

theorem asBasic_length {q : Parser α} {x : BasicP α} (h : asBasic C q = some x) (hq : q.nullable null = false) :
    x.length ≠ 0 := by
  cases q <;> simp only [asBasic, reduceCtorEq] at h
  · split at h <;> cases h; simp [BasicP.length]
  · split at h <;> cases h; simp [BasicP.length]
  · cases h
    simp only [Parser.nullable, List.isEmpty_eq_false_iff] at hq
    simpa [BasicP.length] using hq

theorem semJoin_eat {rec : Parser α → Sub} (h : ∀ q, SubEat (q.nullable null) (rec q)) (k : Nat) (p : Parser α) :
    SubEat (p.nullable null) (semJoin C rec k p) := by
  cases p with
  | exactly q n =>
    simp only [semJoin]
    cases hq : asBasic C q with
    | none => exact joinGeneric_eat (h _)
    | some x =>
      refine ⟨fun s => ?_, fun s => ?_⟩
      · refine (Sat.and (joinExactlyLoop_good x n s ⟨s.ptr, 0⟩ (.refl s)) (joinExactlyLoop_eat x s n s ⟨s.ptr, 0⟩)).mono
          (fun r hr => ⟨hr.1, fun hb hs => ?_⟩) fun _ _ => trivial
        simp only [Parser.nullable, Bool.or_eq_false_iff, beq_eq_false_iff_ne] at hb
        exact (hr.2 hs).2 hb.1 (asBasic_length hq hb.2)
      · refine (Sat.and (lookJoinExactlyLoop_good x n s (.refl s)) (lookJoinExactlyLoop_eat x s n s)).mono
          (fun r hr => ⟨hr.1, fun hb hs => ?_⟩) fun _ _ => trivial
        simp only [Parser.nullable, Bool.or_eq_false_iff, beq_eq_false_iff_ne] at hb
        exact (hr.2 hs).2 hb.1 (asBasic_length hq hb.2)
  | maybe q =>
    have hg := semJoin_good (C := C) (fun q => (h q).good) k (.maybe q)
    exact ⟨fun s => (hg.parse s).post fun r hr => ⟨hr, fun hb => by simp [Parser.nullable] at hb⟩,
      fun s => (hg.look s).post fun r hr => ⟨hr, fun hb => by simp [Parser.nullable] at hb⟩⟩
  | zeroOrMore q =>
    have hg := semJoin_good (C := C) (fun q => (h q).good) k (.zeroOrMore q)
    exact ⟨fun s => (hg.parse s).post fun r hr => ⟨hr, fun hb => by simp [Parser.nullable] at hb⟩,
      fun s => (hg.look s).post fun r hr => ⟨hr, fun hb => by simp [Parser.nullable] at hb⟩⟩
  | oneOrMore q =>
    simp only [semJoin]
    cases hq : asBasic C q with
    | none => exact joinGeneric_eat (h _)
    | some x =>
      refine ⟨fun s => ?_, fun s => ?_⟩
      · refine Sat.bind (Sat.triv _) fun c _ => Sat.ite (fun _ => Sat.pure (.failure _ s)) fun _ => ?_
        refine Sat.bind (subspan_good C s _) fun s' h => ?_
        refine Sat.bind (joinRepeatLoop_good x k _ _) fun y hy => Sat.pure (.success _ (hy.trans ⟨_, h⟩) fun hb => ?_)
        have h1 := advanced_less h (asBasic_length (null := null) hq (by simpa [Parser.nullable] using hb))
        have h2 := hy.len_le
        omega
      · refine Sat.bind (Sat.triv _) fun c _ => Sat.ite (fun _ => Sat.pure (.failure _ s)) fun _ => ?_
        refine Sat.bind (subspan_good C s _) fun s' h => ?_
        refine Sat.bind (lookJoinRepeatLoop_good x k _) fun y hy => Sat.pure (.successVoid (hy.trans ⟨_, h⟩) fun hb => ?_)
        have h1 := advanced_less h (asBasic_length (null := null) hq (by simpa [Parser.nullable] using hb))
        have h2 := hy.len_le
        omega
  | _ => exact joinGeneric_eat (h _)

/-- `null` is true of every custom parser that can succeed without consuming: because its body can, or because it
succeeds where its body fails -/
def NullOK (C : Ctx α β) (null : Nat → Bool) : Prop :=
  ∀ k, (C.custom k).body.nullable null = true ∨ pretends C k = true → null k = true

theorem step_eat_of {rec : Parser α → Sub} (k : Nat)
    (h : ∀ q, SubEat (q.nullable null) (rec q)) (p : Parser α)
    (hnull : ∀ k, p = .custom k → (C.custom k).body.nullable null = true ∨ pretends C k = true → null k = true) :
    SubEat (p.nullable null) (step C rec k p) := by
  have trivially : ∀ p : Parser α, p.nullable null = true → SubEat (p.nullable null) (step C rec k p) := by
    intro p hp
    have hg := step_good (C := C) k (fun q => (h q).good) p
    exact ⟨fun s => (hg.parse s).post fun r hr => ⟨hr, fun hb => by simp [hp] at hb⟩,
      fun s => (hg.look s).post fun r hr => ⟨hr, fun hb => by simp [hp] at hb⟩⟩
  cases p with
  | anyOf a => exact basic_eat (.anyOf a) fun _ => by simp [BasicP.length]
  | noneOf a => exact basic_eat (.noneOf a) fun _ => by simp [BasicP.length]
  | anything => exact basic_eat .anything fun _ => by simp [BasicP.length]
  | allOf a =>
    refine basic_eat (.allOf a) fun hb => ?_
    simp only [Parser.nullable, List.isEmpty_eq_false_iff] at hb
    simpa [BasicP.length] using hb
  | epsilon => exact trivially _ (by simp [Parser.nullable])
  | maybe p => exact trivially _ (by simp [Parser.nullable])
  | zeroOrMore p => exact trivially _ (by simp [Parser.nullable])
  | choice ps =>
    simp only [Parser.nullable]
    refine ⟨fun s => ?_, fun s => ?_⟩
    · refine Sat.bind (Sat.triv _) fun v _ => ?_
      refine Sat.bind (foldOr_eat h (runsOf_mkElems ps _ (choiceTrait_length ps)) _ _ _ _) fun x hx => ?_
      exact Sat.ite (fun _ => Sat.pure (.failure _ s)) fun ht =>
        Sat.pure (.build _ _ hx.1 fun hb => hx.2 (by simpa using ht) hb)
    · refine Sat.bind (foldOr_eat h (runsOf_mkLookElems ps) _ _ _ _) fun x hx => ?_
      exact Sat.ite (fun ht => Sat.pure (.successVoid hx.1 fun hb => hx.2 ht hb)) fun _ => Sat.pure (.failure _ s)
  | sequence ps =>
    simp only [Parser.nullable]
    refine ⟨fun s => ?_, fun s => ?_⟩
    · refine Sat.bind (Sat.triv _) fun v _ => ?_
      refine Sat.bind (foldAnd_eat h (runsOf_mkElems ps _ (sequenceTrait_length ps)) _ _ _ _) fun x hx => ?_
      exact Sat.ite (fun _ => Sat.pure (.failure _ s)) fun ht =>
        Sat.pure (.build _ _ hx.1 fun hb => hx.2 (by simpa using ht) hb)
    · refine Sat.bind (foldAnd_eat h (runsOf_mkLookElems ps) _ _ _ _) fun x hx => ?_
      exact Sat.ite (fun ht => Sat.pure (.successVoid hx.1 fun hb => hx.2 ht hb)) fun _ => Sat.pure (.failure _ s)
  | exactly p n => simp only [Parser.nullable]; exact exactly_eat (h p) _ n
  | oneOrMore p => simp only [Parser.nullable]; exact oneOrMore_eat (h p) _ k
  | delimit p d => simp only [Parser.nullable]; exact delimit_eat (h p) (h d).good _ _ _ k
  | ignore p => simp only [Parser.nullable]; exact ⟨fun s => (h p).look s, fun s => (h p).look s⟩
  | complete p =>
    simp only [Parser.nullable]
    refine ⟨fun s => ?_, fun s => ?_⟩
    · refine Sat.bind ((h p).parse s) fun r hr => ?_
      exact Sat.ite (fun _ => Sat.pure (.failure _ s)) fun _ => Sat.pure hr
    · refine Sat.bind ((h p).look s) fun r hr => ?_
      exact Sat.ite (fun _ => Sat.pure (.failure _ s)) fun _ => Sat.pure hr
  | join p => simp only [Parser.nullable]; exact semJoin_eat h k p
  | map p f =>
    simp only [Parser.nullable]
    refine ⟨fun s => ?_, fun s => (h p).look s⟩
    refine Sat.bind ((h p).parse s) fun r hr => Sat.ite (fun _ => Sat.pure (.failure _ s)) fun hv => ?_
    have hv : r.val.isSome = true := R.some_of hv
    refine Sat.bind (Sat.triv _) fun _ _ => Sat.bind (Sat.triv _) fun _ _ => ?_
    exact Sat.ite (fun _ => Sat.pure (.successVoid hr.suffix fun hb => hr.less hb hv)) fun _ =>
      Sat.pure (.success _ hr.suffix fun hb => hr.less hb hv)
  | filter p f =>
    simp only [Parser.nullable]
    refine ⟨fun s => ?_, fun s => (h p).look s⟩
    refine Sat.bind ((h p).parse s) fun r hr => Sat.ite (fun _ => Sat.pure (.failure _ s)) fun _ => ?_
    refine Sat.bind (Sat.triv _) fun _ _ => Sat.bind (Sat.triv _) fun _ _ => ?_
    exact Sat.ite (fun _ => Sat.pure hr) fun _ => Sat.pure (.failure _ s)
  | named p _ => simp only [Parser.nullable]; exact h p
  | custom j =>
    simp only [Parser.nullable]
    have hb : ∀ {s r}, Eat ((C.custom j).body.nullable null) s r → Eat (null j) s r := fun {s r} hr =>
      ⟨hr.toGood, fun hf => hr.less (by
        by_contra hc
        rw [Bool.not_eq_false] at hc
        rw [hnull j rfl (.inl hc)] at hf; cases hf)⟩
    refine ⟨fun s => ?_, fun s => ((h _).look s).post fun _ => hb⟩
    refine Sat.bind ((h _).parse s) fun r hr => ?_
    refine Sat.ite (fun _ => Sat.pure (hb hr)) fun hne => Sat.ite (fun _ => Sat.fail trivial) fun _ => ?_
    cases hg : fromOptional C (resultFor C (C.custom j).body) (C.custom j).ty with
    | some g =>
      refine Sat.pure ⟨⟨hr.suffix, nofun⟩, fun hf _ => ?_⟩
      rw [hnull j rfl (.inr (by simpa [pretends, hg] using hne))] at hf; cases hf
    | none =>
      cases hv : r.val with
      | none => exact Sat.pure (hb hr)
      | some v => exact Sat.bind (Sat.triv _) fun _ _ => Sat.pure ⟨⟨hr.suffix, nofun⟩, fun hf _ => (hb hr).less hf (by rw [hv]; rfl)⟩

theorem step_eat (hnull : NullOK C null) {rec : Parser α → Sub} (k : Nat)
    (h : ∀ q, SubEat (q.nullable null) (rec q)) (p : Parser α) :
    SubEat (p.nullable null) (step C rec k p) := step_eat_of k h p fun k _ => hnull k

theorem nullable_sound (hnull : NullOK C null) {p : Parser α}
    (h : Nullable C p) : p.nullable null = true := by
  have he : ∀ n, SubEat (p.nullable null) (sem C n p) := fun n =>
    sem_induct (C := C) (fun p P => SubEat (p.nullable null) P)
      (fun _ => ⟨fun _ => Sat.diverge, fun _ => Sat.diverge⟩) (fun _ k h p => step_eat hnull k h p) n p
  by_contra hc
  rw [Bool.not_eq_true] at hc
  obtain ⟨s, -, ⟨log, v, h⟩ | ⟨log, h⟩⟩ := h
  · have := (Parse_sat fun n => (he n).parse s).ok h
    exact absurd (this.less hc rfl) (Nat.lt_irrefl _)
  · have := (Look_sat fun n => (he n).look s).ok h
    exact absurd (this.less hc rfl) (Nat.lt_irrefl _)

end

end Tok3n
