import Verif.Proof.StatefulCalls
import Verif.Proof.Compound
import Verif.Spec.Default
/-
Choices and sequences with stateful callbacks in terms of runs of their parts: what
`Proof/Compound.lean` and `Proof/Verdict.lean` prove for callbacks without state.
-/

namespace Tok3n.Stateful

variable {σ α β A B D : Type} {C : Ctx α β} {U : Callbacks σ}

/-! ### Laws of runs -/

namespace SRun

@[simp] theorem pure_bind (a : A) (f : A → SRun σ B) : SRun.bind (SRun.pure a) f = f a := Stateful.pure_bind a f
@[simp] theorem bind_pure (m : SRun σ A) : SRun.bind m SRun.pure = m := by
  funext st
  exact M.bind_pure _
theorem bind_assoc (m : SRun σ A) (f : A → SRun σ B) (g : B → SRun σ D) :
    SRun.bind (SRun.bind m f) g = SRun.bind m fun a => SRun.bind (f a) g := by
  funext st
  exact M.bind_assoc _ _ _
theorem bind_congr {m : SRun σ A} {f g : A → SRun σ B} (h : ∀ a, f a = g a) : SRun.bind m f = SRun.bind m g := by
  rw [show f = g from funext h]
theorem bind_congr' {m : SRun σ A} {f g : A → SRun σ B} (h : ∀ st l a st', m st = .done l (.ok (a, st')) → f a = g a) :
    SRun.bind m f = SRun.bind m g := by
  funext st
  exact M.bind_congr' fun l a hm => by rw [h st l a.1 a.2 hm]

theorem eq_ok {m : SRun σ A} {f : A → SRun σ B} {st : σ} {l : List Call} {y : B × σ} :
    SRun.bind m f st = .done l (.ok y) ↔
      ∃ l1 l2 a st1, m st = .done l1 (.ok (a, st1)) ∧ f a st1 = .done l2 (.ok y) ∧ l = l1 ++ l2 := bind_ok
theorem eq_err {m : SRun σ A} {f : A → SRun σ B} {st : σ} {l : List Call} {e : Err} :
    SRun.bind m f st = .done l (.err e) ↔ m st = .done l (.err e) ∨
      ∃ l1 l2 a st1, m st = .done l1 (.ok (a, st1)) ∧ f a st1 = .done l2 (.err e) ∧ l = l1 ++ l2 := by
  unfold SRun.bind
  rw [M.bind_eq_err]
  refine or_congr Iff.rfl ⟨?_, ?_⟩
  · rintro ⟨l1, l2, ⟨a, st1⟩, h1, h2, h3⟩; exact ⟨l1, l2, a, st1, h1, h2, h3⟩
  · rintro ⟨l1, l2, a, st1, h1, h2, h3⟩; exact ⟨l1, l2, (a, st1), h1, h2, h3⟩
theorem eq_diverge {m : SRun σ A} {f : A → SRun σ B} {st : σ} :
    SRun.bind m f st = .diverge ↔ m st = .diverge ∨
      ∃ l a st1, m st = .done l (.ok (a, st1)) ∧ f a st1 = .diverge := by
  unfold SRun.bind
  rw [M.bind_eq_diverge]
  refine or_congr Iff.rfl ⟨?_, ?_⟩
  · rintro ⟨l1, ⟨a, st1⟩, h1, h2⟩; exact ⟨l1, a, st1, h1, h2⟩
  · rintro ⟨l1, a, st1, h1, h2⟩; exact ⟨l1, (a, st1), h1, h2⟩

@[simp] theorem pure_ne_err {a : A} {st : σ} {l e} : (SRun.pure a : SRun σ A) st ≠ .done l (.err e) := nofun
@[simp] theorem pure_ne_diverge {a : A} {st : σ} : (SRun.pure a : SRun σ A) st ≠ .diverge := nofun

end SRun

/-! ### Reference combinators -/

def inOrder : List (Span → SRun σ R) → Span → SRun σ (Option (List Val × Span))
  | [], s => SRun.pure (some ([], s))
  | m :: ms, s => SRun.bind (m s) fun r =>
    match r.val with
    | none => SRun.pure none
    | some v => SRun.bind (inOrder ms r.rem) fun x => SRun.pure (x.map fun y => (v :: y.1, y.2))

def allOrNothing (s : Span) (f : List Val → Val) (m : SRun σ (Option (List Val × Span))) : SRun σ R :=
  SRun.bind m fun
    | none => SRun.pure ⟨none, s⟩
    | some (vs, s') => SRun.pure ⟨some (f vs), s'⟩

theorem firstOf_some {s : Span} {ms : List (SRun σ R)} {st : σ} {log : List Call} {v : Val} {s' : Span} {st' : σ} :
    firstOf s ms st = .done log (.ok (⟨some v, s'⟩, st')) ↔
      ∃ before m after l l' st1, ms = before ++ m :: after ∧ AllFail before st l st1 ∧
        m st1 = .done l' (.ok (⟨some v, s'⟩, st')) ∧ log = l ++ l' := by
  induction ms generalizing log st with
  | nil => simp [firstOf, pure_ok]
  | cons m ms ih =>
    unfold firstOf
    rw [SRun.eq_ok]
    constructor
    · rintro ⟨l1, l2, ⟨rv, rr⟩, st1, hm, hk, rfl⟩
      cases rv with
      | none =>
        simp only [Option.isSome_none, Bool.false_eq_true, if_false] at hk
        obtain ⟨before, m', after, l, l', st2, rfl, hf, hm', rfl⟩ := ih.1 hk
        exact ⟨m :: before, m', after, l1 ++ l, l', st2, rfl, .cons hm hf, hm', by simp⟩
      | some w =>
        obtain ⟨rfl, h1⟩ := pure_ok.1 hk
        cases h1
        exact ⟨[], m, ms, [], l1, st, rfl, .nil, hm, by simp⟩
    · rintro ⟨before, m', after, l, l', st1, he, hf, hm', rfl⟩
      cases hf with
      | nil =>
        simp only [List.nil_append, List.cons.injEq] at he
        obtain ⟨rfl, rfl⟩ := he
        exact ⟨l', [], _, _, hm', rfl, by simp⟩
      | cons h1 h2 =>
        rename_i m1 ms1 l1 s1 st2 l2
        simp only [List.cons_append, List.cons.injEq] at he
        obtain ⟨rfl, rfl⟩ := he
        refine ⟨l1, l2 ++ l', _, _, h1, ?_, by simp⟩
        simp only [Option.isSome_none, Bool.false_eq_true, if_false]
        exact ih.2 ⟨_, _, _, _, _, _, rfl, h2, hm', rfl⟩

theorem firstOf_none {s s' : Span} {ms : List (SRun σ R)} {st : σ} {log : List Call} {st' : σ} :
    firstOf s ms st = .done log (.ok (⟨none, s'⟩, st')) ↔ s' = s ∧ AllFail ms st log st' := by
  induction ms generalizing log st with
  | nil =>
    rw [firstOf, pure_ok]
    constructor
    · rintro ⟨rfl, h⟩; cases h; exact ⟨rfl, .nil⟩
    · rintro ⟨rfl, h⟩; cases h; exact ⟨rfl, rfl⟩
  | cons m ms ih =>
    unfold firstOf
    rw [SRun.eq_ok]
    constructor
    · rintro ⟨l1, l2, ⟨rv, rr⟩, st1, hm, hk, rfl⟩
      cases rv with
      | none =>
        simp only [Option.isSome_none, Bool.false_eq_true, if_false] at hk
        obtain ⟨h1, h2⟩ := ih.1 hk
        exact ⟨h1, .cons hm h2⟩
      | some w => cases hk
    · rintro ⟨rfl, h⟩
      cases h with
      | cons h1 h2 => exact ⟨_, _, _, _, h1, by simpa using ih.2 ⟨rfl, h2⟩, rfl⟩

theorem firstOf_err {s : Span} {ms : List (SRun σ R)} {st : σ} {log : List Call} {e : Err} :
    firstOf s ms st = .done log (.err e) ↔
      ∃ before m after l l' st1, ms = before ++ m :: after ∧ AllFail before st l st1 ∧
        m st1 = .done l' (.err e) ∧ log = l ++ l' := by
  induction ms generalizing log st with
  | nil => simp [firstOf]
  | cons m ms ih =>
    unfold firstOf
    rw [SRun.eq_err]
    constructor
    · rintro (h | ⟨l1, l2, ⟨rv, rr⟩, st1, hm, hk, rfl⟩)
      · exact ⟨[], m, ms, [], log, st, rfl, .nil, h, rfl⟩
      · cases rv with
        | none =>
          simp only [Option.isSome_none, Bool.false_eq_true, if_false] at hk
          obtain ⟨before, m', after, l, l', st2, rfl, hf, hm', rfl⟩ := ih.1 hk
          exact ⟨m :: before, m', after, l1 ++ l, l', st2, rfl, .cons hm hf, hm', by simp⟩
        | some w => cases hk
    · rintro ⟨before, m', after, l, l', st1, he, hf, hm', rfl⟩
      cases hf with
      | nil =>
        simp only [List.nil_append, List.cons.injEq] at he
        obtain ⟨rfl, rfl⟩ := he
        exact .inl hm'
      | cons h1 h2 =>
        rename_i m1 ms1 l1 s1 st2 l2
        simp only [List.cons_append, List.cons.injEq] at he
        obtain ⟨rfl, rfl⟩ := he
        refine .inr ⟨l1, l2 ++ l', _, _, h1, ?_, by simp⟩
        simp only [Option.isSome_none, Bool.false_eq_true, if_false]
        exact ih.2 ⟨_, _, _, _, _, _, rfl, h2, hm', rfl⟩

theorem firstOf_diverge {s : Span} {ms : List (SRun σ R)} {st : σ} :
    firstOf s ms st = .diverge ↔
      ∃ before m after l st1, ms = before ++ m :: after ∧ AllFail before st l st1 ∧ m st1 = .diverge := by
  induction ms generalizing st with
  | nil => simp [firstOf]
  | cons m ms ih =>
    unfold firstOf
    rw [SRun.eq_diverge]
    constructor
    · rintro (h | ⟨l1, ⟨rv, rr⟩, st1, hm, hk⟩)
      · exact ⟨[], m, ms, [], st, rfl, .nil, h⟩
      · cases rv with
        | none =>
          simp only [Option.isSome_none, Bool.false_eq_true, if_false] at hk
          obtain ⟨before, m', after, l, st2, rfl, hf, hm'⟩ := ih.1 hk
          exact ⟨m :: before, m', after, l1 ++ l, st2, rfl, .cons hm hf, hm'⟩
        | some w => cases hk
    · rintro ⟨before, m', after, l, st1, he, hf, hm'⟩
      cases hf with
      | nil =>
        simp only [List.nil_append, List.cons.injEq] at he
        obtain ⟨rfl, rfl⟩ := he
        exact .inl hm'
      | cons h1 h2 =>
        simp only [List.cons_append, List.cons.injEq] at he
        obtain ⟨rfl, rfl⟩ := he
        refine .inr ⟨_, _, _, h1, ?_⟩
        simp only [Option.isSome_none, Bool.false_eq_true, if_false]
        exact ih.2 ⟨_, _, _, _, _, rfl, h2, hm'⟩

theorem inOrder_some {ms : List (Span → SRun σ R)} {s : Span} {st : σ} {log : List Call} {vs : List Val} {s' : Span}
    {st' : σ} :
    inOrder ms s st = .done log (.ok (some (vs, s'), st')) ↔ InTurn ms s st log vs s' st' := by
  induction ms generalizing s log vs st with
  | nil =>
    rw [inOrder, pure_ok]
    constructor
    · rintro ⟨rfl, h⟩; cases h; exact .nil
    · intro h; cases h; exact ⟨rfl, rfl⟩
  | cons m ms ih =>
    unfold inOrder
    rw [SRun.eq_ok]
    constructor
    · rintro ⟨l1, l2, ⟨rv, rr⟩, st1, hm, hk, rfl⟩
      cases rv with
      | none => cases hk
      | some v =>
        simp only at hk
        obtain ⟨l3, l4, x, st2, hx, hp, rfl⟩ := SRun.eq_ok.1 hk
        obtain ⟨rfl, hp⟩ := pure_ok.1 hp
        cases x with
        | none => cases hp
        | some y =>
          cases hp
          simp only [List.append_nil]
          exact .cons hm (ih.1 hx)
    · intro h
      cases h with
      | cons h1 h2 =>
        exact ⟨_, _, _, _, h1, SRun.eq_ok.2 ⟨_, [], _, _, ih.2 h2, rfl, (List.append_nil _).symm⟩, rfl⟩

theorem inOrder_none {ms : List (Span → SRun σ R)} {s : Span} {st : σ} {log : List Call} {st' : σ} :
    inOrder ms s st = .done log (.ok (none, st')) ↔
      ∃ before m after l l' vs s1 s' st1, ms = before ++ m :: after ∧ InTurn before s st l vs s1 st1 ∧
        m s1 st1 = .done l' (.ok (⟨none, s'⟩, st')) ∧ log = l ++ l' := by
  induction ms generalizing s log st with
  | nil => simp [inOrder, pure_ok]
  | cons m ms ih =>
    unfold inOrder
    rw [SRun.eq_ok]
    constructor
    · rintro ⟨l1, l2, ⟨rv, rr⟩, st1, hm, hk, rfl⟩
      cases rv with
      | none =>
        obtain ⟨rfl, h⟩ := pure_ok.1 hk
        cases h
        exact ⟨[], m, ms, [], l1, [], s, rr, st, rfl, .nil, hm, by simp⟩
      | some v =>
        simp only at hk
        obtain ⟨l3, l4, x, st2, hx, hp, rfl⟩ := SRun.eq_ok.1 hk
        obtain ⟨rfl, hp⟩ := pure_ok.1 hp
        cases x with
        | some y => cases hp
        | none =>
          cases hp
          obtain ⟨before, m', after, l, l', vs, s1, s', st3, rfl, ht, hm', rfl⟩ := ih.1 hx
          exact ⟨m :: before, m', after, l1 ++ l, l', v :: vs, s1, s', st3, rfl, .cons hm ht, hm', by simp⟩
    · rintro ⟨before, m', after, l, l', vs, s1, s', st1, he, ht, hm', rfl⟩
      cases ht with
      | nil =>
        simp only [List.nil_append, List.cons.injEq] at he
        obtain ⟨rfl, rfl⟩ := he
        exact ⟨l', [], _, _, hm', rfl, by simp⟩
      | cons h1 h2 =>
        simp only [List.cons_append, List.cons.injEq] at he
        obtain ⟨rfl, rfl⟩ := he
        rw [List.append_assoc]
        exact ⟨_, _, _, _, h1, SRun.eq_ok.2 ⟨_, [], _, _, ih.2 ⟨_, _, _, _, _, _, _, _, _, rfl, h2, hm', rfl⟩, rfl,
          (List.append_nil _).symm⟩, rfl⟩

theorem inOrder_err {ms : List (Span → SRun σ R)} {s : Span} {st : σ} {log : List Call} {e : Err} :
    inOrder ms s st = .done log (.err e) ↔
      ∃ before m after l l' vs s1 st1, ms = before ++ m :: after ∧ InTurn before s st l vs s1 st1 ∧
        m s1 st1 = .done l' (.err e) ∧ log = l ++ l' := by
  induction ms generalizing s log st with
  | nil => simp [inOrder]
  | cons m ms ih =>
    unfold inOrder
    rw [SRun.eq_err]
    constructor
    · rintro (h | ⟨l1, l2, ⟨rv, rr⟩, st1, hm, hk, rfl⟩)
      · exact ⟨[], m, ms, [], log, [], s, st, rfl, .nil, h, rfl⟩
      · cases rv with
        | none => cases hk
        | some v =>
          simp only at hk
          rcases SRun.eq_err.1 hk with hx | ⟨l3, l4, x, st2, hx, hp, rfl⟩
          · obtain ⟨before, m', after, l, l', vs, s1, st3, rfl, ht, hm', rfl⟩ := ih.1 hx
            exact ⟨m :: before, m', after, l1 ++ l, l', v :: vs, s1, st3, rfl, .cons hm ht, hm', by simp⟩
          · cases hp
    · rintro ⟨before, m', after, l, l', vs, s1, st1, he, ht, hm', rfl⟩
      cases ht with
      | nil =>
        simp only [List.nil_append, List.cons.injEq] at he
        obtain ⟨rfl, rfl⟩ := he
        exact .inl hm'
      | cons h1 h2 =>
        simp only [List.cons_append, List.cons.injEq] at he
        obtain ⟨rfl, rfl⟩ := he
        rw [List.append_assoc]
        exact .inr ⟨_, _, _, _, h1, SRun.eq_err.2 (.inl (ih.2 ⟨_, _, _, _, _, _, _, _, rfl, h2, hm', rfl⟩)), rfl⟩

theorem inOrder_diverge {ms : List (Span → SRun σ R)} {s : Span} {st : σ} :
    inOrder ms s st = .diverge ↔
      ∃ before m after l vs s1 st1, ms = before ++ m :: after ∧ InTurn before s st l vs s1 st1 ∧
        m s1 st1 = .diverge := by
  induction ms generalizing s st with
  | nil => simp [inOrder]
  | cons m ms ih =>
    unfold inOrder
    rw [SRun.eq_diverge]
    constructor
    · rintro (h | ⟨l1, ⟨rv, rr⟩, st1, hm, hk⟩)
      · exact ⟨[], m, ms, [], [], s, st, rfl, .nil, h⟩
      · cases rv with
        | none => cases hk
        | some v =>
          simp only at hk
          rcases SRun.eq_diverge.1 hk with hx | ⟨l3, x, st2, hx, hp⟩
          · obtain ⟨before, m', after, l, vs, s1, st3, rfl, ht, hm'⟩ := ih.1 hx
            exact ⟨m :: before, m', after, l1 ++ l, v :: vs, s1, st3, rfl, .cons hm ht, hm'⟩
          · cases hp
    · rintro ⟨before, m', after, l, vs, s1, st1, he, ht, hm'⟩
      cases ht with
      | nil =>
        simp only [List.nil_append, List.cons.injEq] at he
        obtain ⟨rfl, rfl⟩ := he
        exact .inl hm'
      | cons h1 h2 =>
        simp only [List.cons_append, List.cons.injEq] at he
        obtain ⟨rfl, rfl⟩ := he
        exact .inr ⟨_, _, _, h1, SRun.eq_diverge.2 (.inl (ih.2 ⟨_, _, _, _, _, _, _, rfl, h2, hm'⟩))⟩

section
variable {s s' : Span} {f : List Val → Val} {m : SRun σ (Option (List Val × Span))} {st st' : σ} {log : List Call}

theorem allOrNothing_some {v : Val} :
    allOrNothing s f m st = .done log (.ok (⟨some v, s'⟩, st')) ↔
      ∃ vs, m st = .done log (.ok (some (vs, s'), st')) ∧ v = f vs := by
  unfold allOrNothing
  rw [SRun.eq_ok]
  constructor
  · rintro ⟨l1, l2, x, st1, hx, hk, rfl⟩
    cases x with
    | none => cases hk
    | some y =>
      obtain ⟨vs, s1⟩ := y
      obtain ⟨rfl, h⟩ := pure_ok.1 hk
      cases h
      exact ⟨vs, by simpa using hx, rfl⟩
  · rintro ⟨vs, h, rfl⟩
    exact ⟨log, [], _, _, h, rfl, by simp⟩

theorem allOrNothing_none :
    allOrNothing s f m st = .done log (.ok (⟨none, s'⟩, st')) ↔ s' = s ∧ m st = .done log (.ok (none, st')) := by
  unfold allOrNothing
  rw [SRun.eq_ok]
  constructor
  · rintro ⟨l1, l2, x, st1, hx, hk, rfl⟩
    cases x with
    | none =>
      obtain ⟨rfl, h⟩ := pure_ok.1 hk
      cases h
      exact ⟨rfl, by simpa using hx⟩
    | some y => cases hk
  · rintro ⟨rfl, h⟩
    exact ⟨log, [], _, _, h, rfl, by simp⟩

theorem allOrNothing_err {e : Err} : allOrNothing s f m st = .done log (.err e) ↔ m st = .done log (.err e) := by
  unfold allOrNothing
  rw [SRun.eq_err]
  constructor
  · rintro (h | ⟨l1, l2, x, st1, hx, hk, rfl⟩)
    · exact h
    · cases x <;> cases hk
  · exact .inl

theorem allOrNothing_diverge : allOrNothing s f m st = .diverge ↔ m st = .diverge := by
  unfold allOrNothing
  rw [SRun.eq_diverge]
  constructor
  · rintro (h | ⟨l1, x, st1, hx, hk⟩)
    · exact h
    · cases x <;> cases hk
  · exact .inl

end

section
variable {s' : Span} {f : Val → Val} {m : SRun σ R} {st st' : σ} {log : List Call}

theorem mapVal_some {w : Val} : mapVal f m st = .done log (.ok (⟨some w, s'⟩, st')) ↔
    ∃ v, m st = .done log (.ok (⟨some v, s'⟩, st')) ∧ w = f v := by
  unfold mapVal
  rw [bind_ok]
  constructor
  · rintro ⟨l1, l2, ⟨rv, rr⟩, st1, h1, h2, rfl⟩
    obtain ⟨rfl, h⟩ := pure_ok.1 h2
    cases rv with
    | none => cases h
    | some v => cases h; exact ⟨v, by simpa using h1, rfl⟩
  · rintro ⟨v, h, rfl⟩
    exact ⟨log, [], _, _, h, rfl, by simp⟩

theorem mapVal_none : mapVal f m st = .done log (.ok (⟨none, s'⟩, st')) ↔ m st = .done log (.ok (⟨none, s'⟩, st')) := by
  unfold mapVal
  rw [bind_ok]
  constructor
  · rintro ⟨l1, l2, ⟨rv, rr⟩, st1, h1, h2, rfl⟩
    obtain ⟨rfl, h⟩ := pure_ok.1 h2
    cases rv with
    | some v => cases h
    | none => cases h; simpa using h1
  · intro h
    exact ⟨log, [], _, _, h, rfl, by simp⟩

theorem mapVal_err {e : Err} : mapVal f m st = .done log (.err e) ↔ m st = .done log (.err e) := by
  unfold mapVal
  rw [bind_eq, SRun.eq_err]
  constructor
  · rintro (h | ⟨l1, l2, x, st1, hx, hk, rfl⟩)
    · exact h
    · cases hk
  · exact .inl

theorem mapVal_diverge : mapVal f m st = .diverge ↔ m st = .diverge := by
  unfold mapVal
  rw [bind_eq, SRun.eq_diverge]
  constructor
  · rintro (h | ⟨l1, x, st1, hx, hk⟩)
    · exact h
    · cases hk
  · exact .inl

end

theorem AllFail.mapVal_iff {A : Type} {g : A → Val → Val} {run : A → SRun σ R} {xs : List A} {st : σ} {log st'} :
    AllFail (xs.map fun x => mapVal (g x) (run x)) st log st' ↔ AllFail (xs.map run) st log st' := by
  induction xs generalizing st log with
  | nil => exact Iff.rfl
  | cons x xs ih =>
    simp only [List.map_cons]
    constructor
    · intro h; cases h with | cons h1 h2 => exact .cons (mapVal_none.1 h1) (ih.1 h2)
    · intro h; cases h with | cons h1 h2 => exact .cons (mapVal_none.2 h1) (ih.2 h2)

theorem Look_sgood (p : Parser α) (s : Span) : Sat (Look C U p s) (Good s) anyErr := by
  rw [Look_lift]; exact .lift (Tok3n.Look_good p s)
theorem partRun_void {p : Parser α} (h : resultFor C p = .void) (s : Span) : partRun C U p s = Look C U p s := if_pos h
theorem partRun_nonvoid {p : Parser α} (h : resultFor C p ≠ .void) (s : Span) : partRun C U p s = Parse C U p s :=
  if_neg h

/-! ### Choice -/

/-- how a choice runs one alternative -/
noncomputable def altRun (C : Ctx α β) (U : Callbacks σ) (tr : Trait) (d : Val) (s : Span) (p : Parser α)
    (i : Option Nat) : SRun σ R :=
  match i with
  | none => mapVal (fun _ => d) (Look C U p s)
  | some i => mapVal (injectAt C tr d (resultFor C p) i) (Parse C U p s)

theorem foldOr_firstOf {exec : Elem σ → Exec → SRun σ (Bool × Exec)} {T : Ty} (es : List (Elem σ)) (s : Span) (d : Val)
    (hfail : ∀ e ∈ es, ∀ st l x st', exec e ⟨s, d⟩ st = .done l (.ok (x, st')) → x.1 = false → x.2 = ⟨s, d⟩) :
    (SRun.bind (foldOr exec es ⟨s, d⟩) fun x =>
      if not x.1 then SRun.pure (R.failure s) else SRun.pure (builderBuild T x.2.value x.2.input)) =
    firstOf s (es.map fun e => SRun.bind (exec e ⟨s, d⟩) fun x => SRun.pure (execResult s T x)) := by
  induction es with
  | nil => simp [foldOr, firstOf, R.failure]
  | cons e es ih =>
    simp only [foldOr, List.map_cons, firstOf, bind_eq, SRun.bind_assoc]
    apply SRun.bind_congr'
    intro st l x st' hx
    obtain ⟨b, ex⟩ := x
    cases b with
    | true =>
      simp only [if_true, SRun.pure_bind, Bool.not_true, Bool.false_eq_true, if_false, execResult]
      have : (builderBuild T ex.value ex.input).val.isSome = true := by
        unfold builderBuild; split <;> rfl
      simp [this]
    | false =>
      have := hfail e (by simp) st l _ _ hx rfl
      subst this
      simp only [Bool.false_eq_true, if_false, SRun.pure_bind, execResult, Option.isSome_none]
      exact ih fun e he => hfail e (by simp [he])

theorem execChoice_eq {tr : Trait} {d : Val} (hd : defaultVal C tr.ty = some d) (s : Span) (p : Parser α)
    (i : Option Nat) (hok : elementOK C true tr (resultFor C p) i = true) :
    (SRun.bind (execute C tr.ty tr.unwrapped true ⟨den C U p, resultFor C p, i⟩ ⟨s, d⟩) fun x =>
      SRun.pure (execResult s tr.ty x)) = altRun C U tr d s p i := by
  have hdu : tr.ty = .void → d = .unit := by
    intro h; rw [h, defaultVal] at hd; exact (Option.some.inj hd).symm
  cases i with
  | none =>
    simp only [execute, bind_eq, SRun.bind_assoc, SRun.pure_bind, altRun, mapVal]
    apply SRun.bind_congr'
    intro st l r st' hr
    have hg := (Look_sgood p s st).ok hr
    simp only [execResult, R.hasValue]
    obtain ⟨rv, rr⟩ := r
    cases rv with
    | none => simp [show rr = s from hg.2 rfl]
    | some v => simp [build_eq hdu]
  | some i =>
    simp only [execute, bind_eq, SRun.bind_assoc, altRun, mapVal]
    apply SRun.bind_congr'
    intro st l r st' hr
    have hg := (Parse_good p s st).ok hr
    simp only [R.hasValue]
    obtain ⟨rv, rr⟩ := r
    cases rv with
    | none => simp [show rr = s from hg.2 rfl, execResult]
    | some v =>
      simp only [Option.isSome_some, Bool.not_true, Bool.false_eq_true, if_false, SRun.bind_assoc, SRun.pure_bind,
        Option.map_some, liftM_eq]
      simp only [elementOK] at hok
      by_cases hu : tr.unwrapped = true
      · simp only [hu, if_true] at hok ⊢
        unfold builderAssign injectAt
        by_cases hT : tr.ty = .void
        · simp [hT, hu, lift_pure, execResult, builderBuild, hdu hT, R.successVoid]
        · simp [hT, hu, R.deref, lift_pure, execResult, builderBuild, R.success]
      · simp only [hu, Bool.false_eq_true, if_false] at hok ⊢
        unfold injectAt
        split at hok
        · next ts hT =>
          simp only [Bool.true_and] at hok
          simp only [hT, if_true, builderEmplaceAt]
          split at hok
          · next u hu' =>
            simp only [hu', M.bind_eq, R.deref, M.pure_bind]
            rw [convert_eq hok, M.pure_bind, lift_pure, SRun.pure_bind]
            simp [execResult, builderBuild, R.success, List.getD, hu', hu]
          · cases hok
        · simp at hok
        · cases hok

theorem mkElems_eq_zipWith (rec : Parser α → Sub σ) (ps : List (Parser α)) (is : List (Option Nat)) :
    mkElems rec C ps is = List.zipWith (fun p i => ⟨rec p, resultFor C p, i⟩) ps is := by
  induction ps generalizing is with
  | nil => simp [mkElems]
  | cons p ps ih =>
    cases is with
    | nil => simp [mkElems]
    | cons i is => simp [mkElems, ih]

theorem execFail {u : Bool} {d : Val} {s : Span} {p : Parser α} {i : Option Nat} {T : Ty} {t : Ty} {c : Bool} {st : σ} {l}
    {x : Bool × Exec} {st' : σ} (h : execute C T u c ⟨den C U p, t, i⟩ ⟨s, d⟩ st = .done l (.ok (x, st')))
    (hx : x.1 = false) : x.2 = ⟨s, d⟩ := by
  cases i with
  | none =>
    simp only [execute] at h
    obtain ⟨l1, l2, r, st1, hr, hf, -⟩ := bind_ok.1 h
    have hg := (Look_sgood p s st).ok hr
    cases hf
    simp only [R.hasValue, Option.isSome_eq_false_iff, Option.isNone_iff_eq_none] at hx
    rw [hg.2 hx]
  | some i =>
    simp only [execute] at h
    obtain ⟨l1, l2, r, st1, hr, hf, -⟩ := bind_ok.1 h
    split at hf
    · cases hf; rfl
    · obtain ⟨l3, l4, v, st2, hv, hf, -⟩ := bind_ok.1 hf
      cases hf; cases hx

/-- any choice whose `parse` compiles -/
theorem Parse_choice_general {ps : List (Parser α)} {d : Val}
    (hd : defaultVal C (choiceTrait (resultsFor C ps)).ty = some d)
    (hok : elementsOK C true (choiceTrait (resultsFor C ps)) (resultsFor C ps)
      (choiceTrait (resultsFor C ps)).seq = true) (s : Span) :
    Parse C U (.choice ps) s = firstOf s (List.zipWith (altRun C U (choiceTrait (resultsFor C ps)) d s) ps
      (choiceTrait (resultsFor C ps)).seq) := by
  have hz := elementsOK_zip hok
  rw [Parse_choice, parseChoice]
  simp only [builderInit, hd, M.ofOption, bind_eq, liftM_eq, lift_pure, SRun.pure_bind]
  rw [foldOr_firstOf]
  · congr 1
    rw [mkElems_eq_zipWith]
    generalize choiceTrait (resultsFor C ps) = tr at *
    rw [List.map_zipWith, zipWith_eq_map, zipWith_eq_map]
    apply List.map_congr_left
    intro pi hpi
    exact execChoice_eq hd s pi.1 pi.2 (hz pi hpi)
  · intro e he st l x st' hx hf
    rw [mkElems_eq_zipWith, zipWith_eq_map, List.mem_map] at he
    obtain ⟨pi, -, rfl⟩ := he
    exact execFail hx hf

/-- a choice whose indices are right -/
theorem Parse_choice_eq {ps : List (Parser α)} (hp : parseOK C (.choice ps) = true)
    (hi : Indexable (resultsFor C ps)) {d : Val}
    (hd : defaultVal C (choiceType (resultsFor C ps)) = some d) (s : Span) :
    Parse C U (.choice ps) s = firstOf s (ps.map fun p =>
      mapVal (choiceValue (distinct (resultsFor C ps)) d (resultFor C p)) (partRun C U p s)) := by
  simp only [parseOK, Bool.and_eq_true] at hp
  rw [← choiceTrait_ty] at hd
  rw [Parse_choice_general hd hp.1.2]
  congr 1
  have hseq : (choiceTrait (resultsFor C ps)).seq =
      ps.map fun p => wanted (distinct (resultsFor C ps)) (resultFor C p) := by
    rw [choiceTrait_seq, (filterOutVoidDeduplicate_snd _).2 hi]
    conv_lhs => rw [resultsFor_eq, List.map_map]
    rw [← resultsFor_eq]; rfl
  have hU := choiceTrait_unwrapped (resultsFor C ps)
  have hty := choiceTrait_ty (resultsFor C ps)
  have hmem : ∀ p ∈ ps, resultFor C p ≠ .void → resultFor C p ∈ distinct (resultsFor C ps) := by
    intro p hp hv
    rw [mem_distinct, resultsFor_eq]
    exact ⟨List.mem_map_of_mem hp, hv⟩
  have hnv : .void ∉ distinct (resultsFor C ps) := fun h => ((mem_distinct _ _).1 h).2 rfl
  rw [hseq]
  unfold choiceType at hty
  generalize choiceTrait (resultsFor C ps) = tr at hU hty hd ⊢
  generalize distinct (resultsFor C ps) = us at hU hty hmem hnv ⊢
  clear hseq hi hp
  rw [List.zipWith_map_right, List.zipWith_self]
  apply List.map_congr_left
  intro p hp
  by_cases hv : resultFor C p = .void
  · simp only [wanted, hv, if_true, altRun, partRun]
    congr 1
  · simp only [wanted, hv, if_false, altRun, partRun]
    have hmem := hmem p hp hv
    congr 1
    funext v
    unfold injectAt
    match us, hmem, hU, hty with
    | [t], hmem, hU, hty =>
      simp only [List.mem_singleton] at hmem
      simp only at hty
      rw [hU.2 (by simp), if_pos rfl, if_neg (by rw [hty, ← hmem]; exact hv)]
      simp [choiceValue, hv]
    | a :: b :: us, hmem, hU, hty =>
      simp only at hty
      have : ¬ tr.unwrapped = true := by rw [hU]; simp
      rw [if_neg this]
      simp only [hty, choiceValue, hv, if_false]
      congr 1
      have hlt := List.idxOf_lt_length_of_mem hmem
      simp [convFn, List.getD, List.getElem?_eq_getElem hlt, List.getElem_idxOf hlt]

/-! ### Sequence -/

theorem foldAnd_inOrder {us : List Ty} {d : Val} {tr : Trait} (hnv : .void ∉ us)
    (hty : tr.ty = tupleType us) (hU : tr.unwrapped = true ↔ us.length ≤ 1)
    (hd : defaultVal C tr.ty = some d) (s0 : Span) (ps : List (Parser α)) (ws : List Val)
    (hlen : ws.length + ((resultsFor C ps).filter (· ≠ .void)).length = us.length) (s : Span) :
    (SRun.bind (foldAnd (execute C tr.ty tr.unwrapped false)
        (mkElems (den C U) C ps (positions ws.length (resultsFor C ps))) ⟨s, fill us d ws⟩) fun x =>
      if not x.1 then SRun.pure (R.failure s0) else SRun.pure (builderBuild tr.ty x.2.value x.2.input)) =
    allOrNothing s0 (fun vs => sequenceValue (ws ++ withValue (resultsFor C ps) vs))
      (inOrder (ps.map (partRun C U)) s) := by
  induction ps generalizing ws s with
  | nil =>
    simp only [resultsFor, List.filter_nil, List.length_nil, Nat.add_zero] at hlen
    simp only [mkElems, foldAnd, SRun.pure_bind, Bool.not_true, Bool.false_eq_true, if_false, List.map_nil, inOrder,
      allOrNothing]
    rw [fill_full hnv hty hd hlen, resultsFor, withValue, List.append_nil]
    nofun
  | cons p ps ih =>
    by_cases hv : resultFor C p = .void
    · simp only [resultsFor, positions, hv, if_true, mkElems, foldAnd, execute, bind_eq, SRun.bind_assoc,
        SRun.pure_bind, List.map_cons, inOrder, allOrNothing]
      rw [partRun_void hv]
      apply SRun.bind_congr
      intro r
      obtain ⟨rv, rr⟩ := r
      cases rv with
      | none => simp [R.hasValue, R.failure]
      | some v =>
        simp only [R.hasValue, Option.isSome_some, if_true, SRun.bind_assoc, SRun.pure_bind]
        have hlen' : ws.length + ((resultsFor C ps).filter (· ≠ .void)).length = us.length := by
          simpa [resultsFor, hv] using hlen
        rw [ih ws hlen' rr, allOrNothing]
        apply SRun.bind_congr
        intro x
        cases x <;> simp [withValue]
    · simp only [resultsFor, positions, hv, if_false, mkElems, foldAnd, execute, bind_eq, SRun.bind_assoc,
        List.map_cons, inOrder, allOrNothing]
      rw [partRun_nonvoid hv]
      apply SRun.bind_congr
      intro r
      obtain ⟨rv, rr⟩ := r
      cases rv with
      | none => simp [R.hasValue, R.failure]
      | some v =>
        simp only [R.hasValue, Option.isSome_some, Bool.not_true, Bool.false_eq_true, if_false, SRun.bind_assoc,
          SRun.pure_bind, liftM_eq, ← lift_ite]
        have hlen' : (ws ++ [v]).length + ((resultsFor C ps).filter (· ≠ .void)).length = us.length := by
          simp only [resultsFor] at hlen
          rw [List.filter_cons_of_pos (by simpa using hv)] at hlen
          simp only [List.length_cons, List.length_append, List.length_nil] at hlen ⊢
          omega
        have hlt : ws.length < us.length := by
          simp only [List.length_append, List.length_singleton] at hlen'; omega
        rw [fill_step hnv hty hU hd hlt, lift_pure, SRun.pure_bind]
        simp only [if_true]
        have := ih (ws ++ [v]) hlen' rr
        rw [List.length_append, List.length_singleton] at this
        rw [this, allOrNothing]
        apply SRun.bind_congr
        intro x
        cases x <;> simp [withValue, hv]

theorem Parse_sequence_eq {ps : List (Parser α)} {d : Val}
    (hd : defaultVal C (sequenceType (resultsFor C ps)) = some d) (s : Span) :
    Parse C U (.sequence ps) s =
      allOrNothing s (fun vs => sequenceValue (withValue (resultsFor C ps) vs))
        (inOrder (ps.map (partRun C U)) s) := by
  rw [Parse_sequence, parseSequence]
  rw [← sequenceTrait_ty] at hd
  simp only [builderInit, hd, M.ofOption, bind_eq, liftM_eq, lift_pure, SRun.pure_bind]
  have hty := sequenceTrait_ty (resultsFor C ps)
  unfold sequenceType at hty
  have h := foldAnd_inOrder (U := U) (us := (resultsFor C ps).filter (· ≠ .void)) (by simp) hty
    (sequenceTrait_unwrapped _) hd s ps [] (by simp) s
  rw [fill_nil hty hd] at h
  rw [sequenceTrait_seq]
  simp only [List.nil_append, List.length_nil] at h
  exact h

end Tok3n.Stateful
