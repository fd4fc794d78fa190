import Verif.Proof.Repeat
import Verif.Spec.Modify
/-
Runs of modifying parsers.
-/

namespace Tok3n

variable {α β : Type} {C : Ctx α β}

theorem argVals_eq {t : Ty} {v : Val} {s : Span} : argVals t ⟨some v, s⟩ = M.pure (argsOf t v) := by
  unfold argVals argsOf
  split <;> simp [R.deref]

theorem Parse_map_eq (p : Parser α) (f : Fn) (s : Span) :
    Parse C (.map p f) s = M.bind (Parse C p s) fun r => match r.val with
      | none => M.pure ⟨none, s⟩
      | some v => M.bind (invoke C f (argsOf (resultFor C p) v)) fun w =>
          M.pure ⟨some (returned (resultFor C (.map p f)) w), r.rem⟩ := by
  rw [Parse_map, parseMap]
  generalize resultFor C (.map p f) = T
  simp only [den, M.bind_eq]
  refine M.bind_congr fun r => ?_
  obtain ⟨rv, rr⟩ := r
  cases rv with
  | none => simp [R.hasValue, R.failure]
  | some v =>
    simp only [R.hasValue, Option.isSome_some, Bool.not_true, Bool.false_eq_true, if_false, argVals_eq,
      M.pure_bind]
    refine M.bind_congr fun w => ?_
    unfold returned
    split <;> rfl

theorem Parse_filter_eq (p : Parser α) (f : Fn) (s : Span) :
    Parse C (.filter p f) s = M.bind (Parse C p s) fun r => match r.val with
      | none => M.pure ⟨none, s⟩
      | some v => M.bind (invoke C f (argsOf (resultFor C p) v)) fun w =>
          M.pure (if C.truthy w then r else ⟨none, s⟩) := by
  rw [Parse_filter, parseFilter]
  simp only [den, M.bind_eq]
  refine M.bind_congr fun r => ?_
  obtain ⟨rv, rr⟩ := r
  cases rv with
  | none => simp [R.hasValue, R.failure]
  | some v =>
    simp only [R.hasValue, Option.isSome_some, Bool.not_true, Bool.false_eq_true, if_false, argVals_eq,
      M.pure_bind]
    refine M.bind_congr fun w => ?_
    split <;> rfl

/-- a run continued on success: success -/
theorem bind_val_some {A : Type} {m : Run R} {s : Span} {f : Val → Run A} {g : R → A → R} {log v s'} :
    M.bind m (fun r => match r.val with
      | none => M.pure ⟨none, s⟩
      | some v => M.bind (f v) fun w => M.pure (g r w)) = .done log (.ok ⟨some v, s'⟩) ↔
    ∃ l u s1 l' w, m = .done l (.ok ⟨some u, s1⟩) ∧ f u = .done l' (.ok w) ∧ log = l ++ l' ∧
      g ⟨some u, s1⟩ w = ⟨some v, s'⟩ := by
  rw [M.bind_eq_ok]
  constructor
  · rintro ⟨l1, l2, ⟨rv, rr⟩, h1, h2, rfl⟩
    cases rv with
    | none => simp at h2
    | some u =>
      simp only [M.bind_eq_ok, M.pure_eq_ok] at h2
      obtain ⟨l3, l4, w, h3, ⟨rfl, h4⟩, rfl⟩ := h2
      exact ⟨l1, u, rr, l3, w, h1, h3, by simp, h4.symm⟩
  · rintro ⟨l, u, s1, l', w, h1, h2, rfl, h3⟩
    refine ⟨l, l', _, h1, ?_, rfl⟩
    simp only [M.bind_eq_ok, M.pure_eq_ok]
    exact ⟨l', [], w, h2, ⟨rfl, h3.symm⟩, by simp⟩

theorem bind_val_none {A : Type} {m : Run R} {s : Span} {f : Val → Run A} {g : R → A → R} {log s'} :
    M.bind m (fun r => match r.val with
      | none => M.pure ⟨none, s⟩
      | some v => M.bind (f v) fun w => M.pure (g r w)) = .done log (.ok ⟨none, s'⟩) ↔
    (s' = s ∧ ∃ s1, m = .done log (.ok ⟨none, s1⟩)) ∨
    ∃ l u s1 l' w, m = .done l (.ok ⟨some u, s1⟩) ∧ f u = .done l' (.ok w) ∧ log = l ++ l' ∧
      g ⟨some u, s1⟩ w = ⟨none, s'⟩ := by
  rw [M.bind_eq_ok]
  constructor
  · rintro ⟨l1, l2, ⟨rv, rr⟩, h1, h2, rfl⟩
    cases rv with
    | none =>
      simp only [M.pure_eq_ok, R.mk.injEq, true_and] at h2
      obtain ⟨rfl, rfl⟩ := h2
      exact .inl ⟨rfl, rr, by simpa using h1⟩
    | some u =>
      simp only [M.bind_eq_ok, M.pure_eq_ok] at h2
      obtain ⟨l3, l4, w, h3, ⟨rfl, h4⟩, rfl⟩ := h2
      exact .inr ⟨l1, u, rr, l3, w, h1, h3, by simp, h4.symm⟩
  · rintro (⟨rfl, s1, h⟩ | ⟨l, u, s1, l', w, h1, h2, rfl, h3⟩)
    · exact ⟨log, [], _, h, by simp, by simp⟩
    · refine ⟨l, l', _, h1, ?_, rfl⟩
      simp only [M.bind_eq_ok, M.pure_eq_ok]
      exact ⟨l', [], w, h2, ⟨rfl, h3.symm⟩, by simp⟩

theorem bind_val_err {A : Type} {m : Run R} {s : Span} {f : Val → Run A} {g : R → A → R} {log e} :
    M.bind m (fun r => match r.val with
      | none => M.pure ⟨none, s⟩
      | some v => M.bind (f v) fun w => M.pure (g r w)) = .done log (.err e) ↔
    m = .done log (.err e) ∨
    ∃ l u s1 l', m = .done l (.ok ⟨some u, s1⟩) ∧ f u = .done l' (.err e) ∧ log = l ++ l' := by
  rw [M.bind_eq_err]
  constructor
  · rintro (h | ⟨l1, l2, ⟨rv, rr⟩, h1, h2, rfl⟩)
    · exact .inl h
    cases rv with
    | none => simp at h2
    | some u =>
      simp only [M.bind_eq_err, M.pure_ne_err, and_false, false_and, exists_false, or_false] at h2
      exact .inr ⟨l1, u, rr, l2, h1, h2, rfl⟩
  · rintro (h | ⟨l, u, s1, l', h1, h2, rfl⟩)
    · exact .inl h
    · refine .inr ⟨l, l', _, h1, ?_, rfl⟩
      simp only [M.bind_eq_err]
      exact .inl h2

theorem bind_val_diverge {A : Type} {m : Run R} {s : Span} {f : Val → Run A} {g : R → A → R}
    (hf : ∀ v, f v ≠ .diverge) :
    M.bind m (fun r => match r.val with
      | none => M.pure ⟨none, s⟩
      | some v => M.bind (f v) fun w => M.pure (g r w)) = .diverge ↔ m = .diverge := by
  rw [M.bind_eq_diverge]
  constructor
  · rintro (h | ⟨l1, ⟨rv, rr⟩, h1, h2⟩)
    · exact h
    cases rv with
    | none => simp at h2
    | some u =>
      simp only [M.bind_eq_diverge, M.pure_ne_diverge, and_false, exists_false, or_false] at h2
      exact absurd h2 (hf u)
  · exact .inl

theorem invoke_ends (f : Fn) (args : List Val) : invoke C f args ≠ .diverge := by
  induction f generalizing args with
  | user k =>
    simp only [invoke, M.bind_eq, M.log, M.ok_bind]
    unfold liftCall; split <;> simp [M.pure, M.fail]
  | apply f ih =>
    simp only [invoke]
    split
    · split
      · exact ih _
      · simp
    · simp
  | const k => simp [invoke, M.log, M.pure]
  | construct t =>
    simp only [invoke, M.bind_eq, M.log, M.ok_bind]
    unfold liftCall; split <;> simp [M.pure, M.fail]
  | deflt t =>
    simp only [invoke, M.bind_eq, M.log, M.ok_bind]
    unfold M.ofOption; split <;> simp [M.pure, M.fail]

theorem invoke_user {k : Nat} {args : List Val} :
    (∀ l w, invoke C (.user k) args = .done l (.ok w) ↔ l = [⟨.user k, args⟩] ∧ C.fnCall k args = .ok w) ∧
    (∀ l e, invoke C (.user k) args = .done l (.err e) ↔
      l = [⟨.user k, args⟩] ∧ ∃ x, C.fnCall k args = .error x ∧ e = .exn x) := by
  simp only [invoke, M.bind_eq, M.log, M.ok_bind, liftCall]
  cases h : C.fnCall k args with
  | ok v => simp [M.pure, eq_comm]
  | error x =>
    simp only [M.fail, M.after_done, List.append_nil, M.done.injEq, Res.err.injEq, Except.error.injEq]
    refine ⟨by simp, fun l e => ?_⟩
    constructor
    · rintro ⟨rfl, rfl⟩; exact ⟨rfl, x, rfl, rfl⟩
    · rintro ⟨rfl, _, rfl, rfl⟩; exact ⟨rfl, rfl⟩

theorem invoke_construct {t : Ty} {args : List Val} :
    (∀ l w, invoke C (.construct t) args = .done l (.ok w) ↔ l = [⟨.construct t, args⟩] ∧ C.ctor t args = .ok w) ∧
    (∀ l e, invoke C (.construct t) args = .done l (.err e) ↔
      l = [⟨.construct t, args⟩] ∧ ∃ x, C.ctor t args = .error x ∧ e = .exn x) := by
  simp only [invoke, M.bind_eq, M.log, M.ok_bind, liftCall]
  cases h : C.ctor t args with
  | ok v => simp [M.pure, eq_comm]
  | error x =>
    simp only [M.fail, M.after_done, List.append_nil, M.done.injEq, Res.err.injEq, Except.error.injEq]
    refine ⟨by simp, fun l e => ?_⟩
    constructor
    · rintro ⟨rfl, rfl⟩; exact ⟨rfl, x, rfl, rfl⟩
    · rintro ⟨rfl, _, rfl, rfl⟩; exact ⟨rfl, rfl⟩

theorem componentsOf_iff {v : Val} {vs : List Val} : componentsOf v = some vs ↔ Components v vs := by
  constructor
  · intro h
    cases v <;> simp [componentsOf] at h <;> subst h <;> constructor
  · rintro ⟨⟩ <;> rfl

theorem invoke_apply_ok {f : Fn} {v : Val} {l w} :
    invoke C (.apply f) [v] = .done l (.ok w) ↔ ∃ vs, Components v vs ∧ invoke C f vs = .done l (.ok w) := by
  simp only [invoke]
  constructor
  · intro h
    split at h
    · rename_i vs hv; exact ⟨vs, componentsOf_iff.1 hv, h⟩
    · simp at h
  · rintro ⟨vs, hv, h⟩
    rw [componentsOf_iff.2 hv]; exact h

end Tok3n
